import Verif.Model.TimeArray
import Verif.Props.Utc
import Mathlib.Tactic.Linarith
import Mathlib.Tactic.LinearCombination

/-
C52: slicing an array of times.
-/
namespace Skyfield
variable {K : Type*} [Field K] [LinearOrder K] [FloorRing K]

theorem sliceEnd_mem (n : ℕ) (lo hi d : ℤ) (i : Option ℤ) (h0 : lo ≤ 0) (h1 : lo ≤ hi) (h2 : (n : ℤ) - 1 ≤ hi) (h3 : lo ≤ d) (h4 : d ≤ hi) :
    lo ≤ sliceEnd n lo hi d i ∧ sliceEnd n lo hi d i ≤ hi := by
  unfold sliceEnd
  cases i with
  | none => exact ⟨h3, h4⟩
  | some i => simp only []; split_ifs <;> omega

theorem slicePositions_lt {n : ℕ} {a b c : Option ℤ} {ks : List ℕ} (h : slicePositions n a b c = some ks) : ∀ k ∈ ks, k < n := by
  unfold slicePositions at h
  generalize c.getD 1 = step at h
  simp only [] at h
  by_cases h0 : step = 0
  · rw [if_pos h0] at h; cases h
  rw [if_neg h0] at h
  by_cases hpos : 0 < step
  · rw [if_pos hpos] at h
    have hA := (sliceEnd_mem n 0 n 0 a (by omega) (by omega) (by omega) (by omega) (by omega)).1
    have hB := (sliceEnd_mem n 0 n n b (by omega) (by omega) (by omega) (by omega) (by omega)).2
    generalize sliceEnd n 0 n 0 a = A at *
    generalize sliceEnd n 0 n n b = B at *
    simp only [Option.some.injEq] at h
    subst h
    intro k hk
    obtain ⟨j, hj, rfl⟩ := List.mem_map.1 hk
    rw [List.mem_range] at hj
    by_cases hlt : A < B
    · rw [if_pos hlt] at hj
      have : (j : ℤ) ≤ (B - A - 1) / step := by omega
      have h2 : (j : ℤ) * step ≤ B - A - 1 := (Int.le_ediv_iff_mul_le hpos).1 this
      have h3 : 0 ≤ (j : ℤ) * step := by positivity
      omega
    · rw [if_neg hlt] at hj; simp at hj
  · rw [if_neg hpos] at h
    have hA := (sliceEnd_mem n (-1) (n - 1) (n - 1) a (by omega) (by omega) (by omega) (by omega) (by omega)).2
    have hB := (sliceEnd_mem n (-1) (n - 1) (-1) b (by omega) (by omega) (by omega) (by omega) (by omega)).1
    generalize sliceEnd n (-1) (n - 1) (n - 1) a = A at *
    generalize sliceEnd n (-1) (n - 1) (-1) b = B at *
    simp only [Option.some.injEq] at h
    subst h
    intro k hk
    obtain ⟨j, hj, rfl⟩ := List.mem_map.1 hk
    rw [List.mem_range] at hj
    by_cases hlt : B < A
    · rw [if_pos hlt] at hj
      have hs : 0 < -step := by omega
      have : (j : ℤ) ≤ (A - B - 1) / (-step) := by omega
      have h2 : (j : ℤ) * (-step) ≤ A - B - 1 := (Int.le_ediv_iff_mul_le hs).1 this
      have h3 : 0 ≤ (j : ℤ) * (-step) := Int.mul_nonneg (by omega) (by omega)
      have h4 : (j : ℤ) * step = -((j : ℤ) * (-step)) := by ring
      omega
    · rw [if_neg hlt] at hj; simp at hj

theorem normIndex_lt {n : ℕ} {i : ℤ} {k : ℕ} (h : normIndex n i = some k) : k < n := by
  unfold normIndex at h
  split_ifs at h with h1 h2
  · cases h; omega
  · cases h; omega

theorem mapM_some_mem {α β : Type*} {f : α → Option β} {l : List α} {r : List β} (h : l.mapM f = some r) :
    ∀ b ∈ r, ∃ a ∈ l, f a = some b := by
  induction l generalizing r with
  | nil => simp at h; subst h; simp
  | cons a l ih =>
    rw [List.mapM_cons] at h
    cases ha : f a with
    | none => simp [ha] at h
    | some b =>
      cases hl : l.mapM f with
      | none => simp [ha, hl] at h
      | some r' =>
        simp [ha, hl] at h
        subst h
        intro x hx
        rcases List.mem_cons.1 hx with rfl | hx
        · exact ⟨a, by simp, ha⟩
        · obtain ⟨y, hy, e⟩ := ih hl x hx
          exact ⟨y, by simp [hy], e⟩

theorem mapM_total {α β : Type*} {f : α → Option β} {l : List α} (h : ∀ a ∈ l, (f a).isSome) : ∃ r, l.mapM f = some r := by
  induction l with
  | nil => exact ⟨[], rfl⟩
  | cons a l ih =>
    obtain ⟨r, hr⟩ := ih fun x hx => h x (by simp [hx])
    obtain ⟨b, hb⟩ := Option.isSome_iff_exists.1 (h a (by simp))
    exact ⟨b :: r, by rw [List.mapM_cons, hb, hr]; rfl⟩

theorem mapM_map_option {α β γ : Type*} (f : α → Option β) (g : β → γ) (l : List α) :
    l.mapM (fun a => (f a).map g) = (l.mapM f).map (List.map g) := by
  induction l with
  | nil => rfl
  | cons a l ih =>
    rw [List.mapM_cons, List.mapM_cons, ih]
    cases f a <;> cases l.mapM f <;> rfl

theorem npGet_map {α β : Type*} (l : List α) (f : α → β) (idx : NpIndex) : npGet (l.map f) idx = (npGet l idx).map (Shaped.map f) := by
  unfold npGet
  rw [List.length_map]
  cases idx.positions l.length with
  | none => rfl
  | some s =>
    cases s with
    | one k => simp only [List.getElem?_map]; cases l[k]? <;> rfl
    | many ks =>
      simp only [List.getElem?_map]
      rw [mapM_map_option (fun k => l[k]?) f ks]
      cases ks.mapM (fun k => l[k]?) <;> rfl

/-- What an index selects. -/
def Shaped.Mem {α : Type*} (a : α) : Shaped α → Prop
  | .one b => a = b
  | .many l => a ∈ l

theorem npGet_mem {α : Type*} {l : List α} {idx : NpIndex} {s : Shaped α} (h : npGet l idx = some s) : ∀ a, s.Mem a → a ∈ l := by
  unfold npGet at h
  cases hp : idx.positions l.length with
  | none => simp [hp] at h
  | some p =>
    cases p with
    | one k =>
      simp only [hp] at h
      cases hk : l[k]? with
      | none => simp [hk] at h
      | some b =>
        simp [hk] at h
        subst h
        intro a ha
        have ha : a = b := ha
        subst ha
        exact List.mem_of_getElem? hk
    | many ks =>
      simp only [hp] at h
      cases hk : ks.mapM (fun k => l[k]?) with
      | none => simp [hk] at h
      | some r =>
        simp [hk] at h
        subst h
        intro a ha
        obtain ⟨k, -, e⟩ := mapM_some_mem hk a ha
        exact List.mem_of_getElem? e

theorem filterMap_range {α : Type*} (f : ℕ → Option α) (n : ℕ) (h : ∀ i < n, (f i).isSome) :
    ((List.range n).filterMap f).length = n ∧ ∀ i, ((List.range n).filterMap f)[i]? = if i < n then f i else none := by
  induction n with
  | zero => simp
  | succ n ih =>
    obtain ⟨h1, h2⟩ := ih fun i hi => h i (by omega)
    obtain ⟨b, hb⟩ := Option.isSome_iff_exists.1 (h n (by omega))
    have e : (List.range (n + 1)).filterMap f = (List.range n).filterMap f ++ [b] := by
      rw [List.range_succ, List.filterMap_append]; simp [hb]
    refine ⟨by rw [e, List.length_append, h1]; rfl, fun i => ?_⟩
    rw [e, List.getElem?_append, h1]
    by_cases hi : i < n
    · rw [if_pos hi, h2, if_pos hi, if_pos (by omega)]
    · rw [if_neg hi]
      by_cases hn : i = n
      · subst hn; rw [if_pos (by omega), hb]; simp
      · rw [if_neg (by omega)]
        rw [List.getElem?_eq_none]
        simp; omega

omit [Field K] [LinearOrder K] [FloorRing K] in
theorem TimeArray.WellFormed.rows_spec {a : TimeArray K} (h : a.WellFormed) :
    a.rows.length = a.whole.length ∧ ∀ i, a.rows[i]? = a.row i := by
  have key : ∀ i < a.whole.length, (a.row i).isSome := by
    intro i hi
    unfold TimeArray.row
    rw [List.getElem?_eq_getElem hi, List.getElem?_eq_getElem (by rw [h.tt]; exact hi)]
    rfl
  obtain ⟨h1, h2⟩ := filterMap_range a.row a.whole.length key
  refine ⟨h1, fun i => ?_⟩
  unfold TimeArray.rows
  rw [h2]
  by_cases hi : i < a.whole.length
  · rw [if_pos hi]
  · rw [if_neg hi]
    unfold TimeArray.row
    rw [List.getElem?_eq_none (by omega)]


omit [Field K] [LinearOrder K] [FloorRing K] in
theorem TimeArray.row_eq {a : TimeArray K} {i : ℕ} {t : Time K} (h : a.row i = some t) :
    a.whole[i]? = some t.whole ∧ a.ttFraction[i]? = some t.ttFraction ∧ t.ts = a.ts ∧ t.taiFraction? = storedAt a.taiFraction? i ∧
      t.tdbFraction? = storedAt a.tdbFraction? i ∧ t.ut1Fraction? = storedAt a.ut1Fraction? i := by
  unfold TimeArray.row at h
  cases hw : a.whole[i]? with
  | none => simp [hw] at h
  | some w =>
    cases hf : a.ttFraction[i]? with
    | none => simp [hw, hf] at h
    | some f =>
      simp only [hw, hf, Option.some.injEq] at h
      subst h
      exact ⟨rfl, rfl, rfl, rfl, rfl, rfl⟩

omit [Field K] [LinearOrder K] [FloorRing K] in
theorem TimeArray.WellFormed.col_eq {a : TimeArray K} (h : a.WellFormed) {α : Type*} (col : List α) (sel : Time K → α)
    (hl : col.length = a.whole.length) (hs : ∀ i t, a.row i = some t → col[i]? = some (sel t)) : col = a.rows.map sel := by
  obtain ⟨h1, h2⟩ := h.rows_spec
  apply List.ext_getElem?
  intro i
  rw [List.getElem?_map, h2]
  cases hr : a.row i with
  | some t => rw [hs i t hr]; rfl
  | none =>
    have := h2 i
    rw [hr, List.getElem?_eq_none_iff, h1] at this
    rw [List.getElem?_eq_none (by omega)]
    rfl

omit [Field K] [LinearOrder K] [FloorRing K] in
theorem TimeArray.WellFormed.stored {a : TimeArray K} (h : a.WellFormed) (col : Option (List K)) (sel : Time K → Option K)
    (hl : ∀ c, col = some c → c.length = a.whole.length) (hs : ∀ i t, a.row i = some t → sel t = storedAt col i) :
    (col = none ∧ ∀ t ∈ a.rows, sel t = none) ∨ ∃ sel' : Time K → K, col = some (a.rows.map sel') ∧ ∀ t ∈ a.rows, sel t = some (sel' t) := by
  obtain ⟨h1, h2⟩ := h.rows_spec
  cases col with
  | none =>
    left
    refine ⟨rfl, fun t ht => ?_⟩
    obtain ⟨i, hi⟩ := List.getElem?_of_mem ht
    rw [h2] at hi
    exact hs i t hi
  | some c =>
    right
    have hc := hl c rfl
    have key : ∀ i t, a.row i = some t → ∃ v, c[i]? = some v ∧ sel t = some v := by
      intro i t hi
      have h3 : i < c.length := by
        have := (TimeArray.row_eq hi).1
        rw [hc]; exact (List.getElem?_eq_some_iff.1 this).1
      refine ⟨c[i], List.getElem?_eq_getElem h3, ?_⟩
      rw [hs i t hi]
      exact List.getElem?_eq_getElem h3
    refine ⟨fun t => (sel t).getD t.whole, ?_, ?_⟩
    · rw [← h.col_eq c (fun t => (sel t).getD t.whole) hc]
      intro i t hi
      obtain ⟨v, e1, e2⟩ := key i t hi
      rw [e1, e2]; rfl
    · intro t ht
      obtain ⟨i, hi⟩ := List.getElem?_of_mem ht
      rw [h2] at hi
      obtain ⟨v, e1, e2⟩ := key i t hi
      simp only [e2, Option.getD_some]

/-- The same time without the stored `_tai_seconds`. -/
def Time.dropSeconds (t : Time K) : Time K := { t with taiSeconds? := none }

omit [Field K] [LinearOrder K] [FloorRing K] in
theorem stored_one {a : TimeArray K} {idx : NpIndex} {t : Time K} {col : Option (List K)} {sel : Time K → Option K}
    (hn : npGet a.rows idx = some (.one t))
    (h : (col = none ∧ ∀ t ∈ a.rows, sel t = none) ∨ ∃ sel' : Time K → K, col = some (a.rows.map sel') ∧ ∀ t ∈ a.rows, sel t = some (sel' t)) :
    ∃ o, npGetStored col idx = some o ∧ o.bind Shaped.scalar = sel t := by
  have hm := npGet_mem hn t rfl
  rcases h with ⟨rfl, h⟩ | ⟨sel', rfl, h⟩
  · exact ⟨none, rfl, by rw [h t hm]; rfl⟩
  · refine ⟨some (.one (sel' t)), ?_, by rw [h t hm]; rfl⟩
    simp only [npGetStored, npGet_map, hn]
    rfl

omit [Field K] [LinearOrder K] [FloorRing K] in
theorem stored_many {a : TimeArray K} {idx : NpIndex} {ts : List (Time K)} {col : Option (List K)} {sel : Time K → Option K}
    (hn : npGet a.rows idx = some (.many ts))
    (h : (col = none ∧ ∀ t ∈ a.rows, sel t = none) ∨ ∃ sel' : Time K → K, col = some (a.rows.map sel') ∧ ∀ t ∈ a.rows, sel t = some (sel' t)) :
    ∃ o, npGetStored col idx = some o ∧ (∀ c, o.bind Shaped.list = some c → c.length = ts.length) ∧
      ∀ (i : ℕ) (t : Time K), ts[i]? = some t → storedAt (o.bind Shaped.list) i = sel t := by
  have hm := npGet_mem hn
  rcases h with ⟨rfl, h⟩ | ⟨sel', rfl, h⟩
  · refine ⟨none, rfl, by simp, fun i t hi => ?_⟩
    rw [h t (hm t (List.mem_of_getElem? hi))]; rfl
  · refine ⟨some (.many (ts.map sel')), ?_, ?_, fun i t hi => ?_⟩
    · simp only [npGetStored, npGet_map, hn]; rfl
    · intro c hc
      simp [Shaped.list] at hc
      rw [← hc, List.length_map]
    · rw [h t (hm t (List.mem_of_getElem? hi))]
      simp [Shaped.list, storedAt, hi]

/-- An object all of whose columns have one length. -/
def TimeAny.WellFormed : TimeAny K → Prop
  | .single _ => True
  | .array a => a.WellFormed

omit [Field K] [LinearOrder K] [FloorRing K] in
/-- **C52.** `t[index]` on an array of times fails exactly when the index is bad, and otherwise holds the times that the index selects, in
that order (a single time for an integer, an array otherwise), with everything they store except the whole TAI seconds. -/
theorem C52_getitem (a : TimeArray K) (h : a.WellFormed) (idx : NpIndex) :
    match npGet a.rows idx with
    | none => (TimeAny.array a).getitem idx = .error .indexError
    | some s => ∃ r, (TimeAny.array a).getitem idx = .ok r ∧ r.WellFormed ∧ r.times = s.map Time.dropSeconds := by
  have hw : a.whole = a.rows.map Time.whole := h.col_eq _ _ rfl fun i t e => (TimeArray.row_eq e).1
  have hf : a.ttFraction = a.rows.map Time.ttFraction := h.col_eq _ _ h.tt fun i t e => (TimeArray.row_eq e).2.1
  have htai := h.stored a.taiFraction? Time.taiFraction? h.tai fun i t e => (TimeArray.row_eq e).2.2.2.1
  have htdb := h.stored a.tdbFraction? Time.tdbFraction? h.tdb fun i t e => (TimeArray.row_eq e).2.2.2.2.1
  have hut1 := h.stored a.ut1Fraction? Time.ut1Fraction? h.ut1 fun i t e => (TimeArray.row_eq e).2.2.2.2.2
  have hts : ∀ t ∈ a.rows, t.ts = a.ts := by
    intro t ht
    obtain ⟨i, hi⟩ := List.getElem?_of_mem ht
    rw [h.rows_spec.2] at hi
    exact (TimeArray.row_eq hi).2.2.1
  have gw : npGet a.whole idx = (npGet a.rows idx).map (Shaped.map Time.whole) := by rw [hw, npGet_map]
  have gf : npGet a.ttFraction idx = (npGet a.rows idx).map (Shaped.map Time.ttFraction) := by rw [hf, npGet_map]
  cases hn : npGet a.rows idx with
  | none =>
    rw [hn] at gw gf
    simp only [TimeAny.getitem, gw, Option.map_none]
  | some s =>
    rw [hn] at gw gf
    have hm := npGet_mem hn
    cases s with
    | one t =>
      obtain ⟨o1, e1, f1⟩ := stored_one hn htai
      obtain ⟨o2, e2, f2⟩ := stored_one hn htdb
      obtain ⟨o3, e3, f3⟩ := stored_one hn hut1
      simp only [Option.map_some, Shaped.map] at gw gf
      simp only [TimeAny.getitem, gw, gf, e1, e2, e3]
      refine ⟨_, rfl, trivial, ?_⟩
      simp only [TimeAny.times, Shaped.map, Time.dropSeconds, f1, f2, f3, hts t (hm t rfl)]
    | many ts =>
      obtain ⟨o1, e1, l1, f1⟩ := stored_many hn htai
      obtain ⟨o2, e2, l2, f2⟩ := stored_many hn htdb
      obtain ⟨o3, e3, l3, f3⟩ := stored_many hn hut1
      simp only [Option.map_some, Shaped.map] at gw gf
      simp only [TimeAny.getitem, gw, gf, e1, e2, e3]
      have wf : TimeArray.WellFormed (K := K) { ts := a.ts, whole := ts.map Time.whole, ttFraction := ts.map Time.ttFraction,
                                                taiFraction? := o1.bind Shaped.list, tdbFraction? := o2.bind Shaped.list,
                                                ut1Fraction? := o3.bind Shaped.list } := by
        constructor
        · simp
        · intro c hc; simpa using l1 c hc
        · intro c hc; simpa using l2 c hc
        · intro c hc; simpa using l3 c hc
        · intro c hc; cases hc
      refine ⟨_, rfl, wf, ?_⟩
      simp only [TimeAny.times, Shaped.map]
      congr 1
      apply List.ext_getElem?
      intro i
      rw [wf.rows_spec.2, List.getElem?_map]
      unfold TimeArray.row
      simp only [List.getElem?_map]
      cases hi : ts[i]? with
      | none => rfl
      | some t =>
        simp only [Option.map_some, f1 i t hi, f2 i t hi, f3 i t hi, Time.dropSeconds, hts t (hm t (List.mem_of_getElem? hi))]

omit [Field K] [LinearOrder K] [FloorRing K] in
/-- A single time has no length and no items. -/
theorem C52_single (t : Time K) (idx : NpIndex) (fuel i : ℕ) : (TimeAny.single t).len = .error .typeError ∧
    (TimeAny.single t).getitem idx = .error .typeError ∧ (TimeAny.single t).iter (fuel + 1) i = .error .typeError :=
  ⟨rfl, rfl, rfl⟩

/-! ### Per-time quantities -/

/-- Specification: `q` is computed from what a time tells: its time scale data, `whole`, and the TT, TAI, TDB, UT1 fractions and TAI seconds that
the attributes give, however they were obtained. -/
def PerTime {β : Type*} (g : K → K → K) (q : Time K → β) : Prop :=
  ∀ t u : Time K, t.ts = u.ts → t.whole = u.whole → t.ttFraction = u.ttFraction → t.taiFraction = u.taiFraction →
    t.taiSeconds = u.taiSeconds → t.tdbFraction g = u.tdbFraction g → t.ut1Fraction = u.ut1Fraction → q t = q u

/-- **C52.** The quantities read off a time are of that kind. -/
theorem C52_per_time (g : K → K → K) : PerTime g (Time.tt (K := K)) ∧ PerTime g (Time.tai (K := K)) ∧ PerTime g (Time.tdb (K := K) g) ∧
    PerTime g (Time.ut1 (K := K)) ∧ PerTime g (Time.J (K := K)) ∧ PerTime g (Time.deltaT (K := K)) ∧
    PerTime g (Time.leapSeconds (K := K)) ∧ PerTime g (Time.dut1 (K := K)) ∧ (∀ o, PerTime g fun t : Time K => t.utcTuple o) ∧
    (∀ n, PerTime g fun t : Time K => t.utcIso n) ∧ PerTime g (Time.utcJpl (K := K)) ∧
    (∀ u, PerTime g fun t : Time K => t.utcStrftime u) ∧ PerTime g (Time.toordinal (K := K)) ∧
    PerTime g (Time.utcDatetimeAndLeapSecond (K := K)) ∧
    PerTime g (fun t : Time K => calendarTuple t.whole t.ttFraction t.ts.cutoff) ∧
    PerTime g (fun t : Time K => calendarTuple t.whole t.taiFraction t.ts.cutoff) ∧
    PerTime g (fun t : Time K => calendarTuple t.whole (t.tdbFraction g) t.ts.cutoff) ∧
    PerTime g (fun t : Time K => calendarTuple t.whole t.ut1Fraction t.ts.cutoff) ∧
    (∀ x, PerTime g fun t : Time K => t.addNum x) ∧ (∀ u, PerTime g fun t : Time K => t.diff u) ∧ PerTime g (Time.Coherent (K := K)) := by
  have hu : ∀ (o : K) (t u : Time K), t.ts = u.ts → t.taiSeconds = u.taiSeconds → t.utcTuple o = u.utcTuple o := by
    intro o t u h1 h2
    simp only [Time.utcTuple, Time.utcSeconds, h1, h2]
  refine ⟨?_, ?_, ?_, ?_, ?_, ?_, ?_, ?_, ?_, ?_, ?_, ?_, ?_, ?_, ?_, ?_, ?_, ?_, ?_, ?_, ?_⟩
  · intro t u h1 h2 h3 h4 h5 h6 h7; simp only [Time.tt, h2, h3]
  · intro t u h1 h2 h3 h4 h5 h6 h7; simp only [Time.tai, h2, h4]
  · intro t u h1 h2 h3 h4 h5 h6 h7; simp only [Time.tdb, h2, h6]
  · intro t u h1 h2 h3 h4 h5 h6 h7; simp only [Time.ut1, h2, h7]
  · intro t u h1 h2 h3 h4 h5 h6 h7; simp only [Time.J, h2, h3]
  · intro t u h1 h2 h3 h4 h5 h6 h7; simp only [Time.deltaT, Time.tt, h1, h2, h3]
  · intro t u h1 h2 h3 h4 h5 h6 h7; simp only [Time.leapSeconds, h1, h5]
  · intro t u h1 h2 h3 h4 h5 h6 h7; simp only [Time.dut1, Time.leapSeconds, h1, h2, h3, h5]
  · intro o t u h1 h2 h3 h4 h5 h6 h7; exact hu o t u h1 h5
  · intro n t u h1 h2 h3 h4 h5 h6 h7; simp only [Time.utcIso, hu _ t u h1 h5]
  · intro t u h1 h2 h3 h4 h5 h6 h7; simp only [Time.utcJpl, hu _ t u h1 h5]
  · intro n t u h1 h2 h3 h4 h5 h6 h7; simp only [Time.utcStrftime, hu _ t u h1 h5, h1]
  · intro t u h1 h2 h3 h4 h5 h6 h7; simp only [Time.toordinal, Time.utcSeconds, h1, h5]
  · intro t u h1 h2 h3 h4 h5 h6 h7; simp only [Time.utcDatetimeAndLeapSecond, hu _ t u h1 h5]
  · intro t u h1 h2 h3 h4 h5 h6 h7; simp only [h1, h2, h3]
  · intro t u h1 h2 h3 h4 h5 h6 h7; simp only [h1, h2, h4]
  · intro t u h1 h2 h3 h4 h5 h6 h7; simp only [h1, h2, h6]
  · intro t u h1 h2 h3 h4 h5 h6 h7; simp only [h1, h2, h7]
  · intro x t u h1 h2 h3 h4 h5 h6 h7; simp only [Time.addNum, h1, h2, h3]
  · intro v t u h1 h2 h3 h4 h5 h6 h7; simp only [Time.diff, h2, h3]
  · intro t u h1 h2 h3 h4 h5 h6 h7; simp only [Time.Coherent, Time.taiInstant, h2, h4, h5]


/-- Dropping the stored TAI seconds of a coherent time changes nothing (in exact arithmetic). -/
theorem taiSeconds_dropSeconds [IsStrictOrderedRing K] (t : Time K) (h : t.Coherent) : t.dropSeconds.taiSeconds = t.taiSeconds := by
  obtain ⟨⟨n, hn⟩, h0, h1, he⟩ := h
  have hd : t.dropSeconds.taiSeconds = (pyFloorDiv (t.whole * dayS) 1 + pyFloorDiv (pyMod (t.whole * dayS) 1 + t.taiFraction * dayS) 1,
      pyMod (pyMod (t.whole * dayS) 1 + t.taiFraction * dayS) 1) := rfl
  rw [hd]
  simp only [pyFloorDiv, pyMod, div_one, one_mul]
  simp only [Time.taiInstant] at he
  have hdS : (dayS : K) = 86400 := rfl
  rw [hdS]
  generalize ⌊t.whole * 86400⌋ = m
  generalize hx : t.whole * 86400 - (m : K) + t.taiFraction * 86400 = x
  have hx' : x = ((n - m : ℤ) : K) + t.taiSeconds.2 := by
    push_cast
    rw [← hn]
    linear_combination -hx - he
  have hfl : ⌊x⌋ = n - m := by
    rw [Int.floor_eq_iff, hx']
    constructor <;> linarith
  rw [hfl]
  apply Prod.ext
  · simp only [hn]; push_cast; ring
  · simp only [hx']; ring

theorem PerTime.dropSeconds [IsStrictOrderedRing K] {β : Type*} {g : K → K → K} {q : Time K → β} (hq : PerTime g q) (t : Time K)
    (h : t.Coherent) : q t.dropSeconds = q t :=
  hq _ _ rfl rfl rfl rfl (taiSeconds_dropSeconds t h) rfl rfl

/-- **C52.** Indexing or slicing an array of times and reading a quantity is reading the quantity and indexing or slicing it. -/
theorem C52_commutes [IsStrictOrderedRing K] {β : Type*} (g : K → K → K) (q : Time K → β) (hq : PerTime g q) (a : TimeArray K)
    (h : a.WellFormed) (hc : ∀ t ∈ a.rows, t.Coherent) (idx : NpIndex) :
    match (TimeAny.array a).getitem idx with
    | .ok r => npGet (a.rows.map q) idx = some (r.times.map q)
    | .error e => npGet (a.rows.map q) idx = none ∧ e = .indexError := by
  have := C52_getitem a h idx
  rw [npGet_map]
  cases hn : npGet a.rows idx with
  | none => rw [hn] at this; simp only [] at this; rw [this]; exact ⟨rfl, rfl⟩
  | some s =>
    rw [hn] at this
    obtain ⟨r, hr, -, ht⟩ := this
    rw [hr]
    have hm := npGet_mem hn
    simp only [Option.map_some, ht]
    cases s with
    | one t => simp only [Shaped.map]; rw [hq.dropSeconds t (hc t (hm t rfl))]
    | many l =>
      simp only [Shaped.map, List.map_map]
      congr 2
      apply List.map_congr_left
      intro t ht
      exact (hq.dropSeconds t (hc t (hm t ht))).symm

/-- **C52.** Iterating over an array of times gives its times one by one, in order. -/
theorem C52_iter (a : TimeArray K) (h : a.WellFormed) (fuel : ℕ) (hf : a.whole.length < fuel) :
    (TimeAny.array a).iter fuel 0 = .ok (a.rows.map fun t => .single t.dropSeconds) ∧ (TimeAny.array a).len = .ok a.rows.length := by
  refine ⟨?_, by rw [TimeAny.len, h.rows_spec.1]⟩
  have hlen := h.rows_spec.1
  have key : ∀ fuel i, i ≤ a.rows.length → a.rows.length - i < fuel →
      (TimeAny.array a).iter fuel i = .ok ((a.rows.drop i).map fun t => .single t.dropSeconds) := by
    intro fuel
    induction fuel with
    | zero => intro i _ h; omega
    | succ fuel ih =>
      intro i hi hlt
      have hg := C52_getitem a h (.int i)
      by_cases he : i < a.rows.length
      · have : npGet a.rows (.int i) = some (.one a.rows[i]) := by
          simp only [npGet, NpIndex.positions, normIndex]
          rw [if_pos (by omega)]
          simp [he]
        rw [this] at hg
        obtain ⟨r, hr, -, ht⟩ := hg
        have hr' : r = .single a.rows[i].dropSeconds := by
          cases r with
          | single t => simp [TimeAny.times, Shaped.map] at ht; rw [ht]
          | array b => simp [TimeAny.times, Shaped.map] at ht
        rw [TimeAny.iter, hr]
        simp only []
        rw [ih (i + 1) (by omega) (by omega), hr', List.drop_eq_getElem_cons he]
        rfl
      · have : npGet a.rows (.int i) = none := by
          simp only [npGet, NpIndex.positions, normIndex]
          rw [if_neg (by omega), if_neg (by omega)]
          rfl
        rw [this] at hg
        simp only [] at hg
        rw [TimeAny.iter, hg, List.drop_eq_nil_of_le (by omega)]
        rfl
  have := key fuel 0 (by omega) (by omega)
  simpa using this

/-! ### Columns and caching -/

omit [LinearOrder K] [FloorRing K] in
theorem getElem?_zipWith_some {α β γ : Type*} (f : α → β → γ) {l : List α} {m : List β} {i : ℕ} {x : α} {y : β} (h1 : l[i]? = some x) (h2 : m[i]? = some y) :
    (List.zipWith f l m)[i]? = some (f x y) := by
  rw [List.getElem?_zipWith, h1, h2]

/-- **C52.** The columns that NumPy computes are the quantities of the single times. -/
theorem C52_columns (g : K → K → K) (a : TimeArray K) (h : a.WellFormed) :
    a.tt = a.rows.map Time.tt ∧ a.taiFraction = a.rows.map Time.taiFraction ∧ a.tdbFraction g = a.rows.map (Time.tdbFraction g) ∧
      a.ut1Fraction = a.rows.map Time.ut1Fraction := by
  have stored : ∀ (c : List K) (i : ℕ), c.length = a.whole.length → ∀ t, a.row i = some t → ∃ v, c[i]? = some v := by
    intro c i hc t ht
    have h3 : i < c.length := by
      rw [hc]; exact (List.getElem?_eq_some_iff.1 (TimeArray.row_eq ht).1).1
    exact ⟨c[i], List.getElem?_eq_getElem h3⟩
  have htt : ∀ i t, a.row i = some t → a.tt[i]? = some t.tt := fun i t ht =>
    getElem?_zipWith_some _ (TimeArray.row_eq ht).1 (TimeArray.row_eq ht).2.1
  have ltt : a.tt.length = a.whole.length := by simp [TimeArray.tt, h.tt]
  refine ⟨h.col_eq _ _ ltt htt, h.col_eq _ _ ?_ ?_, h.col_eq _ _ ?_ ?_, h.col_eq _ _ ?_ ?_⟩
  · unfold TimeArray.taiFraction
    cases hc : a.taiFraction? with
    | none => simp [h.tt]
    | some c => exact h.tai c hc
  · intro i t ht
    obtain ⟨h1, h2, h3, h4, h5, h6⟩ := TimeArray.row_eq ht
    unfold TimeArray.taiFraction Time.taiFraction
    rw [h4]
    cases hc : a.taiFraction? with
    | none => simp [storedAt, h2]
    | some c => obtain ⟨v, hv⟩ := stored c i (h.tai c hc) t ht; simp [storedAt, hv]
  · unfold TimeArray.tdbFraction
    cases hc : a.tdbFraction? with
    | none => simp [h.tt]
    | some c => exact h.tdb c hc
  · intro i t ht
    obtain ⟨h1, h2, h3, h4, h5, h6⟩ := TimeArray.row_eq ht
    unfold TimeArray.tdbFraction Time.tdbFraction
    rw [h5]
    cases hc : a.tdbFraction? with
    | none => simp only [storedAt]; exact getElem?_zipWith_some _ h1 h2
    | some c => obtain ⟨v, hv⟩ := stored c i (h.tdb c hc) t ht; simp [storedAt, hv]
  · unfold TimeArray.ut1Fraction
    cases hc : a.ut1Fraction? with
    | none => simp [h.tt, ltt]
    | some c => exact h.ut1 c hc
  · intro i t ht
    obtain ⟨h1, h2, h3, h4, h5, h6⟩ := TimeArray.row_eq ht
    unfold TimeArray.ut1Fraction Time.ut1Fraction
    rw [h6]
    cases hc : a.ut1Fraction? with
    | none => simp only [storedAt, Time.deltaT, h3]; exact getElem?_zipWith_some (fun fr tt => fr - a.ts.deltaT tt / dayS) h2 (htt i t ht)
    | some c => obtain ⟨v, hv⟩ := stored c i (h.ut1 c hc) t ht; simp [storedAt, hv]

theorem touch_rows (g : K → K → K) (a : TimeArray K) (h : a.WellFormed) (c : TimeCol) : (a.touch g c).WellFormed ∧
    (a.touch g c).rows = a.rows.map fun t => match c with
      | .tai => { t with taiFraction? := some t.taiFraction }
      | .tdb => { t with tdbFraction? := some (t.tdbFraction g) }
      | .ut1 => { t with ut1Fraction? := some t.ut1Fraction } := by
  obtain ⟨-, c2, c3, c4⟩ := C52_columns g a h
  have hl := h.rows_spec.1
  have hwf : (a.touch g c).WellFormed := by
    cases c
    · exact ⟨h.tt, by rintro c ⟨⟩; rw [c2, List.length_map]; exact hl, h.tdb, h.ut1, h.secs⟩
    · exact ⟨h.tt, h.tai, by rintro c ⟨⟩; rw [c3, List.length_map]; exact hl, h.ut1, h.secs⟩
    · exact ⟨h.tt, h.tai, h.tdb, by rintro c ⟨⟩; rw [c4, List.length_map]; exact hl, h.secs⟩
  refine ⟨hwf, ?_⟩
  apply List.ext_getElem?
  intro i
  rw [hwf.rows_spec.2, List.getElem?_map, h.rows_spec.2]
  have hri := h.rows_spec.2 i
  cases hr : a.row i with
  | none =>
    unfold TimeArray.row at hr ⊢
    cases c <;> (simp only [TimeArray.touch]; cases h1 : a.whole[i]? <;> cases h2 : a.ttFraction[i]? <;> simp_all)
  | some t =>
    rw [hr] at hri
    have e2 : a.taiFraction[i]? = some t.taiFraction := by rw [c2, List.getElem?_map, hri]; rfl
    have e3 : (a.tdbFraction g)[i]? = some (t.tdbFraction g) := by rw [c3, List.getElem?_map, hri]; rfl
    have e4 : a.ut1Fraction[i]? = some t.ut1Fraction := by rw [c4, List.getElem?_map, hri]; rfl
    obtain ⟨h1, h2, -⟩ := TimeArray.row_eq hr
    unfold TimeArray.row at hr ⊢
    simp only [h1, h2, Option.some.injEq] at hr
    cases c <;> simp only [TimeArray.touch, h1, h2, storedAt, Option.map_some, Option.some.injEq, e2, e3, e4] <;> rw [← hr] <;> rfl

/-- **C52.** Reading attributes of the array first makes no difference to any quantity. -/
theorem C52_history {β : Type*} (g : K → K → K) (q : Time K → β) (hq : PerTime g q) (a : TimeArray K) (h : a.WellFormed)
    (reads : List TimeCol) :
    (reads.foldl (TimeArray.touch g) a).WellFormed ∧ (reads.foldl (TimeArray.touch g) a).rows.map q = a.rows.map q := by
  induction reads generalizing a with
  | nil => exact ⟨h, rfl⟩
  | cons c reads ih =>
    obtain ⟨h1, h2⟩ := touch_rows g a h c
    obtain ⟨h3, h4⟩ := ih (a.touch g c) h1
    refine ⟨h3, h4.trans ?_⟩
    rw [h2, List.map_map]
    apply List.map_congr_left
    intro t _
    cases c <;> exact hq _ _ rfl rfl rfl rfl rfl rfl rfl

/-- **C52.** All together: after any reads, an index or slice gives the quantities of the selected times. -/
theorem C52_history_commutes [IsStrictOrderedRing K] {β : Type*} (g : K → K → K) (q : Time K → β) (hq : PerTime g q) (a : TimeArray K)
    (h : a.WellFormed) (hc : ∀ t ∈ a.rows, t.Coherent) (reads : List TimeCol) (idx : NpIndex) :
    match (TimeAny.array (reads.foldl (TimeArray.touch g) a)).getitem idx with
    | .ok r => npGet (a.rows.map q) idx = some (r.times.map q)
    | .error e => npGet (a.rows.map q) idx = none ∧ e = .indexError := by
  obtain ⟨h1, h2⟩ := C52_history g q hq a h reads
  have h3 := (C52_history g _ (C52_per_time g).2.2.2.2.2.2.2.2.2.2.2.2.2.2.2.2.2.2.2.2 a h reads).2
  have h4 : ∀ t ∈ (reads.foldl (TimeArray.touch g) a).rows, t.Coherent := by
    intro t ht
    have : t.Coherent ∈ (reads.foldl (TimeArray.touch g) a).rows.map Time.Coherent := List.mem_map_of_mem ht
    rw [h3] at this
    obtain ⟨u, hu, e⟩ := List.mem_map.1 this
    rw [← e]
    exact hc u hu
  have := C52_commutes g q hq _ h1 h4 idx
  rw [h2] at this
  exact this

/-! ### What the indexes mean -/

theorem mapM_getElem? {α : Type*} (l : List α) (ks : List ℕ) (r : List α) (hlen : ks.length = r.length)
    (h : ∀ i k : ℕ, ks[i]? = some k → l[k]? = r[i]?) : ks.mapM (fun k => l[k]?) = some r := by
  induction ks generalizing r with
  | nil =>
    cases r with
    | nil => rfl
    | cons x r => simp at hlen
  | cons k ks ih =>
    cases r with
    | nil => simp at hlen
    | cons x r =>
      have h0 := h 0 k rfl
      have := ih r (by simpa using hlen) fun i k hk => by simpa using h (i + 1) k (by simpa using hk)
      rw [List.mapM_cons, this]
      simp at h0
      simp [h0]

/-- **C52.** `l[i:j]`, for non-negative ends, is the entries from `i` up to but not including `j`. -/
theorem C52_slice {α : Type*} (l : List α) (i j : ℕ) :
    npGet l (.slice (some i) (some j) none) = some (.many ((l.take j).drop i)) := by
  have hs : ∀ m : ℕ, sliceEnd l.length 0 l.length 0 (some (m : ℤ)) = (min m l.length : ℕ) := by
    intro m
    simp only [sliceEnd]
    rw [if_neg (by omega)]
    split_ifs <;> omega
  have hs' : ∀ m : ℕ, sliceEnd l.length 0 l.length l.length (some (m : ℤ)) = (min m l.length : ℕ) := by
    intro m
    simp only [sliceEnd]
    rw [if_neg (by omega)]
    split_ifs <;> omega
  simp only [npGet, NpIndex.positions, slicePositions, Option.getD_none, hs, hs']
  rw [if_neg (by omega), if_pos (by omega)]
  simp only [Option.map_some]
  rw [mapM_getElem? l _ ((l.take j).drop i)]
  · rfl
  · simp
    split_ifs <;> omega
  · intro n k hk
    rw [List.getElem?_map] at hk
    cases hr : (List.range ((if ((min i l.length : ℕ) : ℤ) < (min j l.length : ℕ) then
        (((min j l.length : ℕ) : ℤ) - (min i l.length : ℕ) - 1) / 1 + 1 else 0)).toNat)[n]? with
    | none => rw [hr] at hk; cases hk
    | some m =>
      rw [hr] at hk
      rw [List.getElem?_eq_some_iff] at hr
      obtain ⟨h1, h2⟩ := hr
      rw [List.getElem_range] at h2
      subst h2
      rw [List.length_range] at h1
      simp at hk
      subst hk
      rw [List.getElem?_drop, List.getElem?_take]
      split_ifs at h1 with h3
      · rw [if_pos (by omega)]
        congr 1
        omega
      · simp at h1

/-- **C52.** `l[-k]` counts from the end. -/
theorem C52_negative_index {α : Type*} (l : List α) (k : ℕ) (h0 : 0 < k) :
    npGet l (.int (-(k : ℤ))) = if k ≤ l.length then (l[l.length - k]?).map .one else none := by
  simp only [npGet, NpIndex.positions, normIndex]
  rw [if_neg (by omega)]
  by_cases h : k ≤ l.length
  · rw [if_pos (by omega), if_pos h]
    have : (-(k : ℤ) + l.length).toNat = l.length - k := by omega
    simp only [Option.map_some, this]
  · rw [if_neg (by omega), if_neg h]
    rfl

/-- **C52.** `l[::-1]` is the list backwards. -/
theorem C52_reversed {α : Type*} (l : List α) : npGet l (.slice none none (some (-1))) = some (.many l.reverse) := by
  have hp : ∀ n : ℕ, slicePositions n none none (some (-1)) = some ((List.range n).map fun k => n - 1 - k) := by
    intro n
    simp only [slicePositions, Option.getD_some]
    rw [if_neg (by omega), if_neg (by omega)]
    generalize hA : sliceEnd n (-1) (n - 1) (n - 1) none = A
    generalize hB : sliceEnd n (-1) (n - 1) (-1) none = B
    replace hA : A = n - 1 := hA.symm
    replace hB : B = -1 := hB.symm
    subst hA hB
    congr 1
    have hl : ((((n : ℤ) - 1 - -1 - 1) / - -1 + 1)).toNat = n := by
      rw [neg_neg, Int.ediv_one]; omega
    apply List.ext_getElem
    · simp only [List.length_map, List.length_range]
      rcases Nat.eq_zero_or_pos n with rfl | hn
      · rfl
      · rw [if_pos (show (-1 : ℤ) < (n : ℤ) - 1 by omega)]
        exact hl
    · intro k h1 h2
      simp; omega
  simp only [npGet, NpIndex.positions, hp, Option.map_some]
  rw [mapM_getElem? l _ l.reverse]
  · rfl
  · simp
  · intro n k hk
    rw [List.getElem?_map] at hk
    by_cases hn : n < l.length
    · rw [List.getElem?_range hn] at hk
      simp at hk
      rw [List.getElem?_reverse hn, ← hk]
    · rw [List.getElem?_eq_none (by simp; omega)] at hk
      cases hk

/-- **C52.** A mask keeps the entries where it is true. -/
theorem C52_mask {α : Type*} (l : List α) (p : α → Bool) : npGet l (.mask (l.map p)) = some (.many (l.filter p)) := by
  simp only [npGet, NpIndex.positions, List.length_map, if_true]
  have key : ((List.range l.length).filter fun k => (l.map p)[k]? = some true).mapM (fun k => l[k]?) = some (l.filter p) := by
    induction l using List.reverseRecOn with
    | nil => rfl
    | append_singleton l x ih =>
      rw [List.length_append, List.length_singleton, List.range_succ, List.filter_append, List.mapM_append]
      have h1 : ((List.range l.length).filter fun k => ((l ++ [x]).map p)[k]? = some true) =
          (List.range l.length).filter fun k => (l.map p)[k]? = some true := by
        apply List.filter_congr
        intro k hk
        rw [List.mem_range] at hk
        rw [List.map_append, List.getElem?_append_left (by simpa using hk)]
      have h2 : ((List.range l.length).filter fun k => (l.map p)[k]? = some true).mapM (fun k => (l ++ [x])[k]?) =
          ((List.range l.length).filter fun k => (l.map p)[k]? = some true).mapM (fun k => l[k]?) := by
        have : ∀ ks : List ℕ, (∀ k ∈ ks, k < l.length) → ks.mapM (fun k => (l ++ [x])[k]?) = ks.mapM (fun k => l[k]?) := by
          intro ks
          induction ks with
          | nil => intro _; rfl
          | cons k ks ihk =>
            intro hk
            rw [List.mapM_cons, List.mapM_cons, ihk fun j hj => hk j (by simp [hj]), List.getElem?_append_left (hk k (by simp))]
        apply this
        intro k hk
        exact List.mem_range.1 (List.mem_filter.1 hk).1
      rw [h1, h2, ih, List.filter_append]
      by_cases hx : p x <;> simp [hx]
  rw [key]
  rfl

/-- An array of two times made from UTC, the first inside the leap second of 1972-06-30 (with the whole TAI seconds that `utc()` stores).
It meets the hypotheses above, and `t[::-1]` is the two times in reverse. -/
def exampleTimes : TimeArray ℚ where
  ts := exampleTs
  whole := [2441499, 2441500]
  ttFraction := [(43210 + 1 / 2) / 86400 + ttMinusTai, 12 / 86400 + ttMinusTai]
  taiFraction? := some [(43210 + 1 / 2) / 86400, 12 / 86400]
  taiSeconds? := some ([2441499 * 86400 + 43210, 2441500 * 86400 + 12], [1 / 2, 0])

example : exampleTimes.WellFormed ∧ (∀ t ∈ exampleTimes.rows, t.Coherent) ∧
    (TimeAny.array exampleTimes).getitem (.slice none none (some (-1))) = .ok (.array
      { ts := exampleTs, whole := [2441500, 2441499],
        ttFraction := [12 / 86400 + ttMinusTai, (43210 + 1 / 2) / 86400 + ttMinusTai],
        taiFraction? := some [12 / 86400, (43210 + 1 / 2) / 86400] }) := by
  refine ⟨⟨rfl, by rintro c ⟨⟩; rfl, by rintro c ⟨⟩, by rintro c ⟨⟩, by rintro c ⟨⟩; exact ⟨rfl, rfl⟩⟩, ?_, ?_⟩
  · have : exampleTimes.rows = [⟨exampleTs, 2441499, (43210 + 1 / 2) / 86400 + ttMinusTai, some ((43210 + 1 / 2) / 86400),
        some (2441499 * 86400 + 43210, 1 / 2), none, none⟩, ⟨exampleTs, 2441500, 12 / 86400 + ttMinusTai, some (12 / 86400),
        some (2441500 * 86400 + 12, 0), none, none⟩] := rfl
    rw [this]
    intro t ht
    simp only [List.mem_cons, List.not_mem_nil, or_false] at ht
    rcases ht with rfl | rfl
    · refine ⟨⟨2441499 * 86400 + 43210, ?_⟩, ?_, ?_, ?_⟩ <;> simp [Time.taiSeconds, Time.taiInstant, Time.taiFraction] <;> norm_num
    · refine ⟨⟨2441500 * 86400 + 12, ?_⟩, ?_, ?_, ?_⟩ <;> simp [Time.taiSeconds, Time.taiInstant, Time.taiFraction] <;> norm_num
  · rfl

end Skyfield
