import Verif.Spec.TimeBuild
import Mathlib.Tactic

/-
C90: times built from arrays of dates.
-/
namespace Skyfield
open Spec

private theorem bshapeRev_self (s : List ℕ) : Nd.bshapeRev s s = some s := by
  induction s with
  | nil => rfl
  | cons a s ih => simp [Nd.bshapeRev, Nd.bdim, ih]

private theorem bshape_self (s : List ℕ) : Nd.bshape s s = some s := by simp [Nd.bshape, bshapeRev_self]

private theorem bshape_nil_left (s : List ℕ) : Nd.bshape [] s = some s := by simp [Nd.bshape, Nd.bshapeRev]

private theorem bshape_nil_right (s : List ℕ) : Nd.bshape s [] = some s := by
  have : ∀ r, Nd.bshapeRev r [] = some r := by intro r; cases r <;> rfl
  simp [Nd.bshape, this]

private theorem bindex_nil (i : List ℕ) : Nd.bindex [] i = [] := by simp [Nd.bindex]

private theorem bindex_self {s i : List ℕ} (h : ValidIndex s i) : Nd.bindex s i = i := by
  have hl : s.length = i.length := h.length_eq
  unfold Nd.bindex
  rw [hl, Nat.sub_self, List.drop_zero]
  clear hl
  induction h with
  | nil => rfl
  | @cons a b s i hab _ ih =>
    rw [List.zipWith_cons_cons, ih]
    congr 1
    split_ifs <;> omega

/-- An elementwise operation on numbers and arrays of one shape. -/
private theorem map2_fits {α β γ : Type} (f : α → β → γ) {s : List ℕ} {a : Nd α} {b : Nd β} (ha : NumberOrShape s a) (hb : NumberOrShape s b) :
    ∃ r, Nd.map2 f a b = some r ∧ NumberOrShape s r ∧ (a.shape = s ∨ b.shape = s → r.shape = s) ∧
      (a.shape = [] → b.shape = [] → r.shape = []) ∧
      ∀ i, ValidIndex s i → atIndex r i = f (atIndex a i) (atIndex b i) := by
  obtain ⟨sa, ea⟩ := a
  obtain ⟨sb, eb⟩ := b
  simp only [NumberOrShape] at ha hb
  by_cases hs : s = []
  · subst hs
    have h1 : sa = [] := by tauto
    have h2 : sb = [] := by tauto
    subst h1 h2
    exact ⟨_, rfl, Or.inl rfl, fun _ => rfl, fun _ _ => rfl, fun i _ => rfl⟩
  · rcases ha with ha | ha <;> rcases hb with hb | hb <;> subst ha hb
    · exact ⟨_, rfl, Or.inl rfl, by simp, fun _ _ => rfl, fun i _ => rfl⟩
    · refine ⟨_, by simp only [Nd.map2, bshape_nil_left]; rfl, Or.inr rfl, fun _ => rfl, fun _ h => h, fun i hi => ?_⟩
      simp only [atIndex, if_neg hs, bindex_nil, bindex_self hi, if_true]
    · refine ⟨_, by simp only [Nd.map2, bshape_nil_right]; rfl, Or.inr rfl, fun _ => rfl, fun h _ => h, fun i hi => ?_⟩
      simp only [atIndex, if_neg hs, bindex_nil, bindex_self hi, if_true]
    · refine ⟨_, by simp only [Nd.map2, bshape_self]; rfl, Or.inr rfl, fun _ => rfl, fun h _ => h, fun i hi => ?_⟩
      simp only [atIndex, if_neg hs, bindex_self hi]

private theorem map_fits {α β : Type} (f : α → β) {s : List ℕ} {a : Nd α} (ha : NumberOrShape s a) :
    NumberOrShape s (a.map f) ∧ ∀ i, atIndex (a.map f) i = f (atIndex a i) := ⟨ha, fun _ => rfl⟩

private theorem atIndex_of_shape {α : Type} {s : List ℕ} {a : Nd α} (ha : a.shape = s) {i : List ℕ} (hi : ValidIndex s i) :
    atIndex a i = a.entry i := by
  unfold atIndex
  by_cases h : a.shape = []
  · rw [if_pos h]
    rw [ha] at h
    subst h
    cases hi
    rfl
  · rw [if_neg h]

/-- `_reconcile` for floats, or for arrays of one shape. -/
private theorem reconcile_fits {s : List ℕ} {a b : NpArray} (ha : NumberOrShape s a.arr) (hb : NumberOrShape s b.arr)
    (hab : a.arr.shape = s ∨ b.arr.shape = s) (hia : a.arr.shape = s → b.arr.shape = s ∨ a.ints = false)
    (hib : b.arr.shape = s → a.arr.shape = s ∨ b.ints = false) :
    (reconcile a b).a.arr.shape = s ∧ (reconcile a b).b.arr.shape = s ∧
      ∀ i, ValidIndex s i → (reconcile a b).a.arr.entry i = atIndex a.arr i ∧ (reconcile a b).b.arr.entry i = atIndex b.arr i := by
  obtain ⟨ia, sa, ea⟩ := a
  obtain ⟨ib, sb, eb⟩ := b
  simp only [NumberOrShape] at ha hb hab hia hib
  by_cases hs : s = []
  · subst hs
    have h1 : sa = [] := by tauto
    have h2 : sb = [] := by tauto
    subst h1 h2
    refine ⟨rfl, rfl, fun i hi => ?_⟩
    cases hi
    exact ⟨rfl, rfl⟩
  · have hl : 0 < s.length := List.length_pos_iff.mpr hs
    rcases ha with ha | ha <;> rcases hb with hb | hb <;> subst ha hb
    · simp [hs] at hab
    · have h1 : ib = false := by
        rcases hib rfl with h | h
        · exact absurd h.symm hs
        · exact h
      subst h1
      have e : reconcile ⟨ia, [], ea⟩ ⟨false, sb, eb⟩ = ⟨fullLike ⟨false, sb, eb⟩ ⟨ia, [], ea⟩, ⟨false, sb, eb⟩, false, true⟩ := by
        simp [reconcile, hl]
      rw [e]
      exact ⟨rfl, rfl, fun i _ => ⟨by simp [fullLike, atIndex], by simp [atIndex, hs]⟩⟩
    · have h1 : ia = false := by
        rcases hia rfl with h | h
        · exact absurd h.symm hs
        · exact h
      subst h1
      have e : reconcile ⟨false, sa, ea⟩ ⟨ib, [], eb⟩ = ⟨⟨false, sa, ea⟩, fullLike ⟨false, sa, ea⟩ ⟨ib, [], eb⟩, true, false⟩ := by
        simp [reconcile, hl]
      rw [e]
      exact ⟨rfl, rfl, fun i _ => ⟨by simp [atIndex, hs], by simp [fullLike, atIndex]⟩⟩
    · have e : reconcile ⟨ia, sb, ea⟩ ⟨ib, sb, eb⟩ = ⟨⟨ia, sb, ea⟩, ⟨ib, sb, eb⟩, true, true⟩ := by simp [reconcile]
      rw [e]
      exact ⟨rfl, rfl, fun i _ => ⟨by simp [atIndex, hs], by simp [atIndex, hs]⟩⟩

private theorem toNpArray_spec (v : PyValue) (i : List ℕ) :
    (toNpArray v).arr.shape = shapeOf v ∧ atIndex (toNpArray v).arr i = valueAt v i ∧ (HoldsFloats v ↔ (toNpArray v).ints = false) := by
  cases v <;> exact ⟨rfl, rfl, by simp [toNpArray, HoldsFloats]⟩

private theorem normalize_fits {s : List ℕ} {jd f : PyValue} (h : DateAndFraction s jd f) :
    (normalizeJdNd jd (some f)).jd.shape = s ∧ (normalizeJdNd jd (some f)).fraction.shape = s ∧
      ∀ i, ValidIndex s i → (normalizeJdNd jd (some f)).jd.entry i = valueAt jd i ∧
        (normalizeJdNd jd (some f)).fraction.entry i = valueAt f i := by
  have e : ∀ i, atIndex (toNpArray jd).arr i = valueAt jd i ∧ atIndex (toNpArray f).arr i = valueAt f i :=
    fun i => ⟨(toNpArray_spec jd i).2.1, (toNpArray_spec f i).2.1⟩
  have sj := (toNpArray_spec jd []).1
  have sf := (toNpArray_spec f []).1
  have fj := (toNpArray_spec jd []).2.2
  have ff := (toNpArray_spec f []).2.2
  have key : (reconcile (toNpArray jd) (toNpArray f)).a.arr.shape = s ∧ (reconcile (toNpArray jd) (toNpArray f)).b.arr.shape = s ∧
      ∀ i, ValidIndex s i → (reconcile (toNpArray jd) (toNpArray f)).a.arr.entry i = atIndex (toNpArray jd).arr i ∧
        (reconcile (toNpArray jd) (toNpArray f)).b.arr.entry i = atIndex (toNpArray f).arr i := by
    cases h with
    | both h h' =>
      exact reconcile_fits (Or.inr (sj.trans h)) (Or.inr (sf.trans h')) (Or.inl (sj.trans h)) (fun _ => Or.inl (sf.trans h'))
        (fun _ => Or.inl (sj.trans h))
    | dates h h' k =>
      exact reconcile_fits (Or.inr (sj.trans h)) (Or.inl (sf.trans h')) (Or.inl (sj.trans h)) (fun _ => Or.inr (fj.mp k))
        (fun _ => Or.inl (sj.trans h))
    | fractions h h' k =>
      exact reconcile_fits (Or.inl (sj.trans h)) (Or.inr (sf.trans h')) (Or.inr (sf.trans h'))
        (fun _ => Or.inl (sf.trans h')) (fun _ => Or.inr (ff.mp k))
  refine ⟨key.1, key.2.1, fun i hi => ?_⟩
  rw [← (e i).1, ← (e i).2]
  exact key.2.2 i hi

private theorem normalize_alone (jd : PyValue) :
    (normalizeJdNd jd none).jd.shape = shapeOf jd ∧ (normalizeJdNd jd none).fraction.shape = shapeOf jd ∧
      ∀ i, ValidIndex (shapeOf jd) i → (normalizeJdNd jd none).jd.entry i = (pyDivmod (valueAt jd i) 1).1 ∧
        (normalizeJdNd jd none).fraction.entry i = (pyDivmod (valueAt jd i) 1).2 := by
  have sj := (toNpArray_spec jd []).1
  refine ⟨sj, sj, fun i hi => ?_⟩
  have e := (toNpArray_spec jd i).2.1
  rw [atIndex_of_shape sj hi] at e
  rw [← e]
  exact ⟨rfl, rfl⟩

/-- The three constructors from Julian dates, given what `_normalize_jd_and_fraction` returns. -/
private theorem three_scales (ts : Timescale ℝ) (g : ℝ → ℝ → ℝ) (s : List ℕ) (jd : PyValue) (f : Option PyValue)
    (w fr : List ℕ → ℝ)
    (h : (normalizeJdNd jd f).jd.shape = s ∧ (normalizeJdNd jd f).fraction.shape = s ∧
      ∀ i, ValidIndex s i → (normalizeJdNd jd f).jd.entry i = w i ∧ (normalizeJdNd jd f).fraction.entry i = fr i) :
    (TimeOfShape (ts.ttJdNd jd f) s ∧ ∀ i, ValidIndex s i →
      timeAt (ts.ttJdNd jd f) i = { ts := ts, whole := w i, ttFraction := fr i }) ∧
    (TimeOfShape (ts.taiJdNd jd f) s ∧ ∀ i, ValidIndex s i →
      timeAt (ts.taiJdNd jd f) i = { ts := ts, whole := w i, ttFraction := fr i + ttMinusTai, taiFraction? := some (fr i) }) ∧
    ∃ t, ts.tdbJdNd g jd f = some t ∧ TimeOfShape t s ∧ ∀ i, ValidIndex s i →
      timeAt t i = { ts := ts, whole := w i, ttFraction := fr i - g (w i) (fr i) / dayS, tdbFraction? := some (fr i) } := by
  obtain ⟨h1, h2, h3⟩ := h
  refine ⟨⟨⟨h1, h2, ?_, ?_, ?_, ?_⟩, fun i hi => ?_⟩, ⟨⟨h1, h2, ?_, ?_, ?_, ?_⟩, fun i hi => ?_⟩, ?_⟩
  all_goals try (simp [Timescale.ttJdNd]; done)
  · simp [timeAt, Timescale.ttJdNd, h3 i hi]
  · simpa [Timescale.taiJdNd] using h2
  all_goals try (simp [Timescale.taiJdNd]; done)
  · simp [timeAt, Timescale.taiJdNd, h3 i hi, Nd.map]
  · obtain ⟨d, hd, d1, d2, -, d3⟩ := map2_fits g (s := s) (Or.inr h1) (Or.inr h2)
    obtain ⟨k, hk, k1, k2, -, k3⟩ := map2_fits (fun a b : ℝ => a - b) (s := s) (a := (normalizeJdNd jd f).fraction) (b := d.map (· / dayS))
      (Or.inr h2) (Or.inr (d2 (Or.inl h1)))
    refine ⟨_, by simp only [Timescale.tdbJdNd, hd, hk, Option.bind_eq_bind, Option.bind_some]; rfl, ⟨h1, k2 (Or.inl h2), ?_, ?_, ?_, ?_⟩,
      fun i hi => ?_⟩
    · simp
    · simp
    · simpa using h2
    · simp
    · have e := k3 i hi
      rw [atIndex_of_shape (k2 (Or.inl h2)) hi, atIndex_of_shape h2 hi, (h3 i hi).2] at e
      have e' : atIndex (d.map (· / dayS)) i = atIndex d i / (dayS : ℝ) := rfl
      rw [e', d3 i hi, atIndex_of_shape h1 hi, atIndex_of_shape h2 hi, (h3 i hi).1, (h3 i hi).2] at e
      simp only [timeAt, Option.map_some, Option.map_none, h3 i hi, e]

/-- **C90**: `tt_jd`, `tai_jd` and `tdb_jd` with a date and a fraction — arrays of one shape, or an array of floats and a number: the time
has that shape, and its member at every index is the time made from the date and the fraction there. -/
theorem C90_date_and_fraction (ts : Timescale ℝ) (g : ℝ → ℝ → ℝ) (s : List ℕ) (jd f : PyValue) (h : DateAndFraction s jd f) :
    (TimeOfShape (ts.ttJdNd jd (some f)) s ∧ ∀ i, ValidIndex s i →
      timeAt (ts.ttJdNd jd (some f)) i = ts.ttJd (valueAt jd i) (some (valueAt f i))) ∧
    (TimeOfShape (ts.taiJdNd jd (some f)) s ∧ ∀ i, ValidIndex s i →
      timeAt (ts.taiJdNd jd (some f)) i = ts.taiJd (valueAt jd i) (some (valueAt f i))) ∧
    ∃ t, ts.tdbJdNd g jd (some f) = some t ∧ TimeOfShape t s ∧ ∀ i, ValidIndex s i →
      timeAt t i = ts.tdbJd g (valueAt jd i) (some (valueAt f i)) :=
  three_scales ts g s jd (some f) _ _ (normalize_fits h)

/-- **C90**: the same without a fraction, for dates of any shape, integers or not. -/
theorem C90_date_alone (ts : Timescale ℝ) (g : ℝ → ℝ → ℝ) (jd : PyValue) :
    (TimeOfShape (ts.ttJdNd jd none) (shapeOf jd) ∧ ∀ i, ValidIndex (shapeOf jd) i →
      timeAt (ts.ttJdNd jd none) i = ts.ttJd (valueAt jd i) none) ∧
    (TimeOfShape (ts.taiJdNd jd none) (shapeOf jd) ∧ ∀ i, ValidIndex (shapeOf jd) i →
      timeAt (ts.taiJdNd jd none) i = ts.taiJd (valueAt jd i) none) ∧
    ∃ t, ts.tdbJdNd g jd none = some t ∧ TimeOfShape t (shapeOf jd) ∧ ∀ i, ValidIndex (shapeOf jd) i →
      timeAt t i = ts.tdbJd g (valueAt jd i) none :=
  three_scales ts g _ jd none _ _ (normalize_alone jd)

/-- **C90**: `ut1_jd` on dates of any shape. -/
theorem C90_ut1_jd (ts : Timescale ℝ) (jd : PyValue) :
    ∃ t, ts.ut1JdNd jd = some t ∧ TimeOfShape t (shapeOf jd) ∧ ∀ i, ValidIndex (shapeOf jd) i →
      timeAt t i = ts.ut1Jd (valueAt jd i) := by
  have sj := (toNpArray_spec jd []).1
  obtain ⟨d, hd, d1, d2, -, d3⟩ := map2_fits (fun a b : ℝ => a + b) (s := shapeOf jd) (a := (toNpArray jd).arr)
    (b := ((toNpArray jd).arr.map ts.deltaT).map (· / dayS)) (Or.inr sj) (Or.inr sj)
  refine ⟨_, by simp only [Timescale.ut1JdNd, hd, Option.bind_eq_bind, Option.bind_some]; rfl, ⟨sj, d2 (Or.inl sj), ?_, ?_, ?_, ?_⟩,
    fun i hi => ?_⟩
  · simp
  · simp
  · simp
  · intro a ha
    cases ha
    exact sj
  · have e := (toNpArray_spec jd i).2.1
    rw [atIndex_of_shape sj hi] at e
    have k := d3 i hi
    rw [atIndex_of_shape (d2 (Or.inl sj)) hi, atIndex_of_shape sj hi, atIndex_of_shape (by exact sj) hi] at k
    simp only [Nd.map] at k
    simp only [timeAt, Option.map_some, Option.map_none, Nd.map, k, e, Timescale.ut1Jd]

/-- **C90**: `J` on years of any shape: the members are right. -/
theorem C90_julian_years (ts : Timescale ℝ) (year : PyValue) :
    ∃ tt, (ts.julianYearNd year).tt = some tt ∧ tt.shape = shapeOf year ∧ (ts.julianYearNd year).shape = shapeOf year ∧
      ∀ i, ValidIndex (shapeOf year) i → tt.entry i = (ts.julianYear (valueAt year i)).tt := by
  have sj := (toNpArray_spec year []).1
  obtain ⟨d, hd, d1, d2, -, d3⟩ := map2_fits (fun a b : ℝ => a + b) (s := shapeOf year)
    (a := ((toNpArray year).arr.map (· * (36525 / 100))).map (· + 1721045)) (b := Nd.scalar 0) (Or.inr sj) (Or.inl rfl)
  refine ⟨d, hd, d2 (Or.inl sj), sj, fun i hi => ?_⟩
  have k := d3 i hi
  have e := (toNpArray_spec year i).2.1
  rw [atIndex_of_shape sj hi] at e
  rw [atIndex_of_shape (d2 (Or.inl sj)) hi, atIndex_of_shape (by exact sj) hi] at k
  simp only [Nd.map, e] at k
  rw [k]
  simp [Time.tt, Timescale.julianYear, atIndex, Nd.scalar]

/-- **C90** (finding): the members of an array of Julian years cannot be taken out: whatever the index, `ts.J([...])[i]` raises. -/
theorem C90_julian_years_have_no_members (ts : Timescale ℝ) (year : PyValue) (i : ℤ) : ∃ e, (ts.julianYearNd year).item i = .error e := by
  unfold TimeNd.item
  split_ifs with h
  · exact ⟨_, rfl⟩
  · rcases hw : (ts.julianYearNd year).whole.item i with e | w
    · exact ⟨e, rfl⟩
    · exact ⟨.numberAttribute, rfl⟩

/-- **C90**: the members of a time of several: `t[i]`, counted from either end, is made of the members at that place; other places are
refused. -/
theorem C90_members (t : TimeNd) (n : ℕ) (s : List ℕ) (h : TimeOfShape t (n :: s)) (i : ℤ) :
    (∀ k, normIndex n i = some k → ∃ m, t.item i = .ok m ∧ TimeOfShape m s ∧ ∀ j,
      timeAt m j = { timeAt t (k :: j) with taiSeconds? := none }) ∧
    (normIndex n i = none → t.item i = .error .outOfRange) := by
  obtain ⟨h1, h2, h3, h4, h5, h6⟩ := h
  have hs : t.shape ≠ [] := by simp [TimeNd.shape, h1]
  constructor
  · intro k hk
    have a1 : t.whole.item i = .ok ⟨s, fun j => t.whole.entry (k :: j)⟩ := by simp [Nd.item, h1, hk]
    have a2 : t.ttFraction.item i = .ok ⟨s, fun j => t.ttFraction.entry (k :: j)⟩ := by simp [Nd.item, h2, hk]
    have st : ∀ o : Option (Nd ℝ), (∀ a ∈ o, a.shape = n :: s) →
        Nd.itemStored o i = .ok (o.map fun a => ⟨s, fun j => a.entry (k :: j)⟩) := by
      intro o ho
      cases o with
      | none => rfl
      | some a => simp [Nd.itemStored, Nd.item, ho a rfl, hk, Except.map]
    refine ⟨_, by
      simp only [TimeNd.item, if_neg hs, a1, a2, st _ h3, st _ h5, st _ h6]
      rfl, ⟨rfl, rfl, ?_, ?_, ?_, ?_⟩, fun j => ?_⟩
    · simp
    · simp
    · simp
    · simp
    · simp [timeAt, Option.map_map, Function.comp_def]
  · intro hk
    simp [TimeNd.item, hs, Nd.item, h1, hk, bind, Except.bind]

/-- The date and the fraction of a calendar date. -/
private theorem jdNd_fits (ts : Timescale ℝ) {s : List ℕ} {c : CalendarArrays} (h : CalendarOfShape c s) :
    ∃ w f, ts.jdNd c = some (w, f) ∧ w.shape = s ∧ f.shape = s ∧ ∀ i, ValidIndex s i →
      (w.entry i, f.entry i) = ts.jdOf (atIndex c.year i) (atIndex c.month i) (atIndex c.day i) (atIndex c.hour i) (atIndex c.minute i)
        (atIndex c.second i) := by
  obtain ⟨h1, h2, h3, h4, h5, h6, h7⟩ := h
  obtain ⟨ym, e1, a1, b1, -, c1⟩ := map2_fits Prod.mk h1 h2
  obtain ⟨j, e2, a2, b2, -, c2⟩ := map2_fits (fun (ym : ℤ × ℤ) (d : ℝ) => julianDayFrac ym.1 ym.2 d ts.cutoff) a1 h3
  obtain ⟨sm, e3, a3, b3, -, c3⟩ := map2_fits (fun a b : ℝ => a + b) (a := c.second) (b := c.minute.map (· * 60)) h6 h5
  obtain ⟨sh, e4, a4, b4, -, c4⟩ := map2_fits (fun a b : ℝ => a + b) (a := sm) (b := c.hour.map (· * 3600)) a3 h4
  have hh : (j.map (· - 1 / 2)).shape = s ∨ (sh.map (· / (dayS : ℝ))).shape = s := by
    rcases h7 with h | h | h | h | h | h
    · exact Or.inl (b2 (Or.inl (b1 (Or.inl h))))
    · exact Or.inl (b2 (Or.inl (b1 (Or.inr h))))
    · exact Or.inl (b2 (Or.inr h))
    · exact Or.inr (b4 (Or.inr h))
    · exact Or.inr (b4 (Or.inl (b3 (Or.inr h))))
    · exact Or.inr (b4 (Or.inl (b3 (Or.inl h))))
  obtain ⟨r1, r2, r3⟩ := reconcile_fits (a := ⟨false, j.map (· - 1 / 2)⟩) (b := ⟨false, sh.map (· / (dayS : ℝ))⟩) a2 a4 hh
    (fun _ => Or.inr rfl) (fun _ => Or.inr rfl)
  refine ⟨_, _, by
    simp only [Timescale.jdNd, julianDayNd, e1, e2, e3, e4, Option.bind_eq_bind, Option.bind_some]
    rfl, r1, r2, fun i hi => ?_⟩
  obtain ⟨k1, k2⟩ := r3 i hi
  rw [k1, k2]
  have m1 : atIndex (j.map (· - 1 / 2)) i = atIndex j i - 1 / 2 := rfl
  have m2 : atIndex (sh.map (· / (dayS : ℝ))) i = atIndex sh i / dayS := rfl
  have m3 : atIndex (c.minute.map (· * 60)) i = atIndex c.minute i * 60 := rfl
  have m4 : atIndex (c.hour.map (· * 3600)) i = atIndex c.hour i * 3600 := rfl
  rw [m1, m2, c2 i hi, c1 i hi, c4 i hi, c3 i hi, m3, m4]
  rfl

/-- **C90**: calendar dates in TT, TAI, TDB and UT1, where each of year, month, day, hour, minute and second is a number or an array of
one shape: the member at every index is the time made from the values there. -/
theorem C90_calendar_dates (ts : Timescale ℝ) (g : ℝ → ℝ → ℝ) (s : List ℕ) (c : CalendarArrays) (h : CalendarOfShape c s) :
    (∃ t, ts.ttNd c = some t ∧ TimeOfShape t s ∧ ∀ i, ValidIndex s i → timeAt t i =
      ts.tt (atIndex c.year i) (atIndex c.month i) (atIndex c.day i) (atIndex c.hour i) (atIndex c.minute i) (atIndex c.second i)) ∧
    (∃ t, ts.taiNd c = some t ∧ TimeOfShape t s ∧ ∀ i, ValidIndex s i → timeAt t i =
      ts.tai (atIndex c.year i) (atIndex c.month i) (atIndex c.day i) (atIndex c.hour i) (atIndex c.minute i) (atIndex c.second i)) ∧
    (∃ t, ts.tdbNd g c = some t ∧ TimeOfShape t s ∧ ∀ i, ValidIndex s i → timeAt t i =
      ts.tdb g (atIndex c.year i) (atIndex c.month i) (atIndex c.day i) (atIndex c.hour i) (atIndex c.minute i) (atIndex c.second i)) ∧
    (∃ t, ts.ut1Nd c = some t ∧ TimeOfShape t s ∧ ∀ i, ValidIndex s i → timeAt t i =
      let d := ts.jdOf (atIndex c.year i) (atIndex c.month i) (atIndex c.day i) (atIndex c.hour i) (atIndex c.minute i)
        (atIndex c.second i)
      ts.ut1Jd (d.1 + d.2)) := by
  obtain ⟨w, f, e, sw, sf, hwf⟩ := jdNd_fits ts h
  obtain ⟨jd, ej, aj, bj, -, cj⟩ := map2_fits (fun a b : ℝ => a + b) (s := s) (a := w) (b := f) (Or.inr sw) (Or.inr sf)
  have sj := bj (Or.inl sw)
  have wj : ∀ i, ValidIndex s i → jd.entry i = w.entry i + f.entry i := by
    intro i hi
    have k := cj i hi
    rwa [atIndex_of_shape sj hi, atIndex_of_shape sw hi, atIndex_of_shape sf hi] at k
  have pw : ∀ i, ValidIndex s i → ∀ d : ℝ × ℝ, d = ts.jdOf (atIndex c.year i) (atIndex c.month i) (atIndex c.day i) (atIndex c.hour i)
      (atIndex c.minute i) (atIndex c.second i) → w.entry i = d.1 ∧ f.entry i = d.2 := by
    intro i hi d hd
    rw [hd, ← hwf i hi]
    exact ⟨rfl, rfl⟩
  refine ⟨⟨_, by simp only [Timescale.ttNd, e, Option.bind_eq_bind, Option.bind_some]; rfl, ⟨sw, sf, ?_, ?_, ?_, ?_⟩, fun i hi => ?_⟩,
    ⟨_, by simp only [Timescale.taiNd, e, Option.bind_eq_bind, Option.bind_some]; rfl, ⟨sw, sf, ?_, ?_, ?_, ?_⟩, fun i hi => ?_⟩,
    ⟨_, by simp only [Timescale.tdbNd, e, ej, Option.bind_eq_bind, Option.bind_some]; rfl, ⟨sj, sj, ?_, ?_, ?_, ?_⟩, fun i hi => ?_⟩, ?_⟩
  all_goals try (simp; done)
  · obtain ⟨k1, k2⟩ := pw i hi _ rfl
    simp only [timeAt, Timescale.tt, Option.map_none, k1, k2]
  · intro a ha
    cases ha
    exact sf
  · obtain ⟨k1, k2⟩ := pw i hi _ rfl
    simp only [timeAt, Timescale.tai, Option.map_none, Option.map_some, Nd.map, k1, k2]
  · obtain ⟨k1, k2⟩ := pw i hi _ rfl
    simp only [timeAt, Timescale.tdb, Option.map_none, Nd.map, wj i hi, k1, k2]
  · obtain ⟨t, ht, st, mt⟩ := C90_ut1_jd ts (.array ⟨false, jd⟩)
    have q : shapeOf (.array ⟨false, jd⟩) = s := sj
    rw [q] at st mt
    refine ⟨t, by simp only [Timescale.ut1Nd, e, ej, Option.bind_eq_bind, Option.bind_some]; exact ht, st, fun i hi => ?_⟩
    obtain ⟨k1, k2⟩ := pw i hi _ rfl
    rw [mt i hi]
    have v : valueAt (.array ⟨false, jd⟩) i = jd.entry i := atIndex_of_shape sj hi
    rw [v, wj i hi, k1, k2]

/-- `+=` on numbers and arrays, when the left side has the shape of the result or is a number. -/
private theorem iadd_fits {s : List ℕ} {a b : Nd ℝ} (ha : NumberOrShape s a) (hb : NumberOrShape s b) :
    ∃ r, Nd.iadd a b = some r ∧ NumberOrShape s r ∧ (a.shape = s ∨ b.shape = s → r.shape = s) ∧
      ∀ i, ValidIndex s i → atIndex r i = atIndex a i + atIndex b i := by
  obtain ⟨r, e, h1, h2, h3, h4⟩ := map2_fits (fun a b : ℝ => a + b) ha hb
  refine ⟨r, ?_, h1, h2, h4⟩
  have : a.shape = [] ∨ r.shape = a.shape := by
    rcases ha with ha | ha
    · exact Or.inl ha
    · exact Or.inr ((h2 (Or.inl ha)).trans ha.symm)
  simp only [Nd.iadd, e, Option.bind_some, if_pos this]

/-- **C90**: calendar dates in UTC likewise; they are refused only when there is no table of leap seconds, which is when single dates are
refused. -/
theorem C90_utc_dates (ts : Timescale ℝ) (s : List ℕ) (c : CalendarArrays) (h : CalendarOfShape c s) :
    (∃ t, ts.utcNd c = some t ∧ TimeOfShape t s ∧ ∀ i, ValidIndex s i → some (timeAt t i) =
      ts.utc (atIndex c.year i) (atIndex c.month i) (atIndex c.day i) (atIndex c.hour i) (atIndex c.minute i) (atIndex c.second i)) ∨
    (ts.utcNd c = none ∧ ∀ (year month : ℤ) (day hour minute second : ℝ), ts.utc year month day hour minute second = none) := by
  obtain ⟨h1, h2, h3, h4, h5, h6, h7⟩ := h
  obtain ⟨ym, e1, a1, b1, -, c1⟩ := map2_fits Prod.mk h1 h2
  obtain ⟨j, e2, a2, b2, -, c2⟩ := map2_fits (fun (ym : ℤ × ℤ) (d : ℝ) => julianDayFrac ym.1 ym.2 d ts.cutoff) a1 h3
  rcases hz : ts.leapUtc.zip ts.leapOffs with _ | ⟨p, rest⟩
  · refine Or.inr ⟨?_, fun year month day hour minute second => ?_⟩
    · simp only [Timescale.utcNd, julianDayNd, e1, e2, interpNd, hz, Option.bind_eq_bind, Option.bind_some, Option.bind_none]
    · simp only [Timescale.utc, interp, hz]
  · refine Or.inl ?_
    have q : NumberOrShape s ((j.map fun d => (d - 1 / 2) * (dayS : ℝ)).map fun s => (pyDivmod s 1).1) := a2
    have q' : NumberOrShape s ((j.map fun d => (d - 1 / 2) * (dayS : ℝ)).map fun s => (pyDivmod s 1).2) := a2
    obtain ⟨x, e3, a3, b3, c3⟩ := iadd_fits q (b := ((j.map fun d => (d - 1 / 2) * (dayS : ℝ)).map fun s => (pyDivmod s 1).1).map
      (interpGo p rest)) q
    obtain ⟨hm, e4, a4, b4, -, c4⟩ := map2_fits (fun a b : ℝ => a + b) (s := s) (a := c.hour.map (· * 3600)) (b := c.minute.map (· * 60))
      h4 h5
    obtain ⟨mo, e5, a5, b5, -, c5⟩ := map2_fits (fun a b : ℝ => a + b) (s := s) (a := hm) (b := c.second) a4 h6
    obtain ⟨su, e6, a6, b6, -, c6⟩ := map2_fits (fun a b : ℝ => a + b) (s := s) q' a5
    obtain ⟨y, e7, a7, b7, c7⟩ := iadd_fits (s := s) (a := x) (b := su.map fun s => (pyDivmod s 1).1) a3 a6
    obtain ⟨z, e8, a8, b8, c8⟩ := iadd_fits (s := s) (a := y.map fun s => (pyDivmod s dayS).2) (b := su.map fun s => (pyDivmod s 1).2)
      a7 a6
    have hsu : su.shape = s := by
      rcases h7 with h | h | h | h | h | h
      · exact b6 (Or.inl (b2 (Or.inl (b1 (Or.inl h)))))
      · exact b6 (Or.inl (b2 (Or.inl (b1 (Or.inr h)))))
      · exact b6 (Or.inl (b2 (Or.inr h)))
      · exact b6 (Or.inr (b5 (Or.inl (b4 (Or.inl h)))))
      · exact b6 (Or.inr (b5 (Or.inl (b4 (Or.inr h)))))
      · exact b6 (Or.inr (b5 (Or.inr h)))
    have hy : y.shape = s := b7 (Or.inr hsu)
    have hz' : z.shape = s := b8 (Or.inr hsu)
    refine ⟨_, by
      simp only [Timescale.utcNd, julianDayNd, e1, e2, interpNd, hz, e3, e4, e5, e6, e7, e8, Option.bind_eq_bind, Option.bind_some]
      rfl, ⟨hy, hz', ?_, ?_, ?_, ?_⟩, fun i hi => ?_⟩
    · intro a ha
      cases ha
      exact hz'
    · intro a ha
      cases ha
      exact ⟨hy, hsu⟩
    · simp
    · simp
    · have m : ∀ (f : ℝ → ℝ) (a : Nd ℝ), atIndex (a.map f) i = f (atIndex a i) := fun _ _ => rfl
      have k1 := c1 i hi
      have k2 := c2 i hi
      have k3 := c3 i hi
      have k4 := c4 i hi
      have k5 := c5 i hi
      have k6 := c6 i hi
      have k7 := c7 i hi
      have k8 := c8 i hi
      simp only [m] at k1 k2 k3 k4 k5 k6 k7 k8
      rw [k1] at k2
      rw [k2] at k3 k6
      rw [k4] at k5
      rw [k5] at k6
      rw [k3, k6] at k7
      rw [k7, k6] at k8
      rw [atIndex_of_shape hsu hi] at k6
      rw [atIndex_of_shape hy hi] at k7
      rw [atIndex_of_shape hz' hi] at k8
      simp only [timeAt, Option.map_none, Option.map_some, Nd.map, k6, k7, k8, Timescale.utc, interp, hz]

/-- **C90** (finding): a fraction given as a number beside an array of integers loses its own fraction: `ts.tt_jd([2451545, 2451546],
0.25)` is the midnights, not the quarters after. -/
theorem C90_integer_dates_drop_fraction (ts : Timescale ℝ) (s : List ℕ) (e : List ℕ → ℝ) (f : ℝ) (hs : s ≠ []) (hf : 0 ≤ f) (hf' : f < 1) :
    ∀ i, timeAt (ts.ttJdNd (.sequence ⟨true, s, e⟩) (some (.number f))) i = ts.ttJd (e i) (some 0) ∧
      (f ≠ 0 → timeAt (ts.ttJdNd (.sequence ⟨true, s, e⟩) (some (.number f))) i ≠ ts.ttJd (e i) (some f)) := by
  intro i
  have hl : 0 < s.length := List.length_pos_iff.mpr hs
  have fl : ⌊f⌋ = 0 := Int.floor_eq_zero_iff.mpr ⟨hf, hf'⟩
  have key : timeAt (ts.ttJdNd (.sequence ⟨true, s, e⟩) (some (.number f))) i = ts.ttJd (e i) (some 0) := by
    simp [timeAt, Timescale.ttJdNd, normalizeJdNd, toNpArray, reconcile, Nd.scalar, hl, fullLike, truncated, hf, fl, Timescale.ttJd,
      normalizeJd]
  refine ⟨key, fun h0 h => h0 ?_⟩
  rw [key] at h
  have := congrArg Time.ttFraction h
  simpa [Timescale.ttJd, normalizeJd] using this.symm

/-- **C90** (finding): a date given as a number beside an array of integer fractions loses its fraction: `ts.tt_jd(2451545.5, [0, 1])` is
half a day early. -/
theorem C90_integer_fractions_drop_date (ts : Timescale ℝ) (s : List ℕ) (e : List ℕ → ℝ) (x : ℝ) (hs : s ≠ []) (hx : 0 ≤ x) :
    ∀ i, timeAt (ts.ttJdNd (.number x) (some (.sequence ⟨true, s, e⟩))) i = ts.ttJd (⌊x⌋ : ℝ) (some (e i)) ∧
      ((⌊x⌋ : ℝ) ≠ x → timeAt (ts.ttJdNd (.number x) (some (.sequence ⟨true, s, e⟩))) i ≠ ts.ttJd x (some (e i))) := by
  intro i
  have hl : 0 < s.length := List.length_pos_iff.mpr hs
  have key : timeAt (ts.ttJdNd (.number x) (some (.sequence ⟨true, s, e⟩))) i = ts.ttJd (⌊x⌋ : ℝ) (some (e i)) := by
    simp [timeAt, Timescale.ttJdNd, normalizeJdNd, toNpArray, reconcile, Nd.scalar, hl, fullLike, truncated, hx, Timescale.ttJd, normalizeJd]
  refine ⟨key, fun h0 h => h0 ?_⟩
  rw [key] at h
  have := congrArg Time.whole h
  simpa [Timescale.ttJd, normalizeJd] using this

/-- **C90**: a date and a fraction that fit are left as they were. -/
theorem C90_arguments_unchanged (s : List ℕ) (jd f : PyValue) (h : DateAndFraction s jd f) :
    (normalizeJdNd jd (some f)).callerJd = jd ∧ (normalizeJdNd jd (some f)).callerFraction = some f := by
  have sj := (toNpArray_spec jd []).1
  have sf := (toNpArray_spec f []).1
  have key : (toNpArray jd).arr.shape = (toNpArray f).arr.shape ∨ (toNpArray jd).arr.shape = [] ∨ (toNpArray f).arr.shape = [] := by
    rw [sj, sf]
    cases h with
    | both h h' => exact Or.inl (h.trans h'.symm)
    | dates h h' _ => exact Or.inr (Or.inr h')
    | fractions h h' _ => exact Or.inr (Or.inl h)
  have after : ∀ v : PyValue, ∀ b, v.after b (toNpArray v) = v := by
    intro v b
    cases v <;> simp [PyValue.after, toNpArray]
  have after' : ∀ (v : PyValue) r, v.after false r = v := by
    intro v r
    cases v <;> simp [PyValue.after]
  simp only [normalizeJdNd, reconcile]
  split_ifs with h1 h2 h3 h4
  · rcases key with k | k | k
    · rw [k] at h1; omega
    · rw [k] at h2; simp at h2
    · rw [k] at h1; simp at h1
  · exact ⟨after' _ _, by rw [after]⟩
  · rcases key with k | k | k
    · rw [k] at h3; omega
    · rw [k] at h3; simp at h3
    · rw [k] at h4; simp at h4
  · exact ⟨after _ _, by rw [after']⟩
  · exact ⟨after _ _, by rw [after]⟩

/-- **C90** (finding): with `n` dates and an array of `n` times `m` fractions, the dates each go with a row of fractions, but the caller's
own array of dates comes back with another shape, and so does the time's `shape`, which is not that of its `tt`. -/
theorem C90_more_axes (ts : Timescale ℝ) (n m : ℕ) (ints ints' : Bool) (d : List ℕ → ℝ) (f : List ℕ → ℝ) :
    ∃ tt, (ts.ttJdNd (.array ⟨ints, [n], d⟩) (some (.array ⟨ints', [n, m], f⟩))).tt = some tt ∧ tt.shape = [n, m] ∧
      (∀ i < n, ∀ j < m, tt.entry [i, j] = d [i] + f [i, j]) ∧
      (ts.ttJdNd (.array ⟨ints, [n], d⟩) (some (.array ⟨ints', [n, m], f⟩))).shape = [n, 1] ∧
      shapeOf (normalizeJdNd (.array ⟨ints, [n], d⟩) (some (.array ⟨ints', [n, m], f⟩))).callerJd = [n, 1] := by
  have b : Nd.bshape [n, 1] [n, m] = some [n, m] := by
    by_cases h : 1 = m
    · subst h
      simp [Nd.bshape, Nd.bshapeRev, Nd.bdim]
    · simp [Nd.bshape, Nd.bshapeRev, Nd.bdim, h]
  refine ⟨_, by
    simp [TimeNd.tt, Timescale.ttJdNd, normalizeJdNd, toNpArray, reconcile, Nd.addAxes, Nd.map2, b]
    rfl, rfl, ?_, ?_, ?_⟩
  · intro i hi j hj
    have h1 : (if n = 1 then 0 else i) = i := by split_ifs <;> omega
    have h2 : (if m = 1 then 0 else j) = j := by split_ifs <;> omega
    simp [Nd.bindex, h1, h2]
  · simp [TimeNd.shape, Timescale.ttJdNd, normalizeJdNd, toNpArray, reconcile, Nd.addAxes]
  · simp [shapeOf, normalizeJdNd, toNpArray, reconcile, PyValue.after, Nd.addAxes]

/-- **C90** (finding): a time made from an array of dates and fractions holds the caller's own array, so that what the caller writes there
later changes the time. -/
theorem C90_keeps_callers_array (ts : Timescale ℝ) (s : List ℕ) (ints : Bool) (d f written : List ℕ → ℝ) (i : List ℕ) :
    timeAt (ts.ttJdLater (.array ⟨ints, s, d⟩) (some (.array ⟨ints, s, f⟩)) written) i = ts.ttJd (written i) (some (f i)) := by
  simp [timeAt, Timescale.ttJdLater, normalizeJdNd, toNpArray, reconcile, PyValue.isArray, Timescale.ttJd, normalizeJd]

/-- **C90**: a time made from dates alone does not change when the caller's array does. -/
theorem C90_dates_alone_are_copied (ts : Timescale ℝ) (jd : PyValue) (written : List ℕ → ℝ) :
    ts.ttJdLater jd none written = ts.ttJdNd jd none := rfl

/-- The hypotheses of the theorems above are met: two dates with one fraction, dates with an array of fractions, and a year with an array
of hours. -/
example : DateAndFraction [2] (.sequence ⟨false, [2], fun i => 2451545 + i.headD 0⟩) (.number (1 / 4)) ∧
    DateAndFraction [2] (.number 2451545) (.array ⟨false, [2], fun i => i.headD 0 / 2⟩) ∧
    CalendarOfShape ⟨.scalar 2020, .scalar 1, .scalar 31, ⟨[24], fun i => (i.headD 0 : ℝ)⟩, .scalar 0, .scalar 0⟩ [24] ∧
    ValidIndex [24] [23] :=
  ⟨.dates rfl rfl rfl, .fractions rfl rfl rfl,
    ⟨Or.inl rfl, Or.inl rfl, Or.inl rfl, Or.inr rfl, Or.inl rfl, Or.inl rfl, Or.inr (Or.inr (Or.inr (Or.inl rfl)))⟩,
    by unfold ValidIndex; simp⟩

end Skyfield
