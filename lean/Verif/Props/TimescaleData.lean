import Verif.Model.TimescaleData
import Mathlib.Tactic.Ring
import Mathlib.Tactic.Linarith
import Mathlib.Tactic.FieldSimp
import Mathlib.Tactic.NormNum
import Mathlib.Data.Rat.Floor
import Mathlib.Data.List.Sort
import Mathlib.Algebra.Order.Floor.Ring

/-
C30: the tables of a timescale built from data files.
-/
set_option linter.unusedSectionVars false
namespace Skyfield
variable {K : Type*} [Field K] [LinearOrder K] [IsStrictOrderedRing K] [FloorRing K]

/-! ### Lemmas -/

theorem leapMask_length (dut1 : List K) (h : dut1 ≠ []) : (leapMask dut1).length = dut1.length := by
  have := List.length_pos_iff.2 h
  simp [leapMask]; omega

theorem leapMask_zero (dut1 : List K) : (leapMask dut1)[0]? = some false := rfl

theorem leapMask_succ (dut1 : List K) (i : ℕ) :
    (leapMask dut1)[i + 1]? = some true ↔
      ∃ a b, dut1[i]? = some a ∧ dut1[i + 1]? = some b ∧ b - a > 9 / 10 := by
  unfold leapMask
  rw [List.getElem?_cons_succ, List.getElem?_zipWith, List.getElem?_tail]
  cases dut1[i]? with
  | none => simp
  | some a =>
    cases dut1[i + 1]? with
    | none => simp
    | some b => simp

theorem cumsumFrom_length (acc : ℕ) (m : List Bool) : (cumsumFrom acc m).length = m.length := by
  induction m generalizing acc with
  | nil => rfl
  | cons b bs ih => simp [cumsumFrom, ih]

theorem cumsumFrom_getElem (acc : ℕ) (m : List Bool) (i : ℕ) (h : i < m.length) :
    (cumsumFrom acc m)[i]? = some (acc + (m.take (i + 1)).count true) := by
  induction m generalizing acc i with
  | nil => simp at h
  | cons b bs ih =>
    cases i with
    | zero => cases b <;> simp [cumsumFrom]
    | succ i =>
      rw [cumsumFrom, List.getElem?_cons_succ, ih _ _ (by simpa using h), List.take_succ_cons, List.count_cons]
      cases b <;> simp <;> omega

theorem maskedDates_length (mjd : List K) (m : List Bool) (h : m.length ≤ mjd.length) :
    (maskedDates mjd m).length = m.count true := by
  induction m generalizing mjd with
  | nil => simp [maskedDates]
  | cons b bs ih =>
    cases mjd with
    | nil => simp at h
    | cons x xs =>
      have := ih xs (by simpa using h)
      unfold maskedDates at this ⊢
      rw [List.zip_cons_cons, List.filterMap_cons, List.count_cons]
      cases b
      · simpa using this
      · simp [this]

theorem mem_maskedDates (mjd : List K) (m : List Bool) (d : K) :
    d ∈ maskedDates mjd m ↔ ∃ i : ℕ, mjd[i]? = some d ∧ m[i]? = some true := by
  unfold maskedDates
  rw [List.mem_filterMap]
  constructor
  · rintro ⟨⟨x, b⟩, hm, he⟩
    cases b with
    | false => simp at he
    | true =>
      simp only [if_true, Option.some.injEq] at he
      subst he
      obtain ⟨i, hi⟩ := List.mem_iff_getElem?.1 hm
      rw [List.getElem?_zip_eq_some] at hi
      exact ⟨i, hi.1, hi.2⟩
  · rintro ⟨i, h1, h2⟩
    exact ⟨(d, true), List.mem_iff_getElem?.2 ⟨i, List.getElem?_zip_eq_some.2 ⟨h1, h2⟩⟩, rfl⟩

theorem maskedDates_sorted (mjd : List K) (m : List Bool) (h : mjd.Pairwise (· < ·)) :
    (maskedDates mjd m).Pairwise (· < ·) := by
  induction mjd generalizing m with
  | nil => simp [maskedDates]
  | cons x xs ih =>
    cases m with
    | nil => simp [maskedDates]
    | cons b bs =>
      rw [List.pairwise_cons] at h
      have ih' := ih bs h.2
      have hx : ∀ d ∈ maskedDates xs bs, x < d := by
        intro d hd
        obtain ⟨i, hi, -⟩ := (mem_maskedDates xs bs d).1 hd
        exact h.1 d (List.mem_iff_getElem?.2 ⟨i, hi⟩)
      unfold maskedDates at *
      rw [List.zip_cons_cons, List.filterMap_cons]
      cases b
      · simpa using ih'
      · simp only [if_true]
        exact List.pairwise_cons.2 ⟨hx, ih'⟩

theorem mem_moreLeaps (l : List K) (d : K) :
    d ∈ moreLeaps l ↔ (d = 41499 ∨ d = 41683) ∧ ∃ f, l.head? = some f ∧ d < f := by
  unfold moreLeaps
  rw [List.mem_filter]
  constructor
  · rintro ⟨h1, h2⟩
    simp only [List.mem_cons, List.not_mem_nil, or_false] at h1
    refine ⟨h1, ?_⟩
    simp only [gt_iff_lt, decide_eq_true_eq] at h2
    cases hl : l.head? with
    | none =>
      rw [hl, Option.getD_none] at h2
      rcases h1 with rfl | rfl <;> · exfalso; linarith
    | some f => rw [hl, Option.getD_some] at h2; exact ⟨f, rfl, h2⟩
  · rintro ⟨h1, f, hf, h2⟩
    refine ⟨by simpa using h1, ?_⟩
    rw [hf]
    simpa using h2

theorem moreLeaps_sorted (l : List K) : (moreLeaps l).Pairwise (· < ·) := by
  unfold moreLeaps
  apply List.Pairwise.filter
  simp only [List.pairwise_cons, List.mem_cons, List.not_mem_nil, or_false, forall_eq, false_imp_iff,
    implies_true, List.Pairwise.nil, and_true]
  norm_num

/-! ### C30 -/

/-- **C30.** The leap second dates built from daily values of UT1-UTC are the days at whose beginning the value has
jumped up by more than 0.9 s since the previous one, plus those of 1972 July 1 and 1973 January 1 that
precede the first of these. -/
theorem C30_leap_dates (round7 : K → K) (mjd dut1 : List K) (jd : K) :
    jd ∈ (buildTimescaleArrays round7 mjd dut1).leapDates ↔
      (∃ i a b m, dut1[i]? = some a ∧ dut1[i + 1]? = some b ∧ b - a > 9 / 10 ∧ mjd[i + 1]? = some m ∧
        jd = m + 24000005 / 10) ∨
      (∃ m f, (m = 41499 ∨ m = 41683) ∧ jd = m + 24000005 / 10 ∧ m < f ∧
        (maskedDates mjd (leapMask dut1)).head? = some f) := by
  unfold buildTimescaleArrays
  simp only [List.map_append, List.mem_append, List.mem_map]
  rw [or_comm]
  refine or_congr ?_ ?_
  · constructor
    · rintro ⟨m, hm, rfl⟩
      obtain ⟨i, h1, h2⟩ := (mem_maskedDates _ _ _).1 hm
      cases i with
      | zero => rw [leapMask_zero] at h2; simp at h2
      | succ i =>
        obtain ⟨a, b, ha, hb, hab⟩ := (leapMask_succ dut1 i).1 h2
        exact ⟨i, a, b, m, ha, hb, hab, h1, rfl⟩
    · rintro ⟨i, a, b, m, ha, hb, hab, hm, rfl⟩
      exact ⟨m, (mem_maskedDates _ _ _).2 ⟨i + 1, hm, (leapMask_succ dut1 i).2 ⟨a, b, ha, hb, hab⟩⟩, rfl⟩
  · constructor
    · rintro ⟨m, hm, rfl⟩
      obtain ⟨h1, f, hf, h2⟩ := (mem_moreLeaps _ _).1 hm
      exact ⟨m, f, h1, rfl, h2, hf⟩
    · rintro ⟨m, f, h1, rfl, h2, hf⟩
      exact ⟨m, (mem_moreLeaps _ _).2 ⟨h1, f, hf, h2⟩, rfl⟩

/-- **C30.** With at least one leap second in a table of daily values in date order (whole modified Julian days), the
result is a proper leap second table: dates in order and at midnight, offsets stepping by one from 11 s
(that is, from the 10 s in force before the first leap second).  This is what C05-C09 assume. -/
theorem C30_leap_table (round7 : K → K) (days : List ℤ) (dut1 : List K) (hdays : days.Pairwise (· < ·))
    (hleap : maskedDates (days.map (fun d : ℤ => (d : K))) (leapMask dut1) ≠ []) (ts : Timescale K)
    (h1 : ts.leapDates = (buildTimescaleArrays round7 (days.map (fun d : ℤ => (d : K))) dut1).leapDates)
    (h2 : ts.leapOffsets = (buildTimescaleArrays round7 (days.map (fun d : ℤ => (d : K))) dut1).leapOffsets) :
    ∃ L : List ℤ, IsLeapTable ts L 10 := by
  set mjd : List K := days.map (fun d : ℤ => (d : K)) with hmjd
  set leaps := maskedDates mjd (leapMask dut1) with hl
  have hsorted : mjd.Pairwise (· < ·) := by
    rw [hmjd, List.pairwise_map]
    exact hdays.imp (fun h => by exact_mod_cast h)
  have hs := maskedDates_sorted mjd (leapMask dut1) hsorted
  have hall : (moreLeaps leaps ++ leaps).Pairwise (· < ·) := by
    rw [List.pairwise_append]
    refine ⟨moreLeaps_sorted _, hs, ?_⟩
    intro a ha b hb
    obtain ⟨-, f, hf, haf⟩ := (mem_moreLeaps _ _).1 ha
    refine lt_of_lt_of_le haf ?_
    cases hll : leaps with
    | nil => rw [hll] at hf; simp at hf
    | cons x xs =>
      rw [hll] at hf hb
      have hs' : (x :: xs).Pairwise (· < ·) := by rw [← hll]; exact hs
      simp only [List.head?_cons, Option.some.injEq] at hf
      subst hf
      rw [List.mem_cons] at hb
      rcases hb with rfl | hb
      · exact le_refl _
      · exact ((List.pairwise_cons.1 hs').1 b hb).le
  have hint : ∀ x ∈ moreLeaps leaps ++ leaps, ∃ n : ℤ, x = n := by
    intro x hx
    rw [List.mem_append] at hx
    rcases hx with hx | hx
    · rcases ((mem_moreLeaps _ _).1 hx).1 with rfl | rfl
      · exact ⟨41499, by norm_num⟩
      · exact ⟨41683, by norm_num⟩
    · obtain ⟨i, h, -⟩ := (mem_maskedDates _ _ _).1 hx
      have := List.mem_iff_getElem?.2 ⟨i, h⟩
      rw [hmjd, List.mem_map] at this
      obtain ⟨n, -, rfl⟩ := this
      exact ⟨n, rfl⟩
  have hfloor : ∀ x ∈ moreLeaps leaps ++ leaps, ((⌊x⌋ : ℤ) : K) = x := by
    intro x hx
    obtain ⟨n, rfl⟩ := hint x hx
    rw [Int.floor_intCast]
  refine ⟨(moreLeaps leaps ++ leaps).map (fun x => ⌊x⌋ + 2400001), ?_, ?_, ?_, ?_⟩
  · rw [h1]
    unfold buildTimescaleArrays
    simp only
    rw [← hl, List.map_map]
    apply List.map_congr_left
    intro x hx
    simp only [Function.comp_apply]
    push_cast
    rw [hfloor x hx]; ring
  · rw [h2]
    unfold buildTimescaleArrays
    simp only
    rw [← hl, List.length_map]
    apply List.map_congr_left
    intro i _
    push_cast
    ring
  · rw [List.pairwise_map]
    apply hall.imp_of_mem
    intro a b ha hb hab
    rw [← hfloor a ha, ← hfloor b hb] at hab
    have : ⌊a⌋ < ⌊b⌋ := by exact_mod_cast hab
    omega
  · simp [hleap]

/-- **C30.** The daily values: on day `i`, TT-UTC is 44.184 s plus the leap seconds seen so far in the table; Delta-T
is TT-UTC less UT1-UTC, rounded. -/
theorem C30_daily (round7 : K → K) (mjd dut1 : List K) (hlen : mjd.length = dut1.length) (i : ℕ) (m u : K)
    (hm : mjd[i]? = some m) (hu : dut1[i]? = some u) :
    let leaps := ((leapMask dut1).take (i + 1)).count true
    let ttMinusUtc : K := 44184 / 1000 + leaps
    (buildTimescaleArrays round7 mjd dut1).dailyTt[i]? = some (m + 24000005 / 10 + ttMinusUtc / 86400) ∧
      (buildTimescaleArrays round7 mjd dut1).dailyDeltaT[i]? = some (round7 (ttMinusUtc - u)) := by
  intro leaps tmu
  have hne : dut1 ≠ [] := by rintro rfl; simp at hu
  have hi : i < dut1.length := by
    by_contra hc
    rw [List.getElem?_eq_none (by omega)] at hu; cases hu
  have ht : (ttMinusUtc dut1)[i]? = some tmu := by
    unfold ttMinusUtc
    rw [List.getElem?_map, cumsumFrom_getElem 0 _ i (by rw [leapMask_length dut1 hne]; exact hi), Option.map_some]
    simp only [tmu, leaps, Nat.zero_add]
    congr 1; ring
  unfold buildTimescaleArrays
  simp only [List.getElem?_zipWith, hm, hu, ht, dayS]
  refine ⟨?_, trivial⟩
  congr 1; ring

theorem count_take_eq (mjd : List K) (mask : List Bool) (hlen : mask.length = mjd.length)
    (hs : mjd.Pairwise (· < ·)) (i : ℕ) (m : K) (hm : mjd[i]? = some m) :
    ((maskedDates mjd mask).filter (· ≤ m)).length = (mask.take (i + 1)).count true := by
  induction mjd generalizing mask i with
  | nil => simp at hm
  | cons x xs ih =>
    cases mask with
    | nil => simp at hlen
    | cons b bs =>
      rw [List.pairwise_cons] at hs
      have hcons : maskedDates (x :: xs) (b :: bs) = (if b then [x] else []) ++ maskedDates xs bs := by
        unfold maskedDates; rw [List.zip_cons_cons, List.filterMap_cons]; cases b <;> simp
      rw [hcons, List.filter_append, List.length_append, List.take_succ_cons, List.count_cons]
      cases i with
      | zero =>
        simp only [List.getElem?_cons_zero, Option.some.injEq] at hm
        subst hm
        have : (maskedDates xs bs).filter (· ≤ x) = [] := by
          rw [List.filter_eq_nil_iff]
          intro d hd
          obtain ⟨j, hj, -⟩ := (mem_maskedDates xs bs d).1 hd
          have := hs.1 d (List.mem_iff_getElem?.2 ⟨j, hj⟩)
          simpa using this
        rw [this]
        cases b <;> simp
      | succ i =>
        rw [List.getElem?_cons_succ] at hm
        rw [ih bs (by simpa using hlen) hs.2 i hm]
        have : x ≤ m := (hs.1 m (List.mem_iff_getElem?.2 ⟨i, hm⟩)).le
        cases b
        · simp
        · simp [this]; omega

/-- **C30.** For a table that starts after 1973 January 1, as the published one does: the TT-UTC used for the daily values
is 32.184 s plus the TAI-UTC that the leap second table gives for that day (10 s plus the number of
leap second dates up to it). -/
theorem C30_consistent (round7 : K → K) (mjd dut1 : List K) (hlen : mjd.length = dut1.length)
    (hs : mjd.Pairwise (· < ·)) (hstart : ∀ m ∈ mjd, 41683 < m)
    (hleap : maskedDates mjd (leapMask dut1) ≠ []) (i : ℕ) (m u : K)
    (hm : mjd[i]? = some m) (hu : dut1[i]? = some u) :
    let passed := ((buildTimescaleArrays round7 mjd dut1).leapDates.filter (· ≤ m + 24000005 / 10)).length
    (buildTimescaleArrays round7 mjd dut1).dailyTt[i]? =
        some (m + 24000005 / 10 + (32184 / 1000 + 10 + passed) / 86400) ∧
      (buildTimescaleArrays round7 mjd dut1).dailyDeltaT[i]? =
        some (round7 (32184 / 1000 + 10 + passed - u)) := by
  intro passed
  have hne : dut1 ≠ [] := by rintro rfl; simp at hu
  have hp : passed = 2 + ((leapMask dut1).take (i + 1)).count true := by
    simp only [passed]
    unfold buildTimescaleArrays
    simp only
    set leaps := maskedDates mjd (leapMask dut1) with hl
    have hmore : moreLeaps leaps = [41499, 41683] := by
      unfold moreLeaps
      rw [List.filter_eq_self]
      intro d hd
      cases hll : leaps with
      | nil => exact absurd hll hleap
      | cons f fs =>
        have : f ∈ leaps := by rw [hll]; simp
        obtain ⟨j, hj, -⟩ := (mem_maskedDates _ _ _).1 this
        have h1 := hstart f (List.mem_iff_getElem?.2 ⟨j, hj⟩)
        simp only [List.mem_cons, List.not_mem_nil, or_false] at hd
        simp only [List.head?_cons, Option.getD_some, gt_iff_lt, decide_eq_true_eq]
        rcases hd with rfl | rfl
        · linarith
        · exact h1
    have hm' := hstart m (List.mem_iff_getElem?.2 ⟨i, hm⟩)
    rw [hmore, List.filter_map, List.length_map, List.filter_append, List.length_append]
    have e1 : ([41499, 41683] : List K).filter ((fun x => decide (x ≤ m + 24000005 / 10)) ∘ fun x => x + 24000005 / 10)
        = [41499, 41683] := by
      rw [List.filter_eq_self]
      intro d hd
      simp only [List.mem_cons, List.not_mem_nil, or_false] at hd
      simp only [Function.comp_apply, decide_eq_true_eq]
      rcases hd with rfl | rfl <;> linarith
    have e2 : leaps.filter ((fun x => decide (x ≤ m + 24000005 / 10)) ∘ fun x => x + 24000005 / 10) =
        leaps.filter (· ≤ m) := by
      apply List.filter_congr
      intro d _
      simp
    rw [e1, e2, hl, count_take_eq mjd (leapMask dut1) (by rw [leapMask_length dut1 hne, hlen]) hs i m hm]
    rfl
  have := C30_daily round7 mjd dut1 hlen i m u hm hu
  simp only at this
  rw [this.1, this.2, hp]
  push_cast
  constructor
  · congr 1; ring
  · congr 2; ring

/-- **C30.** Delta-T has no jump at leap seconds: if UT1-UTC changes from one day to the next by at most `ε`, or jumps up
by one second give or take `ε`, then Delta-T changes by at most `ε` (plus the rounding). -/
theorem C30_no_jump (round7 : K → K) (hround : ∀ x, |round7 x - x| ≤ 5 / 10 ^ 8) (mjd dut1 : List K)
    (hlen : mjd.length = dut1.length) (i : ℕ) (a b ε d d' : K) (hε : ε ≤ 1 / 20)
    (ha : dut1[i]? = some a) (hb : dut1[i + 1]? = some b) (hab : |b - a| ≤ ε ∨ |b - a - 1| ≤ ε)
    (hd : (buildTimescaleArrays round7 mjd dut1).dailyDeltaT[i]? = some d)
    (hd' : (buildTimescaleArrays round7 mjd dut1).dailyDeltaT[i + 1]? = some d') :
    |d' - d| ≤ ε + 1 / 10 ^ 7 := by
  have hi : i + 1 < dut1.length := by
    by_contra hc
    rw [List.getElem?_eq_none (by omega)] at hb; cases hb
  have hm : mjd[i]? = some mjd[i] := List.getElem?_eq_getElem (by omega)
  have hm' : mjd[i + 1]? = some mjd[i + 1] := List.getElem?_eq_getElem (by omega)
  have k1 := (C30_daily round7 mjd dut1 hlen i _ a hm ha).2
  have k2 := (C30_daily round7 mjd dut1 hlen (i + 1) _ b hm' hb).2
  rw [hd, Option.some.injEq] at k1
  rw [hd', Option.some.injEq] at k2
  have hne : dut1 ≠ [] := by rintro rfl; simp at hb
  have hil : i + 1 < (leapMask dut1).length := by rw [leapMask_length dut1 hne]; exact hi
  have hcount : ((leapMask dut1).take (i + 1 + 1)).count true =
      ((leapMask dut1).take (i + 1)).count true + (leapMask dut1)[i + 1].toNat := by
    rw [List.take_succ_eq_append_getElem hil, List.count_append]
    congr 1
    cases (leapMask dut1)[i + 1] <;> rfl
  have hbit : (leapMask dut1)[i + 1] = true ↔ b - a > 9 / 10 := by
    have := leapMask_succ dut1 i
    rw [List.getElem?_eq_getElem hil, Option.some.injEq] at this
    rw [this]
    constructor
    · rintro ⟨a', b', h1, h2, h3⟩
      rw [ha, Option.some.injEq] at h1; rw [hb, Option.some.injEq] at h2
      subst h1; subst h2; exact h3
    · intro h; exact ⟨a, b, ha, hb, h⟩
  rw [hcount] at k2
  rw [k1, k2]
  generalize ((leapMask dut1).take (i + 1)).count true = n
  have r1 := abs_le.1 (hround (44184 / 1000 + (n : K) - a))
  have r2 := abs_le.1 (hround (44184 / 1000 + ((n + (leapMask dut1)[i + 1].toNat : ℕ) : K) - b))
  cases hbb : (leapMask dut1)[i + 1] with
  | true =>
    have hj := hbit.1 hbb
    rw [hbb] at r2
    simp only [Bool.toNat_true, Nat.cast_add, Nat.cast_one] at r2 ⊢
    have : |b - a - 1| ≤ ε := by
      rcases hab with h | h
      · have := (abs_le.1 h).2; linarith
      · exact h
    have := abs_le.1 this
    rw [abs_le]
    constructor <;> norm_num at * <;> linarith [r1.1, r1.2, r2.1, r2.2, this.1, this.2]
  | false =>
    have hj : ¬ b - a > 9 / 10 := by rw [← hbit, hbb]; simp
    rw [hbb] at r2
    simp only [Bool.toNat_false, Nat.add_zero] at r2 ⊢
    have : |b - a| ≤ ε := by
      rcases hab with h | h
      · exact h
      · have := (abs_le.1 h).1; exfalso; apply hj; linarith
    have := abs_le.1 this
    rw [abs_le]
    constructor <;> norm_num at * <;> linarith [r1.1, r1.2, r2.1, r2.2, this.1, this.2]

/-! ### The old files -/

/-- **C30.** The old file `Leap_Second.dat`, whose first row is the state of 1972 January 1 and whose other rows are the leap
seconds: the timescale uses exactly the dates and offsets of the other rows. -/
theorem C30_legacy_leaps (row : K × K) (rows : List (K × K)) :
    timescaleLeaps (parseLeapSeconds (row :: rows)).1 (parseLeapSeconds (row :: rows)).2 =
      some (rows.map (fun r => r.1 + 24000005 / 10), rows.map Prod.snd) := by
  have key : ∀ l : List (K × K), (l.map fun r => MaybeInf.num (r.1 + 24000005 / 10)).mapM MaybeInf.num? =
      some (l.map fun r => r.1 + 24000005 / 10) := by
    intro l
    induction l with
    | nil => rfl
    | cons x xs ih =>
      rw [List.map_cons, List.mapM_cons, ih]
      rfl
  unfold timescaleLeaps parseLeapSeconds
  simp only [List.map_cons, List.cons_append, List.map_map]
  rw [show (MaybeInf.negInf :: MaybeInf.num (row.1 + 24000005 / 10) ::
    (List.map ((fun m => MaybeInf.num (m + 24000005 / 10)) ∘ Prod.fst) rows ++ [MaybeInf.posInf])) =
    (MaybeInf.negInf :: MaybeInf.num (row.1 + 24000005 / 10) ::
    List.map ((fun m => MaybeInf.num (m + 24000005 / 10)) ∘ Prod.fst) rows) ++ [MaybeInf.posInf] from rfl,
    List.getLast?_append]
  simp only [List.getLast?_singleton, Option.some_or, MaybeInf.isInf, if_true]
  have := key rows
  simp only [List.cons_append, List.drop_succ_cons, List.drop_zero, List.dropLast_concat, Function.comp_def] at this ⊢
  rw [this]
  rfl

/-- **C30.** The old Delta-T files: the measured values are all kept, followed by exactly the predictions for later dates,
in order of date. -/
theorem C30_legacy_delta_t (data preds : List (K × K)) (last : K × K) (hlast : data.getLast? = some last)
    (hd : (data.map Prod.fst).Pairwise (· < ·)) (hp : (preds.map Prod.fst).Pairwise (· < ·)) :
    legacyDeltaT data preds = some (data ++ preds.filter fun p => decide (last.1 < p.1)) ∧
      ((data ++ preds.filter fun p => decide (last.1 < p.1)).map Prod.fst).Pairwise (· < ·) := by
  have hdrop : ∀ preds : List (K × K), (preds.map Prod.fst).Pairwise (· < ·) →
      preds.drop (preds.takeWhile fun p => decide (p.1 ≤ last.1)).length =
        preds.filter fun p => decide (last.1 < p.1) := by
    intro preds hp
    induction preds with
    | nil => rfl
    | cons x xs ih =>
      rw [List.map_cons, List.pairwise_cons] at hp
      by_cases h : x.1 ≤ last.1
      · rw [List.takeWhile_cons_of_pos (by simpa using h), List.length_cons, List.drop_succ_cons, ih hp.2,
          List.filter_cons_of_neg (by simpa using h)]
      · rw [List.takeWhile_cons_of_neg (by simpa using h), List.length_nil, List.drop_zero]
        symm
        rw [List.filter_eq_self]
        intro y hy
        rw [not_le] at h
        rw [List.mem_cons] at hy
        rcases hy with rfl | hy
        · simpa using h
        · have := hp.1 y.1 (List.mem_map_of_mem hy)
          simpa using h.trans this
  constructor
  · unfold legacyDeltaT
    rw [hlast]
    simp only
    rw [hdrop preds hp]
  · rw [List.map_append, List.pairwise_append]
    refine ⟨hd, ?_, ?_⟩
    · exact (hp.sublist (List.Sublist.map _ List.filter_sublist))
    · intro a ha b hb
      rw [List.mem_map] at ha hb
      obtain ⟨x, hx, rfl⟩ := ha
      obtain ⟨y, hy, rfl⟩ := hb
      rw [List.mem_filter] at hy
      have hy2 : last.1 < y.1 := by simpa using hy.2
      refine lt_of_le_of_lt ?_ hy2
      obtain ⟨ys, rfl⟩ := List.getLast?_eq_some_iff.1 hlast
      rw [List.map_append, List.pairwise_append] at hd
      rw [List.mem_append, List.mem_singleton] at hx
      rcases hx with hx | rfl
      · exact (hd.2.2 x.1 (List.mem_map_of_mem hx) last.1 (by simp)).le
      · exact le_refl _

/-- **C30.** A prediction for the first day of a quarter is dated to that day. -/
theorem C30_preds_month (year q : ℤ) (hy : 0 ≤ year) (hq : 0 ≤ q) (hq' : q < 4) :
    predsMonth ((year : K) + (q : K) / 4) = (year, 3 * q + 1) := by
  have h0 : (0 : K) ≤ (year : K) := by exact_mod_cast hy
  have h1 : (0 : K) ≤ (q : K) := by exact_mod_cast hq
  have h2 : (q : K) ≤ 3 := by exact_mod_cast (show q ≤ 3 by omega)
  have e : ((year : K) + (q : K) / 4) * 12 = ((12 * year + 3 * q : ℤ) : K) := by push_cast; ring
  unfold predsMonth astypeInt
  have hx : (0 : K) ≤ (year : K) + (q : K) / 4 := by positivity
  rw [if_pos hx, e, if_pos (by exact_mod_cast (show 0 ≤ 12 * year + 3 * q by omega)), Int.floor_intCast]
  refine Prod.ext ?_ ?_
  · show ⌊(year : K) + (q : K) / 4⌋ = year
    rw [Int.floor_eq_iff]
    constructor
    · linarith
    · linarith
  · show 1 + (12 * year + 3 * q) % 12 = 3 * q + 1
    omega

/-! ### Limitations -/

/-- **C30, limitation.** For a table that also covers the first leap seconds of 1972 and 1973, the leap second table is
right but the daily values are 2 s off: here on the first day TAI-UTC is 10 s by the leap second table and
12 s in the daily TT and Delta-T. -/
theorem C30_more_complete_file (round7 : K → K) :
    let mjd : List K := [41498, 41499, 41682, 41683]
    let dut1 : List K := [-6 / 10, 4 / 10, -2 / 10, 8 / 10]
    let r := buildTimescaleArrays round7 mjd dut1
    r.leapDates = [41499 + 24000005 / 10, 41683 + 24000005 / 10] ∧ r.leapOffsets = [11, 12] ∧
      r.dailyTt[0]? = some (41498 + 24000005 / 10 + (32184 / 1000 + 12) / 86400) := by
  intro mjd dut1 r
  have hmask : leapMask dut1 = [false, true, false, true] := by
    simp only [dut1, leapMask, List.tail_cons, List.zipWith_cons_cons, List.zipWith_nil_right]
    norm_num
  have hleaps : maskedDates mjd (leapMask dut1) = [41499, 41683] := by rw [hmask]; rfl
  have hmore : moreLeaps ([41499, 41683] : List K) = [] := by
    unfold moreLeaps
    rw [List.filter_eq_nil_iff]
    intro d hd
    simp only [List.mem_cons, List.not_mem_nil, or_false] at hd
    simp only [List.head?_cons, Option.getD_some, gt_iff_lt, decide_eq_true_eq, not_lt]
    rcases hd with rfl | rfl <;> norm_num
  have hd := (C30_daily round7 mjd dut1 rfl 0 41498 (-6 / 10) rfl rfl).1
  refine ⟨?_, ?_, ?_⟩
  · simp only [r, buildTimescaleArrays, hleaps, hmore]
    rfl
  · simp only [r, buildTimescaleArrays, hleaps, hmore]
    simp [List.range_succ]
    norm_num
  · rw [hd, hmask]
    norm_num

/-- **C30, limitation.** From a table without any leap second no timescale can be built: the leap second list is empty and
`Timescale.__init__` raises. -/
theorem C30_no_leap_in_file (round7 : K → K) (mjd dut1 : List K)
    (h : ∀ i a b, dut1[i]? = some a → dut1[i + 1]? = some b → b - a ≤ 9 / 10) :
    timescaleLeaps ((buildTimescaleArrays round7 mjd dut1).leapDates.map MaybeInf.num)
      (buildTimescaleArrays round7 mjd dut1).leapOffsets = none := by
  have : maskedDates mjd (leapMask dut1) = [] := by
    rw [List.eq_nil_iff_forall_not_mem]
    intro d hd
    obtain ⟨i, -, h2⟩ := (mem_maskedDates _ _ _).1 hd
    cases i with
    | zero => rw [leapMask_zero] at h2; simp at h2
    | succ i =>
      obtain ⟨a, b, ha, hb, hab⟩ := (leapMask_succ dut1 i).1 h2
      exact absurd (h i a b ha hb) (not_le.2 hab)
  have h2 : moreLeaps ([] : List K) = [] := by
    unfold moreLeaps
    rw [List.filter_eq_nil_iff]
    intro d hd
    simp only [List.mem_cons, List.not_mem_nil, or_false] at hd
    simp only [List.head?_nil, Option.getD_none, gt_iff_lt, decide_eq_true_eq, not_lt]
    rcases hd with rfl | rfl <;> norm_num
  have h3 : (buildTimescaleArrays round7 mjd dut1).leapDates = [] := by
    unfold buildTimescaleArrays
    simp only [this, h2]
    rfl
  rw [h3]
  rfl

/-! ### Non-vacuity -/

/-- The days around 1974 January 1 in `finals2000A.all`, with the three leap seconds up to then. -/
example : (buildTimescaleArrays (K := ℚ) id [42046, 42047, 42048, 42049] [-294/1000, -297/1000, 700/1000, 697/1000]).leapDates
    = [41499 + 24000005 / 10, 41683 + 24000005 / 10, 42048 + 24000005 / 10] := by decide +kernel
example : (buildTimescaleArrays (K := ℚ) id [42046, 42047, 42048, 42049] [-294/1000, -297/1000, 700/1000, 697/1000]).leapOffsets
    = [11, 12, 13] := by decide +kernel
example : (buildTimescaleArrays (K := ℚ) id [42046, 42047, 42048, 42049] [-294/1000, -297/1000, 700/1000, 697/1000]).dailyDeltaT
    = [44478/1000, 44481/1000, 44484/1000, 44487/1000] := by decide +kernel
example : maskedDates (K := ℚ) ([42046, 42047, 42048, 42049].map (fun d : ℤ => (d : ℚ)))
    (leapMask ([-294/1000, -297/1000, 700/1000, 697/1000] : List ℚ)) ≠ [] := by decide +kernel

end Skyfield
