import Verif.Model.TimeArith
import Verif.Props.UtcText
import Mathlib.Tactic.FieldSimp
import Mathlib.Tactic.Linarith
import Mathlib.Tactic.LinearCombination

/-
C10, C11, C14: time arithmetic, time scale constructors, linspace.  Over any ordered field with a
floor.  `t.tt` (TT as a Julian date) is the instant a `Time` stands for.
-/
namespace Skyfield
open Spec
set_option linter.unusedSectionVars false
variable {K : Type*} [Field K] [LinearOrder K] [IsStrictOrderedRing K] [FloorRing K]

/-- The length of a `timedelta` in days. -/
def TimeDelta.inDays (d : TimeDelta) : K := d.days + (d.seconds + d.microseconds / 1000000) / 86400

/-- C10 (add).  Adding `x` days gives the instant `x` days later, whichever way the time was split
into whole and fraction. -/
theorem C10_add_num (t : Time K) (x : K) : (t.addNum x).tt = t.tt + x := by
  simp only [Time.addNum, Timescale.ttJd, normalizeJd, Time.tt, pyDivmod, pyFloorDiv, pyMod]
  ring

theorem C10_sub_num (t : Time K) (x : K) : (t.subNum x).tt = t.tt - x := by
  simp only [Time.subNum, Timescale.ttJd, normalizeJd, Time.tt, pyDivmod, pyFloorDiv, pyMod]
  ring

theorem C10_add_delta (t : Time K) (d : TimeDelta) : (t.addDelta d).tt = t.tt + d.inDays := by
  simp only [Time.addDelta, Timescale.ttJd, normalizeJd, Time.tt, TimeDelta.inDays, dayS]
  ring

theorem C10_sub_delta (t : Time K) (d : TimeDelta) : (t.subDelta d).tt = t.tt - d.inDays := by
  simp only [Time.subDelta, Timescale.ttJd, normalizeJd, Time.tt, TimeDelta.inDays, dayS]
  ring

/-- C10 (difference).  `t2 - t1` is the number of days between the instants. -/
theorem C10_diff (t t' : Time K) : t.diff t' = t.tt - t'.tt := by
  simp only [Time.diff, Time.tt]; ring

/-- C10 (equality).  `==` holds exactly between equal instants. -/
theorem C10_eq (t t' : Time K) : t.eq t' = true ↔ t.tt = t'.tt := by
  simp only [Time.eq, decide_eq_true_eq, C10_diff, sub_eq_zero]

/-- C10 (order).  `<` holds exactly from earlier to later instants, i.e. when the difference is
negative. -/
theorem C10_lt (t t' : Time K) :
    (t.lt t' = true ↔ t.tt < t'.tt) ∧ (t.lt t' = true ↔ t.diff t' < 0) := by
  have e : (t.ttFraction - t'.ttFraction) + (t.whole - t'.whole) = t.tt - t'.tt := by
    simp only [Time.tt]; ring
  simp only [Time.lt, decide_eq_true_eq, e, C10_diff, sub_neg, and_self]

/-- C10 (round trips).  Adding then subtracting a number or a timedelta, in either order, gives an
equal time; adding `t2 - t1` to `t1` gives a time equal to `t2`. -/
theorem C10_roundtrip (t t' : Time K) (x : K) (d : TimeDelta) :
    ((t.addNum x).subNum x).eq t = true ∧ ((t.subNum x).addNum x).eq t = true ∧
    ((t.addDelta d).subDelta d).eq t = true ∧ ((t.subDelta d).addDelta d).eq t = true ∧
    (t.addNum (t'.diff t)).eq t' = true := by
  simp only [C10_eq, C10_add_num, C10_sub_num, C10_add_delta, C10_sub_delta, C10_diff]
  refine ⟨?_, ?_, ?_, ?_, ?_⟩ <;> ring

/-- C10 (coherence).  `==` is an equivalence, exactly one of `<`, `==`, `>` holds, `<` is transitive,
and `==` times hash alike under any hash function on numbers. -/
theorem C10_order_laws (a b c : Time K) {H : Type*} (hashNum : K → H) :
    a.eq a = true ∧ a.eq b = b.eq a ∧ (a.eq b = true → b.eq c = true → a.eq c = true) ∧
    (a.lt b = true → b.lt c = true → a.lt c = true) ∧
    ((a.lt b = true ∧ a.eq b = false ∧ b.lt a = false) ∨
     (a.lt b = false ∧ a.eq b = true ∧ b.lt a = false) ∨
     (a.lt b = false ∧ a.eq b = false ∧ b.lt a = true)) ∧
    (a.eq b = true → a.hash hashNum = b.hash hashNum) := by
  have hE : ∀ s t : Time K, s.eq t = decide (s.tt = t.tt) := fun s t => by
    by_cases h : s.tt = t.tt
    · simp only [h, decide_true]; exact (C10_eq s t).2 h
    · simp only [h, decide_false]; exact Bool.eq_false_iff.2 fun h' => h ((C10_eq s t).1 h')
  have hL : ∀ s t : Time K, s.lt t = decide (s.tt < t.tt) := fun s t => by
    by_cases h : s.tt < t.tt
    · simp only [h, decide_true]; exact (C10_lt s t).1.2 h
    · simp only [h, decide_false]; exact Bool.eq_false_iff.2 fun h' => h ((C10_lt s t).1.1 h')
  simp only [hE, hL, decide_eq_true_eq, decide_eq_false_iff_not, Time.hash]
  refine ⟨trivial, decide_eq_decide.2 eq_comm, Eq.trans, lt_trans, ?_, fun h => by rw [h]⟩
  rcases lt_trichotomy a.tt b.tt with h | h | h
  · exact Or.inl ⟨h, h.ne, h.le.not_gt⟩
  · exact Or.inr (Or.inl ⟨h.not_lt, h, h.not_gt⟩)
  · exact Or.inr (Or.inr ⟨h.le.not_gt, h.ne', h⟩)

/-- The TAI a time stores, if any, is its TT less 32.184 s. -/
def Time.TaiConsistent (t : Time K) : Prop := t.taiFraction = t.ttFraction - ttMinusTai

/-- C10 (UTC clock).  The stored TAI always agrees with TT for times built by `utc`, `tt`, `tai`
and the like, and adding `x` days then moves the TAI instant — hence the UTC clock, by C05–C07 —
by exactly `86400 x` seconds. -/
theorem C10_add_moves_tai (t : Time K) (h : t.TaiConsistent) (x : K) :
    (t.addNum x).taiInstant = t.taiInstant + 86400 * x ∧ (t.addNum x).Coherent := by
  refine ⟨?_, coherent_of_none _ rfl⟩
  have h2 : (t.addNum x).taiFraction = (t.addNum x).ttFraction - ttMinusTai := rfl
  have := C10_add_num t x
  unfold Time.taiInstant
  unfold Time.TaiConsistent at h
  rw [h, h2]
  simp only [Time.tt] at this
  linear_combination (86400 : K) * this

theorem C10_tai_consistent (ts : Timescale K) (y m : ℤ) (d h mi s jd : K) (f : Option K) :
    (ts.tt y m d h mi s).TaiConsistent ∧ (ts.ttJd jd f).TaiConsistent ∧
    (ts.tai y m d h mi s).TaiConsistent ∧ (ts.taiJd jd f).TaiConsistent ∧
    (∀ t, ts.utc y m d h mi s = some t → t.TaiConsistent) := by
  refine ⟨rfl, rfl, ?_, ?_, ?_⟩
  · simp [Time.TaiConsistent, Timescale.tai, Time.taiFraction]
  · simp [Time.TaiConsistent, Timescale.taiJd, Time.taiFraction]
  · intro t ht
    unfold Timescale.utc at ht
    simp only at ht
    split at ht
    · exact absurd ht (by simp)
    · rw [Option.some.injEq] at ht
      subst ht
      simp [Time.TaiConsistent, Time.taiFraction]

example : ({ ts := exampleTs, whole := 2451545, ttFraction := 1/3 } : Time ℚ).TaiConsistent := rfl

/-! ### C11: each constructor reads back as itself -/

/-- C11 (TT, TAI).  Julian dates given in TT or TAI, in one or two parts, read back exactly. -/
theorem C11_jd_reads_back (ts : Timescale K) (jd f : K) :
    (ts.ttJd jd none).tt = jd ∧ (ts.ttJd jd (some f)).tt = jd + f ∧
    (ts.taiJd jd none).tai = jd ∧ (ts.taiJd jd (some f)).tai = jd + f := by
  simp only [Timescale.ttJd, Timescale.taiJd, normalizeJd, Time.tt, Time.tai, Time.taiFraction,
    pyDivmod, pyFloorDiv, pyMod, and_true, true_and]
  constructor <;> ring

/-- C11 (TT and TAI differ by 32.184 s).  For a time built in either scale. -/
theorem C11_tt_minus_tai (t : Time K) (h : t.TaiConsistent) :
    (t.tt - t.tai) * 86400 = 32184 / 1000 := by
  unfold Time.TaiConsistent at h
  simp only [Time.tt, Time.tai, h, ttMinusTai, dayS]
  ring

/-- C11 (calendar).  Calendar fields given in TT or TAI read back exactly as a calendar tuple of
that scale. -/
theorem C11_calendar_reads_back (ts : Timescale K) (hc : GoodCutoff ts.cutoff) {y m d D : ℤ}
    (hd : CivilDate ts.cutoff y m d D) {h mi : ℤ} {s : K}
    (hv : 0 ≤ h ∧ h ≤ 23 ∧ 0 ≤ mi ∧ mi ≤ 59 ∧ 0 ≤ s ∧ s < 60) :
    let t := ts.tt y m d h mi s
    let t' := ts.tai y m d h mi s
    calendarTuple t.whole t.ttFraction ts.cutoff = ⟨y, m, d, h, mi, s⟩ ∧
    calendarTuple t'.whole t'.taiFraction ts.cutoff = ⟨y, m, d, h, mi, s⟩ :=
  ⟨C09_calendar_roundtrip ts hc hd hv, C09_calendar_roundtrip ts hc hd hv⟩

/-- C11 (Julian year of a time).  For every time, `t.J` counts Julian years of 365.25 days of TT, and is 2000 at TT 2451545.0. -/
theorem C11_julian_year_of_time (t : Time K) : t.J = 2000 + (t.tt - 2451545) / (36525 / 100) := by
  simp only [Time.J, Time.tt]
  field_simp
  ring

/-- C11 (Julian year).  `ts.J(year).J` is `year`; one Julian year is 365.25 days of TT and year
2000 is TT 2451545. -/
theorem C11_julian_year (ts : Timescale K) (year : K) :
    (ts.julianYear year).J = year ∧
    (ts.julianYear (year + 1)).tt - (ts.julianYear year).tt = 36525 / 100 ∧
    (ts.julianYear 2000).tt = 2451545 := by
  simp only [Timescale.julianYear, Time.J, Time.tt]
  refine ⟨?_, ?_, ?_⟩
  · field_simp; ring
  · ring
  · norm_num

/-- C11 (UT1).  A time built from UT1 reads that UT1 back exactly.  A time with the same TT that
has to compute its UT1 from ∆T gets one that is off by at most `r² |∆T|` days, where `r` bounds the
rate of change of ∆T in days per day. -/
theorem C11_ut1 (ts : Timescale K) (r : K) (hr : 0 ≤ r)
    (hL : ∀ x y, |ts.deltaT x / 86400 - ts.deltaT y / 86400| ≤ r * |x - y|) (jd : K) :
    (ts.ut1Jd jd).ut1 = jd ∧
    ∀ t : Time K, t.ts = ts → t.tt = (ts.ut1Jd jd).tt → t.ut1Fraction? = none →
      |t.ut1 - jd| ≤ r ^ 2 * |ts.deltaT jd / 86400| := by
  refine ⟨by simp [Timescale.ut1Jd, Time.ut1, Time.ut1Fraction], ?_⟩
  intro t ht htt hn
  have h1 : (ts.ut1Jd jd).tt = jd + ts.deltaT (jd + ts.deltaT jd / 86400) / 86400 := by
    simp [Timescale.ut1Jd, Time.tt, dayS]
  have h2 : t.ut1 = t.tt - ts.deltaT t.tt / 86400 := by
    simp only [Time.ut1, Time.ut1Fraction, hn, Time.deltaT, dayS, ht, Time.tt]; ring
  rw [h2, htt, h1]
  set a := ts.deltaT jd / 86400 with ha
  set c := ts.deltaT (jd + a) / 86400 with hc
  have e : jd + c - ts.deltaT (jd + c) / 86400 - jd = c - ts.deltaT (jd + c) / 86400 := by ring
  rw [e, hc]
  refine (hL _ _).trans ?_
  have h3 : |jd + a - (jd + ts.deltaT (jd + a) / 86400)| ≤ r * |a| := by
    have e2 : jd + a - (jd + ts.deltaT (jd + a) / 86400) = a - ts.deltaT (jd + a) / 86400 := by ring
    rw [e2, ha]
    refine (hL _ _).trans ?_
    rw [← ha]
    have e3 : jd - (jd + a) = -a := by ring
    rw [e3, abs_neg]
  calc r * |jd + a - (jd + ts.deltaT (jd + a) / 86400)| ≤ r * (r * |a|) :=
        mul_le_mul_of_nonneg_left h3 hr
    _ = r ^ 2 * |a| := by ring

/-- A ∆T that grows by 1.728 s a day (20 parts per million) satisfies the rate hypothesis. -/
example : ∀ x y : ℚ, |(1728/1000 * x) / 86400 - (1728/1000 * y) / 86400| ≤ (1/50000) * |x - y| := by
  intro x y
  have : (1728/1000 * x) / 86400 - (1728/1000 * y) / 86400 = (1/50000) * (x - y) := by ring
  rw [this, abs_mul]
  norm_num

/-- C11 (TDB Julian date).  A TDB Julian date reads back exactly; TT is what the TDB formula says. -/
theorem C11_tdb_jd (ts : Timescale K) (g : K → K → K) (jd f : K) :
    (ts.tdbJd g jd none).tdb g = jd ∧ (ts.tdbJd g jd (some f)).tdb g = jd + f ∧
    (ts.tdbJd g jd (some f)).tt = jd + f - g jd f / 86400 := by
  simp only [Timescale.tdbJd, normalizeJd, Time.tdb, Time.tdbFraction, Time.tt, pyDivmod,
    pyFloorDiv, pyMod, dayS, true_and]
  constructor <;> ring

/-! ### C14: linspace -/

theorem npLinspace_length (a b : K) (n : ℕ) : (npLinspace a b n).length = n := by
  simp [npLinspace]

theorem npLinspace_get (a b : K) (n i : ℕ) (h : i < n) :
    (npLinspace a b n)[i]? = some (a + i * ((b - a) / ((n : K) - 1))) := by
  simp [npLinspace, h]

/-- C14.  `linspace(t0, t1, n)`, for `n ≥ 2`, has `n` times; the first equals `t0`, the last equals
`t1`, and each is `(t1 - t0)/(n - 1)` days after the one before. -/
theorem C14_linspace (ts : Timescale K) (t0 t1 : Time K) (n : ℕ) (hn : 2 ≤ n) :
    let l := ts.linspace t0 t1 n
    l.length = n ∧
    (∀ t, l[0]? = some t → t.eq t0 = true) ∧ (∀ t, l[n - 1]? = some t → t.eq t1 = true) ∧
    (∀ i t t', l[i]? = some t → l[i + 1]? = some t' →
      t'.diff t = t1.diff t0 / ((n : K) - 1)) := by
  intro l
  have hget : ∀ i, i < n → l[i]? = some
      { ts := ts
        whole := t0.whole + i * ((t1.whole - t0.whole) / ((n : K) - 1))
        ttFraction := t0.ttFraction + i * ((t1.ttFraction - t0.ttFraction) / ((n : K) - 1)) } := by
    intro i hi
    simp only [l, Timescale.linspace, List.getElem?_zipWith, npLinspace_get _ _ _ _ hi]
  have hlen : l.length = n := by
    simp [l, Timescale.linspace, npLinspace_length]
  have hn' : (n : K) - 1 ≠ 0 := by
    have : (2 : K) ≤ n := by exact_mod_cast hn
    linarith
  have hpred : ((n - 1 : ℕ) : K) = (n : K) - 1 := by
    rw [Nat.cast_sub (by omega)]; norm_num
  refine ⟨hlen, ?_, ?_, ?_⟩
  · intro t ht
    rw [hget 0 (by omega), Option.some.injEq] at ht
    subst ht
    simp [C10_eq, Time.tt]
  · intro t ht
    rw [hget (n - 1) (by omega), Option.some.injEq] at ht
    subst ht
    rw [C10_eq]
    simp only [Time.tt, hpred]
    rw [mul_div_cancel₀ _ hn', mul_div_cancel₀ _ hn']
    ring
  · intro i t t' ht ht'
    have hi : i + 1 < n := by
      have := (List.getElem?_eq_some_iff.1 ht').1
      omega
    rw [hget i (by omega), Option.some.injEq] at ht
    rw [hget (i + 1) hi, Option.some.injEq] at ht'
    subst ht ht'
    simp only [Time.diff]
    push_cast
    field_simp
    ring

/-- The times exist: `n ≥ 2` gives a non-empty list whose ends are the two given times. -/
example : (exampleTs.linspace { ts := exampleTs, whole := 2451545, ttFraction := 0 }
    { ts := exampleTs, whole := 2451546, ttFraction := 1/2 } 4).length = 4 :=
  (C14_linspace _ _ _ 4 (by norm_num)).1

end Skyfield
