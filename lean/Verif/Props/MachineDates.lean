import Verif.Model.MachineDates
import Verif.Props.Calendar
import Verif.Spec.Floats
import Verif.Lemmas.FloatTime
import Mathlib.Tactic.Linarith
import Mathlib.Tactic.NormNum

/-
C97: dates in machine numbers.
-/
namespace Skyfield
open Spec

/-- Specification: a number type that holds every integer below `B` in size and, on those, computes exactly.  `int64` has
`B = 2^63`, `float64` has `B = 2^53`, and so on; nothing is said about larger results. -/
def ExactBelow (B : ℤ) (ov : ℤ → ℤ) : Prop := ∀ x, |x| < B → ov x = x

theorem C97_signed (n : ℕ) (hn : 0 < n) : ExactBelow (2 ^ (n - 1)) (wrapSigned n) := by
  intro x hx
  obtain ⟨k, rfl⟩ : ∃ k, n = k + 1 := ⟨n - 1, by omega⟩
  rw [abs_lt] at hx
  unfold wrapSigned
  simp only [Nat.add_sub_cancel] at *
  have : (2 : ℤ) ^ (k + 1) = 2 * 2 ^ k := by rw [pow_succ]; ring
  rw [this]
  generalize (2 : ℤ) ^ k = P at *
  rw [Int.emod_eq_of_lt (by omega) (by omega)]; omega

private theorem mask_cases (c : Option ℤ) (J : ℤ) : cutoffMask c J = 0 ∨ cutoffMask c J = 1 := by
  unfold cutoffMask
  cases c with
  | none => exact Or.inr rfl
  | some c =>
    by_cases h : J ≥ c
    · right; simp only [if_pos h]
    · left; simp only [if_neg h]

/-- C97 (dates to day numbers).  In any number type — the type of the months may be another than that of years and
days — the day number is the exact one as long as the arguments keep away from the limits of the types. -/
theorem C97_julian_day {ovY ovM : ℤ → ℤ} {B C : ℤ} (hY : ExactBelow B ovY) (hM : ExactBelow C ovM)
    (year month day : ℤ) (cutoff : Option ℤ)
    (hB : 1461 * (|year| + |month| + 4730) + |day| + 2000 < B) (hC : |month| + 1700 < C) :
    julianDayIn ovY ovM year month day cutoff = julianDay year month day cutoff := by
  have hy := neg_abs_le year
  have hy' := le_abs_self year
  have hm := neg_abs_le month
  have hm' := le_abs_self month
  have hd := neg_abs_le day
  have hd' := le_abs_self day
  generalize |year| = Y at *
  generalize |month| = M at *
  generalize |day| = D at *
  have eY : ∀ x, -B < x → x < B → ovY x = x := fun x h1 h2 => hY x (abs_lt.2 ⟨h1, h2⟩)
  have eM : ∀ x, -C < x → x < C → ovM x = x := fun x h1 h2 => hM x (abs_lt.2 ⟨h1, h2⟩)
  unfold julianDayIn julianDay
  simp only
  rw [eM (month - 1) (by omega) (by omega)]
  have q1 := Int.mul_ediv_add_emod (month - 1) 12
  have q2 := Int.emod_nonneg (month - 1) (by decide : (12 : ℤ) ≠ 0)
  have q3 := Int.emod_lt_of_pos (month - 1) (by decide : (0 : ℤ) < 12)
  generalize (month - 1) / 12 = y at *
  generalize (month - 1) % 12 = r at *
  rw [eY (year + y) (by omega) (by omega), eM (r + 1) (by omega) (by omega)]
  obtain ⟨j, hj, j0, j1⟩ : ∃ j : ℤ, (if r + 1 ≤ 2 then (1 : ℤ) else 0) = j ∧ 0 ≤ j ∧ j ≤ 1 := by
    refine ⟨_, rfl, ?_, ?_⟩ <;> split <;> omega
  rw [hj, eY (year + y + 4716) (by omega) (by omega), eY (year + y + 4716 - j) (by omega) (by omega),
    eM (r + 1 + 9) (by omega) (by omega)]
  obtain ⟨g, hg⟩ : ∃ g, g = year + y + 4716 - j := ⟨_, rfl⟩
  obtain ⟨f, hf⟩ : ∃ f, f = (r + 1 + 9) % 12 := ⟨_, rfl⟩
  rw [← hg, ← hf]
  have f0 : 0 ≤ f := by omega
  have f1 : f ≤ 11 := by omega
  rw [eY (1461 * g) (by omega) (by omega), eM (153 * f) (by omega) (by omega), eM (153 * f + 2) (by omega) (by omega)]
  obtain ⟨q, hq⟩ : ∃ q, q = 1461 * g / 4 := ⟨_, rfl⟩
  obtain ⟨p, hp⟩ : ∃ p, p = (153 * f + 2) / 5 := ⟨_, rfl⟩
  rw [← hq, ← hp]
  have p0 : 0 ≤ p := by omega
  have p1 : p ≤ 340 := by omega
  have b1 : 4 * q ≤ 1461 * g := by omega
  have b2 : 1461 * g < 4 * q + 4 := by omega
  rw [eY (q + day) (by omega) (by omega), eY (q + day - 1402) (by omega) (by omega),
    eY (q + day - 1402 + p) (by omega) (by omega), eY (g + 184) (by omega) (by omega)]
  obtain ⟨u, hu⟩ : ∃ u, u = (g + 184) / 100 := ⟨_, rfl⟩
  rw [← hu, eY (u * 3) (by omega) (by omega)]
  obtain ⟨v, hv⟩ : ∃ v, v = u * 3 / 4 := ⟨_, rfl⟩
  rw [← hv, eY (38 - v) (by omega) (by omega)]
  rcases mask_cases cutoff (q + day - 1402 + p) with e | e <;> rw [e]
  · rw [mul_zero, eY 0 (by omega) (by omega), eY _ (by omega) (by omega)]
  · rw [mul_one, eY (38 - v) (by omega) (by omega), eY _ (by omega) (by omega)]

/-- C97 (day numbers to dates). -/
theorem C97_calendar_date {ov : ℤ → ℤ} {B : ℤ} (h : ExactBelow B ov) (jd : ℤ) (cutoff : Option ℤ)
    (hB : 5 * (|jd| + 100000) < B) :
    computeCalendarDateIn ov jd cutoff = computeCalendarDate jd cutoff := by
  have hj := neg_abs_le jd
  have hj' := le_abs_self jd
  have hJ := abs_nonneg jd
  generalize |jd| = N at *
  have e : ∀ x, -B < x → x < B → ov x = x := fun x h1 h2 => h x (abs_lt.2 ⟨h1, h2⟩)
  unfold computeCalendarDateIn computeCalendarDate
  simp only
  rw [e (jd + 1401) (by omega) (by omega), e (4 * jd) (by omega) (by omega), e (4 * jd + 274277) (by omega) (by omega)]
  obtain ⟨u, hu⟩ : ∃ u, u = (4 * jd + 274277) / 146097 := ⟨_, rfl⟩
  have u1 : 146097 * u ≤ 4 * jd + 274277 := by omega
  have u2 : 4 * jd + 274277 < 146097 * u + 146097 := by omega
  rw [← hu, e (u * 3) (by omega) (by omega)]
  obtain ⟨v, hv⟩ : ∃ v, v = u * 3 / 4 := ⟨_, rfl⟩
  have v1 : 4 * v ≤ u * 3 := by omega
  have v2 : u * 3 < 4 * v + 4 := by omega
  rw [← hv, e (v - 38) (by omega) (by omega)]
  obtain ⟨w, hw, w1, w2⟩ : ∃ w, w = cutoffMask cutoff jd * (v - 38) ∧ -(N + 1000) ≤ 16 * w ∧ 16 * w ≤ N + 1000 := by
    refine ⟨_, rfl, ?_, ?_⟩ <;> rcases mask_cases cutoff jd with m | m <;> rw [m] <;> omega
  rw [← hw, e w (by omega) (by omega)]
  obtain ⟨f, hf⟩ : ∃ f, f = jd + 1401 + w := ⟨_, rfl⟩
  rw [← hf, e f (by omega) (by omega), e (4 * f) (by omega) (by omega), e (4 * f + 3) (by omega) (by omega)]
  obtain ⟨g, hg⟩ : ∃ g, g = (4 * f + 3) % 1461 / 4 := ⟨_, rfl⟩
  have g0 : 0 ≤ g := by omega
  have g1 : g ≤ 365 := by omega
  rw [← hg, e (5 * g) (by omega) (by omega), e (5 * g + 2) (by omega) (by omega)]
  obtain ⟨k, hk⟩ : ∃ k, k = 5 * g + 2 := ⟨_, rfl⟩
  rw [← hk]
  have k1 : 0 ≤ k % 153 / 5 ∧ k % 153 / 5 ≤ 30 := by omega
  have k2 : 0 ≤ k / 153 ∧ k / 153 ≤ 11 := by omega
  generalize k % 153 / 5 = d at *
  generalize k / 153 = c at *
  have c1 : 0 ≤ (c + 2) % 12 ∧ (c + 2) % 12 ≤ 11 := by omega
  rw [e (d + 1) (by omega) (by omega), e (c + 2) (by omega) (by omega)]
  generalize (c + 2) % 12 = m at *
  rw [e (m + 1) (by omega) (by omega), e (12 + 2 - (m + 1)) (by omega) (by omega)]
  obtain ⟨x, hx⟩ : ∃ x, x = (4 * f + 3) / 1461 := ⟨_, rfl⟩
  have x1 : 1461 * x ≤ 4 * f + 3 := by omega
  have x2 : 4 * f + 3 < 1461 * x + 1461 := by omega
  have z : 0 ≤ (12 + 2 - (m + 1)) / 12 ∧ (12 + 2 - (m + 1)) / 12 ≤ 1 := by omega
  rw [← hx, e (x - 4716) (by omega) (by omega)]
  generalize (12 + 2 - (m + 1)) / 12 = y at *
  rw [e (x - 4716 + y) (by omega) (by omega)]

/-- C97 (`int64`: arrays made from lists of Python integers).  Years within a thousand million million of zero. -/
theorem C97_int64 (year month day : ℤ) (cutoff : Option ℤ) (hy : |year| ≤ 10 ^ 15) (hm : |month| ≤ 10 ^ 15)
    (hd : |day| ≤ 10 ^ 18) :
    julianDayIn (wrapSigned 64) (wrapSigned 64) year month day cutoff = julianDay year month day cutoff := by
  refine C97_julian_day (C97_signed 64 (by decide)) (C97_signed 64 (by decide)) _ _ _ _ ?_ ?_ <;>
    norm_num at * <;> omega

/-- C97 (`int32`).  Years within a million of zero. -/
theorem C97_int32 (year month day : ℤ) (cutoff : Option ℤ) (hy : |year| ≤ 10 ^ 6) (hm : |month| ≤ 10 ^ 5)
    (hd : |day| ≤ 10 ^ 8) :
    julianDayIn (wrapSigned 32) (wrapSigned 32) year month day cutoff = julianDay year month day cutoff := by
  refine C97_julian_day (C97_signed 32 (by decide)) (C97_signed 32 (by decide)) _ _ _ _ ?_ ?_ <;>
    norm_num at * <;> omega

/-- Whole numbers as `float64`: an exact whole result is rounded to a nearest float. -/
def wholeFloat (fl : ℚ → ℚ) (x : ℤ) : ℤ := ⌊fl x⌋

theorem C97_float {fl : ℚ → ℚ} (h : RoundsToNearest fl) : ExactBelow (2 ^ 53) (wholeFloat fl) := by
  intro x hx
  unfold wholeFloat
  rw [fl_int h (by norm_num at *; omega), Int.floor_intCast]

/-- C97 (`float64`: plain numbers).  Years within a million million of zero. -/
theorem C97_float64 {fl : ℚ → ℚ} (h : RoundsToNearest fl) (year month day : ℤ) (cutoff : Option ℤ)
    (hy : |year| ≤ 10 ^ 12) (hm : |month| ≤ 10 ^ 12) (hd : |day| ≤ 10 ^ 15) :
    julianDayIn (wholeFloat fl) (wholeFloat fl) year month day cutoff = julianDay year month day cutoff := by
  refine C97_julian_day (C97_float h) (C97_float h) _ _ _ _ ?_ ?_ <;> norm_num at * <;> omega

private theorem julianDay_size (y m d : ℤ) (o : Option ℤ) :
    |julianDay y m d o| ≤ 1461 * (|y| + |m| + 4730) + |d| + 2000 := by
  have hy := neg_abs_le y
  have hy' := le_abs_self y
  have hm := neg_abs_le m
  have hm' := le_abs_self m
  have hd := neg_abs_le d
  have hd' := le_abs_self d
  generalize |y| = Y at *
  generalize |m| = M at *
  generalize |d| = D at *
  rw [abs_le]
  unfold julianDay
  simp only
  have q1 := Int.mul_ediv_add_emod (m - 1) 12
  have q2 := Int.emod_nonneg (m - 1) (by decide : (12 : ℤ) ≠ 0)
  have q3 := Int.emod_lt_of_pos (m - 1) (by decide : (0 : ℤ) < 12)
  generalize (m - 1) / 12 = t at *
  generalize (m - 1) % 12 = r at *
  obtain ⟨j, hj, j0, j1⟩ : ∃ j : ℤ, (if r + 1 ≤ 2 then (1 : ℤ) else 0) = j ∧ 0 ≤ j ∧ j ≤ 1 := by
    refine ⟨_, rfl, ?_, ?_⟩ <;> split <;> omega
  rw [hj]
  have p1 : 0 ≤ (153 * ((r + 1 + 9) % 12) + 2) / 5 ∧ (153 * ((r + 1 + 9) % 12) + 2) / 5 ≤ 340 := by omega
  generalize (153 * ((r + 1 + 9) % 12) + 2) / 5 = p at *
  obtain ⟨g, hg⟩ : ∃ g, g = y + t + 4716 - j := ⟨_, rfl⟩
  rw [← hg]
  obtain ⟨q, hq⟩ : ∃ q, q = 1461 * g / 4 := ⟨_, rfl⟩
  obtain ⟨v, hv⟩ : ∃ v, v = (g + 184) / 100 * 3 / 4 := ⟨_, rfl⟩
  rw [← hq, ← hv]
  rcases mask_cases o (q + d - 1402 + p) with e | e <;> rw [e] <;> constructor <;> omega

private theorem civil_fields {o : Option ℤ} {y m d D : ℤ} (h : CivilDate o y m d D) : |m| ≤ 12 ∧ |d| ≤ 31 := by
  have key : ∀ leap, ValidDate leap y m d → |m| ≤ 12 ∧ |d| ≤ 31 := by
    intro leap hv
    obtain ⟨h1, h2, h3, h4⟩ := hv
    have : monthLength leap y m ≤ 31 := by
      unfold monthLength; split <;> (try split) <;> omega
    rw [abs_le, abs_le]
    omega
  cases o with
  | none => exact key _ h.1
  | some c =>
    rcases h with h | h
    · exact key _ h.2.1
    · exact key _ h.2.1

/-- C97 (round trip in machine numbers).  Every existing date of the calendar in force, with a year within a hundred
million million of zero, comes back from its `int64` day number; with years within 100,000 also from its `int32` one. -/
theorem C97_roundtrip (cutoff : Option ℤ) (hc : GoodCutoff cutoff) {y m d D : ℤ} (hd : CivilDate cutoff y m d D) :
    (|y| ≤ 10 ^ 14 →
      computeCalendarDateIn (wrapSigned 64) (julianDayIn (wrapSigned 64) (wrapSigned 64) y m d cutoff) cutoff = ⟨y, m, d⟩) ∧
    (|y| ≤ 10 ^ 5 →
      computeCalendarDateIn (wrapSigned 32) (julianDayIn (wrapSigned 32) (wrapSigned 32) y m d cutoff) cutoff = ⟨y, m, d⟩) := by
  obtain ⟨f1, f2⟩ := civil_fields hd
  have hJ := C03_civil_date_to_jd _ hc _ _ _ _ hd
  have hS := julianDay_size y m d cutoff
  rw [hJ] at hS
  have hD := (C03_reads_civil_date _ _ _ _ _).2 hd
  constructor <;> intro hy
  · rw [C97_int64 _ _ _ _ (by norm_num at *; omega) (by norm_num at *; omega) (by norm_num at *; omega), hJ,
      C97_calendar_date (C97_signed 64 (by decide)) _ _ (by norm_num at *; omega), hD]
  · rw [C97_int32 _ _ _ _ (by norm_num at *; omega) (by norm_num at *; omega) (by norm_num at *; omega), hJ,
      C97_calendar_date (C97_signed 32 (by decide)) _ _ (by norm_num at *; omega), hD]

theorem wrapSigned_range (n : ℕ) (hn : 0 < n) (x : ℤ) : wrapSigned n x < 2 ^ (n - 1) := by
  obtain ⟨k, rfl⟩ : ∃ k, n = k + 1 := ⟨n - 1, by omega⟩
  unfold wrapSigned
  simp only [Nat.add_sub_cancel]
  have : (2 : ℤ) ^ (k + 1) = 2 * 2 ^ k := by rw [pow_succ]; ring
  rw [this]
  have hp : (0 : ℤ) < 2 ^ k := by positivity
  generalize (2 : ℤ) ^ k = P at *
  have := Int.emod_lt_of_pos (x + P) (show 0 < 2 * P by omega)
  omega

/-- C97 (finding: `int16`).  With years, months and days as `int16` arrays no date from the year −4622 on comes out
right: the day number does not fit, and it wraps around without a warning. -/
theorem C97_int16_wrong (cutoff : Option ℤ) (y m d : ℤ) (hD : 32768 ≤ julianDay y m d cutoff) :
    julianDayIn (wrapSigned 16) (wrapSigned 16) y m d cutoff ≠ julianDay y m d cutoff := by
  intro h
  have : julianDay y m d cutoff < 2 ^ (16 - 1) := by rw [← h]; exact wrapSigned_range 16 (by decide) _
  norm_num at this
  omega

/-- 2000 January 1 in `int16` becomes day −6055, a day in the year −4729. -/
example : julianDayIn (wrapSigned 16) (wrapSigned 16) 2000 1 1 none = -6055 ∧
    julianDay 2000 1 1 none = 2451545 := by decide

/-- C97 (finding: `uint8` months).  With months as a `uint8` array, beside years and days of a wider type, every month
but March and April is read as another day of the year — for every year and day within the range of the wide type. -/
theorem C97_uint8_months {ov : ℤ → ℤ} {B : ℤ} (hY : ExactBelow B ov) (year month day : ℤ)
    (h1 : 1 ≤ month) (h12 : month ≤ 12) (hB : 1461 * (|year| + 4750) + |day| + 2000 < B) :
    julianDayIn ov (wrapUnsigned 8) year month day none = julianDay year month day none ↔ month = 3 ∨ month = 4 := by
  have hy := neg_abs_le year
  have hy' := le_abs_self year
  have hd := neg_abs_le day
  have hd' := le_abs_self day
  generalize |year| = Y at *
  generalize |day| = D at *
  have eY : ∀ x, -B < x → x < B → ov x = x := fun x h1 h2 => hY x (abs_lt.2 ⟨h1, h2⟩)
  have key : ∀ j f : ℤ, (j = 0 ∨ j = 1) → 0 ≤ f → f ≤ 11 →
      let g := ov (ov (ov (year + 0) + 4716) - j)
      let e := ov (ov (ov (1461 * g) / 4 + day) - 1402)
      let J := ov (e + wrapUnsigned 8 (wrapUnsigned 8 (153 * f) + 2) / 5)
      let g' := year + 0 + 4716 - j
      let J' := 1461 * g' / 4 + day - 1402 + (153 * f + 2) / 5
      (ov (J + ov (ov (38 - ov (ov (g + 184) / 100 * 3) / 4) * 1)) = J' + (38 - (g' + 184) / 100 * 3 / 4) * 1 ↔
        f = 0 ∨ f = 1) := by
    intro j f hj f0 f1
    simp only [add_zero, mul_one]
    obtain ⟨w, hw⟩ : ∃ w, w = wrapUnsigned 8 (wrapUnsigned 8 (153 * f) + 2) / 5 := ⟨_, rfl⟩
    have hw' : 0 ≤ w ∧ w ≤ 51 ∧ (w = (153 * f + 2) / 5 ↔ f = 0 ∨ f = 1) := by
      rw [hw]; unfold wrapUnsigned; norm_num; omega
    rw [← hw]
    obtain ⟨w0, w1, w2⟩ := hw'
    have p0 : 0 ≤ (153 * f + 2) / 5 := by omega
    generalize (153 * f + 2) / 5 = p at *
    rw [eY year (by omega) (by omega), eY (year + 4716) (by omega) (by omega), eY (year + 4716 - j) (by omega) (by omega)]
    obtain ⟨g, hg⟩ : ∃ g, g = year + 4716 - j := ⟨_, rfl⟩
    rw [← hg, eY (1461 * g) (by omega) (by omega)]
    obtain ⟨q, hq⟩ : ∃ q, q = 1461 * g / 4 := ⟨_, rfl⟩
    rw [← hq]
    have b1 : 4 * q ≤ 1461 * g := by omega
    have b2 : 1461 * g < 4 * q + 4 := by omega
    rw [eY (q + day) (by omega) (by omega), eY (q + day - 1402) (by omega) (by omega),
      eY (q + day - 1402 + w) (by omega) (by omega), eY (g + 184) (by omega) (by omega)]
    obtain ⟨u, hu⟩ : ∃ u, u = (g + 184) / 100 := ⟨_, rfl⟩
    rw [← hu, eY (u * 3) (by omega) (by omega)]
    obtain ⟨v, hv⟩ : ∃ v, v = u * 3 / 4 := ⟨_, rfl⟩
    rw [← hv, eY (38 - v) (by omega) (by omega), eY (38 - v) (by omega) (by omega), eY _ (by omega) (by omega), ← w2]
    omega
  have m1 : wrapUnsigned 8 (month - 1) = month - 1 := by unfold wrapUnsigned; norm_num; omega
  have m2 : (month - 1) / 12 = 0 := by omega
  have m3 : (month - 1) % 12 = month - 1 := by omega
  have m4 : wrapUnsigned 8 month = month := by unfold wrapUnsigned; norm_num; omega
  have m5 : wrapUnsigned 8 (month + 9) = month + 9 := by unfold wrapUnsigned; norm_num; omega
  have e1 : month - 1 + 1 = month := by omega
  obtain ⟨j, hj⟩ : ∃ j : ℤ, (if month ≤ 2 then (1 : ℤ) else 0) = j := ⟨_, rfl⟩
  unfold julianDayIn julianDay cutoffMask
  simp only [m1, m2, m3, m4, m5, e1, hj]
  have := key j ((month + 9) % 12) (by rw [← hj]; split <;> simp) (by omega) (by omega)
  simp only at this
  rw [this]
  omega

/-- 2000 June 1 with the month as `uint8` becomes April 11. -/
example : julianDayIn (wrapSigned 64) (wrapUnsigned 8) 2000 6 1 none = julianDay 2000 4 11 none := by decide

end Skyfield
