import Verif.Model.Tdb
import Verif.Props.TimeArith
import Mathlib.Analysis.SpecialFunctions.Trigonometric.Bounds
import Mathlib.Analysis.SpecialFunctions.Trigonometric.Deriv
import Mathlib.Analysis.Real.Pi.Bounds

/-
C12 (and the TDB part of C11): size and rate of TDB − TT.
-/
namespace Skyfield
open Real

/-- Adding seven bounded terms. -/
theorem tdbSeries_abs_le (t : ℝ) : |tdbSeries t| ≤ 0.001705 + 0.00001 * |t| := by
  have h : ∀ (a x : ℝ), 0 ≤ a → |a * sin x| ≤ a := by
    intro a x ha
    rw [abs_mul, abs_of_nonneg ha]
    calc a * |sin x| ≤ a * 1 := mul_le_mul_of_nonneg_left (abs_sin_le_one x) ha
      _ = a := mul_one a
  have h7 : |0.000010 * t * sin (628.3076 * t + 4.2490)| ≤ 0.00001 * |t| := by
    rw [abs_mul, abs_mul, abs_of_nonneg (by norm_num : (0:ℝ) ≤ 0.000010)]
    calc 0.000010 * |t| * |sin (628.3076 * t + 4.2490)| ≤ 0.000010 * |t| * 1 :=
          mul_le_mul_of_nonneg_left (abs_sin_le_one _) (by positivity)
      _ = 0.00001 * |t| := by norm_num
  have h1 := h 0.001657 (628.3076 * t + 6.2401) (by norm_num)
  have h2 := h 0.000022 (575.3385 * t + 4.2970) (by norm_num)
  have h3 := h 0.000014 (1256.6152 * t + 6.1969) (by norm_num)
  have h4 := h 0.000005 (606.9777 * t + 4.0212) (by norm_num)
  have h5 := h 0.000005 (52.9691 * t + 0.4444) (by norm_num)
  have h6 := h 0.000002 (21.3299 * t + 5.5431) (by norm_num)
  rw [abs_le] at *
  unfold tdbSeries
  constructor
  · have := h1.1; have := h2.1; have := h3.1; have := h4.1; have := h5.1; have := h6.1
    have := h7.1
    norm_num at *
    linarith
  · have := h1.2; have := h2.2; have := h3.2; have := h4.2; have := h5.2; have := h6.2
    have := h7.2
    norm_num at *
    linarith

/-- C12.  TDB and TT never differ by 2 ms or more within 29 Julian centuries of J2000. -/
theorem C12_within_2ms (jd fraction : ℝ) (h : |jd + fraction - 2451545| ≤ 29 * 36525) :
    |tdbMinusTt jd fraction| < 0.002 := by
  have ht : |tdbCenturies jd fraction| ≤ 29 := by
    unfold tdbCenturies
    rw [abs_div, abs_of_pos (by norm_num : (0:ℝ) < 36525), div_le_iff₀ (by norm_num)]
    have : jd - 2451545 + fraction = jd + fraction - 2451545 := by ring
    rw [this]; exact h
  refine lt_of_le_of_lt (tdbSeries_abs_le _) ?_
  norm_num
  linarith

/-- The span includes, e.g., everything from year -900 to 4900. -/
example : |(2451545 + 1059000 : ℝ) + 1/2 - 2451545| ≤ 29 * 36525 := by
  rw [abs_le]; constructor <;> norm_num

/-- Finding (C12): the documented blanket claim "the two time scales never diverge by more than 2ms"
is false of the formula: there are dates (arbitrarily late) where they do. -/
theorem C12_not_for_all_dates (bound : ℝ) : ∃ jd > bound, 0.002 < tdbMinusTt jd 0 := by
  obtain ⟨k, hk⟩ := exists_nat_gt (max (bound - 2451545) 40000000)
  have hk1 : bound - 2451545 < k := lt_of_le_of_lt (le_max_left _ _) hk
  have hk2 : (40000000 : ℝ) < k := lt_of_le_of_lt (le_max_right _ _) hk
  have hpi := Real.pi_gt_three
  set t : ℝ := (π / 2 + k * (2 * π) - 4.2490) / 628.3076 with ht
  have harg : 628.3076 * t + 4.2490 = π / 2 + k * (2 * π) := by
    rw [ht]; field_simp; ring
  have hsin : sin (628.3076 * t + 4.2490) = 1 := by
    rw [harg, Real.sin_add_nat_mul_two_pi, Real.sin_pi_div_two]
  have htk : (k : ℝ) / 36525 < t := by
    rw [ht, div_lt_div_iff₀ (by norm_num) (by norm_num)]
    nlinarith
  have hk3 : (1000 : ℝ) < (k : ℝ) / 36525 := by rw [lt_div_iff₀ (by norm_num)]; linarith
  refine ⟨2451545 + 36525 * t, ?_, ?_⟩
  · have : (k : ℝ) < 36525 * t := by
      rw [div_lt_iff₀ (by norm_num)] at htk; linarith
    linarith
  · have hc : tdbCenturies (2451545 + 36525 * t) 0 = t := by unfold tdbCenturies; field_simp; ring
    unfold tdbMinusTt
    rw [hc]
    unfold tdbSeries
    rw [hsin]
    have h1 := neg_one_le_sin (628.3076 * t + 6.2401)
    have h2 := neg_one_le_sin (575.3385 * t + 4.2970)
    have h3 := neg_one_le_sin (1256.6152 * t + 6.1969)
    have h4 := neg_one_le_sin (606.9777 * t + 4.0212)
    have h5 := neg_one_le_sin (52.9691 * t + 0.4444)
    have h6 := neg_one_le_sin (21.3299 * t + 5.5431)
    norm_num at *
    linarith

theorem abs_sin_sub_sin_le (a b : ℝ) : |sin a - sin b| ≤ |a - b| := by
  rw [sin_sub_sin, abs_mul, abs_mul, abs_of_pos (by norm_num : (0:ℝ) < 2)]
  have h1 : |sin ((a - b) / 2)| ≤ |(a - b) / 2| := abs_sin_le_abs
  have h2 := abs_cos_le_one ((a + b) / 2)
  have h3 : |(a - b) / 2| = |a - b| / 2 := by rw [abs_div, abs_of_pos (by norm_num : (0:ℝ) < 2)]
  have h4 : 0 ≤ |sin ((a - b) / 2)| := abs_nonneg _
  nlinarith [abs_nonneg (cos ((a + b) / 2))]

/-- How fast the series can change, per Julian century, within 30 centuries of J2000. -/
theorem tdbSeries_lipschitz (t u : ℝ) (ht : |t| ≤ 30) :
    |tdbSeries t - tdbSeries u| ≤ 1.28 * |t - u| := by
  have h : ∀ (a w p : ℝ), 0 ≤ a → 0 ≤ w →
      |a * sin (w * t + p) - a * sin (w * u + p)| ≤ a * w * |t - u| := by
    intro a w p ha hw
    rw [← mul_sub, abs_mul, abs_of_nonneg ha, mul_assoc]
    refine mul_le_mul_of_nonneg_left ?_ ha
    refine (abs_sin_sub_sin_le _ _).trans ?_
    have : w * t + p - (w * u + p) = w * (t - u) := by ring
    rw [this, abs_mul, abs_of_nonneg hw]
  have h7 : |0.000010 * t * sin (628.3076 * t + 4.2490) - 0.000010 * u * sin (628.3076 * u + 4.2490)|
      ≤ 0.00001 * (30 * 628.3076 + 1) * |t - u| := by
    have e : 0.000010 * t * sin (628.3076 * t + 4.2490) - 0.000010 * u * sin (628.3076 * u + 4.2490)
        = 0.000010 * (t * (sin (628.3076 * t + 4.2490) - sin (628.3076 * u + 4.2490))
          + (t - u) * sin (628.3076 * u + 4.2490)) := by ring
    rw [e, abs_mul, abs_of_nonneg (by norm_num : (0:ℝ) ≤ 0.000010), mul_assoc]
    norm_num only
    refine mul_le_mul_of_nonneg_left ?_ (by norm_num)
    refine (abs_add_le _ _).trans ?_
    rw [abs_mul, abs_mul]
    have h1 : |sin (628.3076 * t + 4.2490) - sin (628.3076 * u + 4.2490)| ≤ 628.3076 * |t - u| := by
      refine (abs_sin_sub_sin_le _ _).trans ?_
      have : 628.3076 * t + 4.2490 - (628.3076 * u + 4.2490) = 628.3076 * (t - u) := by ring
      rw [this, abs_mul, abs_of_nonneg (by norm_num : (0:ℝ) ≤ 628.3076)]
    have h2 := abs_sin_le_one (628.3076 * u + 4.2490)
    have h3 : 0 ≤ |t - u| := abs_nonneg _
    have h4 : |t| * |sin (628.3076 * t + 4.2490) - sin (628.3076 * u + 4.2490)| ≤
        30 * (628.3076 * |t - u|) :=
      mul_le_mul ht h1 (abs_nonneg _) (by norm_num)
    have h5 : |t - u| * |sin (628.3076 * u + 4.2490)| ≤ |t - u| * 1 :=
      mul_le_mul_of_nonneg_left h2 h3
    norm_num at *
    linarith
  have h1 := h 0.001657 628.3076 6.2401 (by norm_num) (by norm_num)
  have h2 := h 0.000022 575.3385 4.2970 (by norm_num) (by norm_num)
  have h3 := h 0.000014 1256.6152 6.1969 (by norm_num) (by norm_num)
  have h4 := h 0.000005 606.9777 4.0212 (by norm_num) (by norm_num)
  have h5 := h 0.000005 52.9691 0.4444 (by norm_num) (by norm_num)
  have h6 := h 0.000002 21.3299 5.5431 (by norm_num) (by norm_num)
  have hd : 0 ≤ |t - u| := abs_nonneg _
  unfold tdbSeries
  generalize |t - u| = δ at *
  rw [abs_le] at *
  norm_num at *
  constructor
  · linarith [h1.1, h2.1, h3.1, h4.1, h5.1, h6.1, h7.1]
  · linarith [h1.2, h2.2, h3.2, h4.2, h5.2, h6.2, h7.2]

/-- C11 (TDB calendar).  A time built from TDB calendar fields, within 29 centuries of J2000, reads
back a TDB within a picosecond of what was given (`given` is the Julian date the fields denote). -/
theorem C11_tdb_calendar (ts : Timescale ℝ) (y m : ℤ) (d h mi s given : ℝ)
    (hg : given = (ts.jdOf y m d h mi s).1 + (ts.jdOf y m d h mi s).2)
    (hspan : |given - 2451545| ≤ 29 * 36525) :
    |(ts.tdb tdbMinusTt y m d h mi s).tdb tdbMinusTt - given| * 86400 ≤ 1e-12 := by
  have e : (ts.tdb tdbMinusTt y m d h mi s).tdb tdbMinusTt - given =
      (tdbMinusTt given (-tdbMinusTt given 0 / 86400) - tdbMinusTt given 0) / 86400 := by
    simp only [Timescale.tdb, Time.tdb, Time.tdbFraction, dayS, ← hg]; ring
  rw [e, abs_div, abs_of_pos (by norm_num : (0:ℝ) < 86400), div_mul_cancel₀ _ (by norm_num),
    abs_sub_comm]
  have h2 := C12_within_2ms given 0 (by rwa [add_zero])
  have hc : |tdbCenturies given 0| ≤ 30 := by
    unfold tdbCenturies
    rw [add_zero, abs_div, abs_of_pos (by norm_num : (0:ℝ) < 36525), div_le_iff₀ (by norm_num)]
    linarith
  have hL := tdbSeries_lipschitz (tdbCenturies given 0)
    (tdbCenturies given (-tdbMinusTt given 0 / 86400)) hc
  have hx : tdbCenturies given 0 - tdbCenturies given (-tdbMinusTt given 0 / 86400) =
      tdbMinusTt given 0 / (86400 * 36525) := by unfold tdbCenturies; ring
  rw [hx, abs_div, abs_of_pos (by norm_num : (0:ℝ) < 86400 * 36525)] at hL
  refine hL.trans ?_
  have h3 : |tdbMinusTt given 0| / (86400 * 36525) ≤ 0.002 / (86400 * 36525) :=
    div_le_div_of_nonneg_right h2.le (by norm_num)
  calc 1.28 * (|tdbMinusTt given 0| / (86400 * 36525)) ≤ 1.28 * (0.002 / (86400 * 36525)) :=
        mul_le_mul_of_nonneg_left h3 (by norm_num)
    _ ≤ 1e-12 := by norm_num

/-- 2024 January 1, 0h is in the span. -/
example : |((2460310.5 : ℝ)) - 2451545| ≤ 29 * 36525 := by
  rw [abs_le]; constructor <;> norm_num

/-- C11 (TT from TDB agrees with TDB from TT).  Converting TDB to TT (which evaluates the formula
at TDB) and back to TDB (which evaluates it at TT) agrees within a picosecond. -/
theorem C11_tdb_jd_consistent (ts : Timescale ℝ) (jd f : ℝ)
    (hspan : |jd + f - 2451545| ≤ 29 * 36525) (t : Time ℝ)
    (hw : t.whole = (ts.tdbJd tdbMinusTt jd (some f)).whole)
    (hf : t.ttFraction = (ts.tdbJd tdbMinusTt jd (some f)).ttFraction)
    (hn : t.tdbFraction? = none) :
    |t.tdb tdbMinusTt - (jd + f)| * 86400 ≤ 1e-12 := by
  simp only [Timescale.tdbJd, normalizeJd, dayS] at hw hf
  have e : t.tdb tdbMinusTt - (jd + f) =
      (tdbMinusTt jd (f - tdbMinusTt jd f / 86400) - tdbMinusTt jd f) / 86400 := by
    simp only [Time.tdb, Time.tdbFraction, hn, hw, hf, dayS]; ring
  rw [e, abs_div, abs_of_pos (by norm_num : (0:ℝ) < 86400), div_mul_cancel₀ _ (by norm_num),
    abs_sub_comm]
  have h2 := C12_within_2ms jd f hspan
  have hc : |tdbCenturies jd f| ≤ 30 := by
    unfold tdbCenturies
    have : jd - 2451545 + f = jd + f - 2451545 := by ring
    rw [this, abs_div, abs_of_pos (by norm_num : (0:ℝ) < 36525), div_le_iff₀ (by norm_num)]
    linarith
  have hL := tdbSeries_lipschitz (tdbCenturies jd f)
    (tdbCenturies jd (f - tdbMinusTt jd f / 86400)) hc
  have hx : tdbCenturies jd f - tdbCenturies jd (f - tdbMinusTt jd f / 86400) =
      tdbMinusTt jd f / (86400 * 36525) := by unfold tdbCenturies; ring
  rw [hx, abs_div, abs_of_pos (by norm_num : (0:ℝ) < 86400 * 36525)] at hL
  refine hL.trans ?_
  have h3 : |tdbMinusTt jd f| / (86400 * 36525) ≤ 0.002 / (86400 * 36525) :=
    div_le_div_of_nonneg_right h2.le (by norm_num)
  calc 1.28 * (|tdbMinusTt jd f| / (86400 * 36525)) ≤ 1.28 * (0.002 / (86400 * 36525)) :=
        mul_le_mul_of_nonneg_left h3 (by norm_num)
    _ ≤ 1e-12 := by norm_num

end Skyfield
