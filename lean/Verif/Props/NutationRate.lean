import Verif.Lemmas.NutationDrift
import Verif.Model.SiderealTime
import Verif.Props.Tdb
import Verif.Props.EarthRotation

/-
C106: with the bundled tables, nutation moves slowly and apparent sidereal time runs steadily.
-/
namespace Skyfield
open Real

/-- Specification: a date within thirty centuries of J2000. -/
def WithinThirtyCenturies (jd : ℝ) : Prop := |jd - 2451545| ≤ 30 * 36525

theorem WithinThirtyCenturies.centuries {jd : ℝ} (h : WithinThirtyCenturies jd) : |(jd - t0) / 36525| ≤ 30 := by
  unfold WithinThirtyCenturies at h
  unfold t0
  rw [abs_div, abs_of_pos (by norm_num : (0 : ℝ) < 36525), div_le_iff₀ (by norm_num)]
  norm_num at h ⊢
  exact h

/-- The bundled tables have as many rows as there are amplitudes. -/
theorem bundledMultipliers_fits : bundledMultipliers.Fits :=
  ⟨by simp [bundledMultipliers, lunisolarRows_length], by simp [bundledMultipliers, planetaryRows_length]⟩

theorem iau2000a_change {terms : ℕ} (h2 : 2 ≤ terms) (h5 : terms ≤ 5) (ls pl : ℤ) {jd jd' : ℝ} (hj : WithinThirtyCenturies jd)
    (hj' : WithinThirtyCenturies jd') {p e p' e' : ℝ} (h : iau2000a bundledMultipliers asec2rad jd terms ls pl = some (p, e))
    (h' : iau2000a bundledMultipliers asec2rad jd' terms ls pl = some (p', e')) :
    |p - p'| ≤ (0.2708 * |jd - jd'| + 1e-15) * 1e7 ∧ |e - e'| ≤ (0.1091 * |jd - jd'| + 1e-15) * 1e7 := by
  unfold iau2000a at h h'
  simp only [fundamentalArguments_eq _ _ h2 h5, Option.map_some, Option.some.injEq] at h h'
  have hd := nutationSums_drift h2 h5 hj.centuries hj'.centuries ls pl
  rw [h, h'] at hd
  have e1 : |(jd - t0) / 36525 - (jd' - t0) / 36525| = |jd - jd'| / 36525 := by
    rw [← abs_of_pos (by norm_num : (0 : ℝ) < 36525), ← abs_div, abs_of_pos (by norm_num : (0 : ℝ) < 36525)]
    congr 1; ring
  rw [e1] at hd
  simp only at hd
  have h0 := abs_nonneg (jd - jd')
  constructor
  · refine hd.1.trans ?_
    norm_num
    linarith
  · refine hd.2.trans ?_
    norm_num
    linarith

/-- **C106.** Between any two dates within thirty centuries of J2000, and whatever number of terms is asked for, the nutation
in longitude changes by no more than 0.2708″ for each day between them, the nutation in obliquity by no more than 0.1091″
(and 1e-15″ for a constant not being exact). -/
theorem C106_nutation_rate {terms : ℕ} (h2 : 2 ≤ terms) (h5 : terms ≤ 5) (ls pl : ℤ) {jd jd' : ℝ}
    (hj : WithinThirtyCenturies jd) (hj' : WithinThirtyCenturies jd') {p e p' e' : ℝ}
    (h : iau2000aRadians bundledMultipliers jd terms ls pl = some (p, e))
    (h' : iau2000aRadians bundledMultipliers jd' terms ls pl = some (p', e')) :
    |p - p'| ≤ (0.2708 * |jd - jd'| + 1e-15) * asec2rad ∧ |e - e'| ≤ (0.1091 * |jd - jd'| + 1e-15) * asec2rad := by
  unfold iau2000aRadians at h h'
  simp only [Option.map_eq_some_iff, Prod.exists, Prod.mk.injEq] at h h'
  obtain ⟨a, b, hab, rfl, rfl⟩ := h
  obtain ⟨a', b', hab', rfl, rfl⟩ := h'
  have hc := iau2000a_change h2 h5 ls pl hj hj' hab hab'
  have ha : (0 : ℝ) ≤ asec2rad / 1e7 := by unfold asec2rad; norm_num
  rw [← sub_mul, ← sub_mul, abs_mul, abs_mul, abs_of_nonneg ha]
  have g1 := mul_le_mul_of_nonneg_right hc.1 ha
  have g2 := mul_le_mul_of_nonneg_right hc.2 ha
  constructor
  · refine g1.trans (le_of_eq ?_); field_simp
  · refine g2.trans (le_of_eq ?_); field_simp

/-- **C106.** The same for the shorter IAU 2000B series. -/
theorem C106_nutation_rate_b {jd jd' : ℝ} (hj : WithinThirtyCenturies jd) (hj' : WithinThirtyCenturies jd') {p e p' e' : ℝ}
    (h : iau2000bRadians bundledMultipliers jd = some (p, e)) (h' : iau2000bRadians bundledMultipliers jd' = some (p', e')) :
    |p - p'| ≤ (0.2708 * |jd - jd'| + 1e-15) * asec2rad ∧ |e - e'| ≤ (0.1091 * |jd - jd'| + 1e-15) * asec2rad := by
  unfold iau2000bRadians iau2000b at h h'
  simp only [Option.map_eq_some_iff, Prod.exists, Prod.mk.injEq] at h h'
  obtain ⟨a, b, ⟨a1, b1, hab, rfl, rfl⟩, rfl, rfl⟩ := h
  obtain ⟨a', b', ⟨a1', b1', hab', rfl, rfl⟩, rfl, rfl⟩ := h'
  refine C106_nutation_rate (terms := 2) le_rfl (by norm_num) 77 0 hj hj' (p := a1 * (asec2rad / 1e7))
    (e := b1 * (asec2rad / 1e7)) (p' := a1' * (asec2rad / 1e7)) (e' := b1' * (asec2rad / 1e7)) ?_ ?_ |>.imp ?_ ?_
  · unfold iau2000aRadians; rw [show ((2 : ℕ) : ℤ) = 2 from rfl, hab]; rfl
  · unfold iau2000aRadians; rw [show ((2 : ℕ) : ℤ) = 2 from rfl, hab']; rfl
  · intro hp; refine le_trans (le_of_eq ?_) hp; congr 1; ring
  · intro he; refine le_trans (le_of_eq ?_) he; congr 1; ring

/-- 1900 and 2100 are within thirty centuries, and the angles exist. -/
example : WithinThirtyCenturies 2415020.5 ∧ WithinThirtyCenturies 2488069.5 ∧
    ∃ p e, iau2000aRadians bundledMultipliers 2415020.5 5 687 687 = some (p, e) := by
  refine ⟨by unfold WithinThirtyCenturies; rw [abs_le]; constructor <;> norm_num,
    by unfold WithinThirtyCenturies; rw [abs_le]; constructor <;> norm_num, ?_⟩
  obtain ⟨p, e, h⟩ := C74_defined bundledMultipliers asec2rad 2415020.5 5 687 687
  refine ⟨p * (asec2rad / 1e7), e * (asec2rad / 1e7), ?_⟩
  unfold iau2000aRadians
  rw [show (5 : ℤ) = ((5 : ℕ) : ℤ) from rfl, h]
  rfl

/-- **C106.** The complementary terms of the equation of the equinoxes change by no more than 0.00001″ for each day. -/
theorem C106_equinox_rate {jd jd' : ℝ} (hj : WithinThirtyCenturies jd) (hj' : WithinThirtyCenturies jd') :
    |equinoxTerms bundledMultipliers asec2rad jd - equinoxTerms bundledMultipliers asec2rad jd'| ≤
      0.00001 * |jd - jd'| * asec2rad := by
  have ha : (0 : ℝ) ≤ asec2rad := by unfold asec2rad; norm_num
  have ht := hj.centuries
  have hu := hj'.centuries
  rw [equinoxTerms_eq, equinoxTerms_eq]
  have e1 : |jd - jd'| = 36525 * |(jd - t0) / 36525 - (jd' - t0) / 36525| := by
    rw [← abs_of_pos (by norm_num : (0 : ℝ) < 36525), ← abs_mul, abs_of_pos (by norm_num : (0 : ℝ) < 36525)]
    congr 1; ring
  rw [e1]
  generalize (jd - t0) / 36525 = t at *
  generalize (jd' - t0) / 36525 = u at *
  have hD := equinox_drift ht hu
  generalize equinoxArguments asec2rad t = a at *
  generalize equinoxArguments asec2rad u = b at *
  have hr : ∀ r ∈ [equinoxRow], r.length ≤ 14 := by decide
  have d0 := seriesDot_drift wave_sin equinoxRows equinoxRows_width planetaryRates equinoxes0 hD
  have d1 := seriesDot_drift wave_cos equinoxRows equinoxRows_width planetaryRates equinoxes1 hD
  have d2 := seriesDot_drift wave_sin [equinoxRow] hr planetaryRates [1] hD
  have s0 : (slopeSum equinoxRows equinoxes0 planetaryRates : ℝ) ≤ 243060488356005198 := by exact_mod_cast slope_eq0
  have s1 : (slopeSum equinoxRows equinoxes1 planetaryRates : ℝ) ≤ 52657773693565 := by exact_mod_cast slope_eq1
  have w0 : (weightSum equinoxRows equinoxes0 : ℝ) ≤ 299532 := by exact_mod_cast weight_eq0
  have w1 : (weightSum equinoxRows equinoxes1 : ℝ) ≤ 445 := by exact_mod_cast weight_eq1
  have s2 : slopeSum [equinoxRow] [1] planetaryRates = 337570450000 := by decide +kernel
  have w2 : weightSum [equinoxRow] [1] = 1 := by decide +kernel
  rw [s2, w2] at d2
  simp only [seriesDot, List.map_cons, List.map_nil, List.zipWith_cons_cons, List.zipWith_nil_right, List.sum_cons,
    List.sum_nil, Int.cast_one, mul_one, add_zero] at d2
  have n0 : (equinoxRows.map (tableRow 14)) = bundledMultipliers.ke0 := rfl
  have n1 : tableRow 14 equinoxRow = bundledMultipliers.ke1 := rfl
  rw [n0] at d0 d1
  rw [n1] at d2
  have hb := abs_sin_le (multiplierDot bundledMultipliers.ke1 b)
  have t2 := times_drift (u := u) d2 hb ht
  have hd : |1e-10 * (t - u)| = 1e-10 * |t - u| := by rw [abs_mul, abs_of_pos (by norm_num : (0 : ℝ) < 1e-10)]
  rw [hd] at d0 d1 t2
  generalize hS : seriesDot sin (bundledMultipliers.ke0.map (multiplierDot · a)) equinoxes0 = S at *
  generalize seriesDot sin (bundledMultipliers.ke0.map (multiplierDot · b)) equinoxes0 = S' at *
  generalize seriesDot cos (bundledMultipliers.ke0.map (multiplierDot · a)) equinoxes1 = C at *
  generalize seriesDot cos (bundledMultipliers.ke0.map (multiplierDot · b)) equinoxes1 = C' at *
  generalize sin (multiplierDot bundledMultipliers.ke1 a) = x at *
  generalize sin (multiplierDot bundledMultipliers.ke1 b) = y at *
  generalize (slopeSum equinoxRows equinoxes0 planetaryRates : ℝ) = A0 at *
  generalize (slopeSum equinoxRows equinoxes1 planetaryRates : ℝ) = A1 at *
  generalize (weightSum equinoxRows equinoxes0 : ℝ) = B0 at *
  generalize (weightSum equinoxRows equinoxes1 : ℝ) = B1 at *
  have e : (-0.87e-6 * x * t + S / 1e8 + C / 1e8) * asec2rad - (-0.87e-6 * y * u + S' / 1e8 + C' / 1e8) * asec2rad =
      (-0.87e-6 * (x * t - y * u) + (S - S') / 1e8 + (C - C') / 1e8) * asec2rad := by ring
  rw [e, abs_mul, abs_of_nonneg ha]
  refine mul_le_mul_of_nonneg_right ?_ ha
  refine (abs_add_three _ _ _).trans ?_
  rw [abs_mul, abs_div, abs_div, abs_of_pos (by norm_num : (0 : ℝ) < 1e8), abs_of_neg (by norm_num : (-0.87e-6 : ℝ) < 0)]
  have h0 := abs_nonneg (t - u)
  generalize |t - u| = h at *
  have m0 := mul_le_mul_of_nonneg_right s0 (by positivity : 0 ≤ 1e-10 * h)
  have m1 := mul_le_mul_of_nonneg_right s1 (by positivity : 0 ≤ 1e-10 * h)
  have m2 := mul_le_mul_of_nonneg_right w0 (by positivity : 0 ≤ 0.02 * h)
  have m3 := mul_le_mul_of_nonneg_right w1 (by positivity : 0 ≤ 0.02 * h)
  have f0 : |S - S'| ≤ 24400000 * h := by
    refine d0.trans ((add_le_add m0 m2).trans ?_)
    norm_num; linarith
  have f1 : |C - C'| ≤ 6000 * h := by
    refine d1.trans ((add_le_add m1 m3).trans ?_)
    norm_num; linarith
  have f2 : |x * t - y * u| ≤ 2000 * h := by
    refine t2.trans ?_
    push_cast; norm_num; linarith
  have g0 := div_le_div_of_nonneg_right f0 (by norm_num : (0 : ℝ) ≤ 1e8)
  have g1 := div_le_div_of_nonneg_right f1 (by norm_num : (0 : ℝ) ≤ 1e8)
  norm_num at g0 g1 ⊢
  linarith

/-! ### Sidereal time -/

/-- The precession in right ascension runs nearly uniformly. -/
theorem precession_change {t u : ℝ} (ht : |t| ≤ 30) (hu : |u| ≤ 30) :
    |(0.014506 + 4612.156534 * t + 1.3915817 * t ^ 2 - 0.00000044 * t ^ 3 - 0.000029956 * t ^ 4 - 0.0000000368 * t ^ 5)
      - (0.014506 + 4612.156534 * u + 1.3915817 * u ^ 2 - 0.00000044 * u ^ 3 - 0.000029956 * u ^ 4 - 0.0000000368 * u ^ 5)
      - 4612.156534 * (t - u)| ≤ 90 * |t - u| := by
  have b : ∀ (i j : ℕ), |t ^ i * u ^ j| ≤ 30 ^ (i + j) := by
    intro i j
    rw [abs_mul, abs_pow, abs_pow, pow_add]
    gcongr
  have e : (0.014506 + 4612.156534 * t + 1.3915817 * t ^ 2 - 0.00000044 * t ^ 3 - 0.000029956 * t ^ 4 - 0.0000000368 * t ^ 5)
      - (0.014506 + 4612.156534 * u + 1.3915817 * u ^ 2 - 0.00000044 * u ^ 3 - 0.000029956 * u ^ 4 - 0.0000000368 * u ^ 5)
      - 4612.156534 * (t - u) = (1.3915817 * (t ^ 1 * u ^ 0 + t ^ 0 * u ^ 1)
        - 0.00000044 * (t ^ 2 * u ^ 0 + t ^ 1 * u ^ 1 + t ^ 0 * u ^ 2)
        - 0.000029956 * (t ^ 3 * u ^ 0 + t ^ 2 * u ^ 1 + t ^ 1 * u ^ 2 + t ^ 0 * u ^ 3)
        - 0.0000000368 * (t ^ 4 * u ^ 0 + t ^ 3 * u ^ 1 + t ^ 2 * u ^ 2 + t ^ 1 * u ^ 3 + t ^ 0 * u ^ 4)) * (t - u) := by ring
  rw [e, abs_mul]
  refine mul_le_mul_of_nonneg_right ?_ (abs_nonneg _)
  have a1 := abs_le.mp (b 1 0)
  have a2 := abs_le.mp (b 0 1)
  have a3 := abs_le.mp (b 2 0)
  have a4 := abs_le.mp (b 1 1)
  have a5 := abs_le.mp (b 0 2)
  have a6 := abs_le.mp (b 3 0)
  have a7 := abs_le.mp (b 2 1)
  have a8 := abs_le.mp (b 1 2)
  have a9 := abs_le.mp (b 0 3)
  have c1 := abs_le.mp (b 4 0)
  have c2 := abs_le.mp (b 3 1)
  have c3 := abs_le.mp (b 2 2)
  have c4 := abs_le.mp (b 1 3)
  have c5 := abs_le.mp (b 0 4)
  norm_num only at a1 a2 a3 a4 a5 a6 a7 a8 a9 c1 c2 c3 c4 c5
  clear b e
  generalize t ^ 1 * u ^ 0 = v1 at *
  generalize t ^ 0 * u ^ 1 = v2 at *
  generalize t ^ 2 * u ^ 0 = v3 at *
  generalize t ^ 1 * u ^ 1 = v4 at *
  generalize t ^ 0 * u ^ 2 = v5 at *
  generalize t ^ 3 * u ^ 0 = v6 at *
  generalize t ^ 2 * u ^ 1 = v7 at *
  generalize t ^ 1 * u ^ 2 = v8 at *
  generalize t ^ 0 * u ^ 3 = v9 at *
  generalize t ^ 4 * u ^ 0 = w1 at *
  generalize t ^ 3 * u ^ 1 = w2 at *
  generalize t ^ 2 * u ^ 2 = w3 at *
  generalize t ^ 1 * u ^ 3 = w4 at *
  generalize t ^ 0 * u ^ 4 = w5 at *
  rw [abs_le]
  constructor
  · linarith [a1.1, a2.1, a3.2, a4.2, a5.2, a6.2, a7.2, a8.2, a9.2, c1.2, c2.2, c3.2, c4.2, c5.2]
  · linarith [a1.2, a2.2, a3.1, a4.1, a5.1, a6.1, a7.1, a8.1, a9.1, c1.1, c2.1, c3.1, c4.1, c5.1]

/-- The mean obliquity changes by less than an arcminute for each century. -/
theorem obliquity_change {jd jd' : ℝ} (hj : WithinThirtyCenturies jd) (hj' : WithinThirtyCenturies jd') :
    |meanObliquity jd - meanObliquity jd'| ≤ 60 / 36525 * |jd - jd'| := by
  have ht := hj.centuries
  have hu := hj'.centuries
  have e1 : |jd - jd'| = 36525 * |(jd - t0) / 36525 - (jd' - t0) / 36525| := by
    rw [← abs_of_pos (by norm_num : (0 : ℝ) < 36525), ← abs_mul, abs_of_pos (by norm_num : (0 : ℝ) < 36525)]
    congr 1; ring
  rw [e1]
  unfold meanObliquity
  simp only
  generalize (jd - t0) / 36525 = t at *
  generalize (jd' - t0) / 36525 = u at *
  have b : ∀ (i j : ℕ), |t ^ i * u ^ j| ≤ 30 ^ (i + j) := by
    intro i j
    rw [abs_mul, abs_pow, abs_pow, pow_add]
    gcongr
  have e : (((((-0.0000000434 * t - 0.000000576) * t + 0.00200340) * t - 0.0001831) * t - 46.836769) * t + 84381.406)
      - (((((-0.0000000434 * u - 0.000000576) * u + 0.00200340) * u - 0.0001831) * u - 46.836769) * u + 84381.406)
      = (-46.836769 - 0.0001831 * (t ^ 1 * u ^ 0 + t ^ 0 * u ^ 1)
        + 0.00200340 * (t ^ 2 * u ^ 0 + t ^ 1 * u ^ 1 + t ^ 0 * u ^ 2)
        - 0.000000576 * (t ^ 3 * u ^ 0 + t ^ 2 * u ^ 1 + t ^ 1 * u ^ 2 + t ^ 0 * u ^ 3)
        - 0.0000000434 * (t ^ 4 * u ^ 0 + t ^ 3 * u ^ 1 + t ^ 2 * u ^ 2 + t ^ 1 * u ^ 3 + t ^ 0 * u ^ 4)) * (t - u) := by ring
  have e2 : (60 : ℝ) / 36525 * (36525 * |t - u|) = 60 * |t - u| := by ring
  rw [e, e2, abs_mul]
  refine mul_le_mul_of_nonneg_right ?_ (abs_nonneg _)
  have a1 := abs_le.mp (b 1 0)
  have a2 := abs_le.mp (b 0 1)
  have a3 := abs_le.mp (b 2 0)
  have a4 := abs_le.mp (b 1 1)
  have a5 := abs_le.mp (b 0 2)
  have a6 := abs_le.mp (b 3 0)
  have a7 := abs_le.mp (b 2 1)
  have a8 := abs_le.mp (b 1 2)
  have a9 := abs_le.mp (b 0 3)
  have c1 := abs_le.mp (b 4 0)
  have c2 := abs_le.mp (b 3 1)
  have c3 := abs_le.mp (b 2 2)
  have c4 := abs_le.mp (b 1 3)
  have c5 := abs_le.mp (b 0 4)
  norm_num only at a1 a2 a3 a4 a5 a6 a7 a8 a9 c1 c2 c3 c4 c5
  clear b e e1 e2
  generalize t ^ 1 * u ^ 0 = v1 at *
  generalize t ^ 0 * u ^ 1 = v2 at *
  generalize t ^ 2 * u ^ 0 = v3 at *
  generalize t ^ 1 * u ^ 1 = v4 at *
  generalize t ^ 0 * u ^ 2 = v5 at *
  generalize t ^ 3 * u ^ 0 = v6 at *
  generalize t ^ 2 * u ^ 1 = v7 at *
  generalize t ^ 1 * u ^ 2 = v8 at *
  generalize t ^ 0 * u ^ 3 = v9 at *
  generalize t ^ 4 * u ^ 0 = w1 at *
  generalize t ^ 3 * u ^ 1 = w2 at *
  generalize t ^ 2 * u ^ 2 = w3 at *
  generalize t ^ 1 * u ^ 3 = w4 at *
  generalize t ^ 0 * u ^ 4 = w5 at *
  rw [abs_le]
  constructor
  · linarith [a1.2, a2.2, a3.1, a4.1, a5.1, a6.2, a7.2, a8.2, a9.2, c1.2, c2.2, c3.2, c4.2, c5.2]
  · linarith [a1.1, a2.1, a3.2, a4.2, a5.2, a6.1, a7.1, a8.1, a9.1, c1.1, c2.1, c3.1, c4.1, c5.1]

/-- **C106.** Every `Time` has an apparent sidereal time, from 0 up to 24 hours. -/
theorem C106_gast_defined (t : Time ℝ) (series : NutationSeries := .iau2000a) : ∃ g, t.gast series = some g ∧ 0 ≤ g ∧ g < 24 := by
  obtain ⟨x, h⟩ : ∃ x, t.nutationAnglesRadians series = some x := by
    cases series with
    | iau2000a =>
      obtain ⟨p, e, h⟩ := C74_defined bundledMultipliers asec2rad t.tt 5 687 687
      unfold Time.nutationAnglesRadians iau2000aRadians
      simp only
      rw [show (5 : ℤ) = ((5 : ℕ) : ℤ) from rfl, h]
      exact ⟨_, rfl⟩
    | iau2000b =>
      obtain ⟨p, e, h⟩ := C74_defined bundledMultipliers asec2rad t.tt 2 77 0
      unfold Time.nutationAnglesRadians iau2000bRadians iau2000b
      simp only
      rw [show (2 : ℤ) = ((2 : ℕ) : ℤ) from rfl, h]
      exact ⟨_, rfl⟩
  unfold Time.gast
  rw [h]
  refine ⟨_, rfl, ?_, ?_⟩
  · exact pyMod_nonneg' _ (by norm_num)
  · exact pyMod_lt' _ (by norm_num)

/-- Specification: two times whose three clocks TT, TDB and UT1 advance together, to a tenth of a percent, over the `d` days of
UT1 between them. -/
structure ClocksAgree (t u : Time ℝ) (d : ℝ) : Prop where
  ut1 : u.ut1 - t.ut1 = d
  tt : |u.tt - t.tt - d| ≤ 0.001 * |d|
  tdb : |u.tdb tdbMinusTt - t.tdb tdbMinusTt - d| ≤ 0.001 * |d|

/-- The rate and the size of either series. -/
theorem nutation_series {series : NutationSeries} {t u : Time ℝ} (h1 : WithinThirtyCenturies t.tt) (h2 : WithinThirtyCenturies u.tt) {p e p' e' : ℝ}
    (hp : t.nutationAnglesRadians series = some (p, e)) (hp' : u.nutationAnglesRadians series = some (p', e')) :
    (|p - p'| ≤ (0.2708 * |t.tt - u.tt| + 1e-15) * asec2rad ∧ |e - e'| ≤ (0.1091 * |t.tt - u.tt| + 1e-15) * asec2rad) ∧
    |p| ≤ 21 * asec2rad := by
  have hA : (0 : ℝ) ≤ asec2rad := by unfold asec2rad; norm_num
  have hT := h1.centuries
  cases series with
  | iau2000a =>
    refine ⟨C106_nutation_rate (terms := 5) (by norm_num) le_rfl 687 687 h1 h2 hp hp', ?_⟩
    refine ((C74_radians bundledMultipliers t.tt 5 687 687 hp).2.1).trans (mul_le_mul_of_nonneg_right ?_ hA)
    linarith
  | iau2000b =>
    refine ⟨C106_nutation_rate_b h1 h2 hp hp', ?_⟩
    obtain ⟨psi, eps, hb, rfl, -⟩ := C74_radians_b _ _ hp
    unfold iau2000b at hb
    simp only [Option.map_eq_some_iff, Prod.exists, Prod.mk.injEq] at hb
    obtain ⟨a, b, hab, rfl, rfl⟩ := hb
    have hB := (C74_bounded _ _ _ _ _ _ hab).1
    rw [abs_mul, abs_of_nonneg hA]
    refine mul_le_mul_of_nonneg_right ?_ hA
    rw [add_div]
    refine (abs_add_le _ _).trans ?_
    rw [abs_div a, abs_of_nonneg (by norm_num : (0 : ℝ) ≤ 1e7)]
    have e : |(-0.000135e7 / 1e7 : ℝ)| = 0.000135 := by norm_num [abs_of_neg]
    rw [e]
    linarith

theorem gast_unwrapped (t : Time ℝ) {series : NutationSeries} {g p e : ℝ} (h : t.nutationAnglesRadians series = some (p, e))
    (hg : t.gast series = some g) :
    ∃ n : ℤ, g = 24 * (0.7790572732640 + 1.00273781191135448 * (t.ut1 - 2451545)) +
      (let s := (t.tdb tdbMinusTt - 2451545) / 36525
       0.014506 + 4612.156534 * s + 1.3915817 * s ^ 2 - 0.00000044 * s ^ 3 - 0.000029956 * s ^ 4 - 0.0000000368 * s ^ 5)
          / (15 * 3600) +
      (p * cos (meanObliquity (t.tdb tdbMinusTt) * asec2rad) + equinoxTerms bundledMultipliers asec2rad t.tt) * (24 / (2 * π))
      - 24 * n := by
  unfold Time.gast at hg
  rw [h] at hg
  simp only [Option.map_some, Option.some.injEq] at hg
  unfold gastAt at hg
  obtain ⟨_, _, n, hn⟩ := C49_sidereal_time t.whole t.ut1Fraction (t.tdbFraction tdbMinusTt)
  obtain ⟨⟨_, _, m, hm⟩, _⟩ := C49_apparent_and_local t.gmst
    (p * cos (meanObliquity (t.tdb tdbMinusTt) * asec2rad) + equinoxTerms bundledMultipliers asec2rad t.tt) 0 0 0 0
  refine ⟨n + m, ?_⟩
  rw [← hg, hm]
  unfold Time.gmst
  rw [hn]
  have e1 : t.whole - 2451545 + t.tdbFraction tdbMinusTt = t.tdb tdbMinusTt - 2451545 := by unfold Time.tdb; ring
  have e2 : t.whole + t.ut1Fraction = t.ut1 := rfl
  rw [e1, e2]
  push_cast
  ring

private theorem equation_change {p p' o o' q q' d a b : ℝ} (ha : |a| ≤ 1.001 * |d|) (hb : |b| ≤ 1.001 * |d|)
    (hN : |p' - p| ≤ (0.2708 * |a| + 1e-15) * asec2rad) (hE : |q' - q| ≤ 0.00001 * |a| * asec2rad)
    (hO : |o' - o| ≤ 60 / 36525 * |b|) (hB : |p| ≤ 21 * asec2rad) :
    |(p' * cos (o' * asec2rad) + q') - (p * cos (o * asec2rad) + q)| ≤ (0.2712 * |d| + 1e-15) * asec2rad := by
  have h0 : (0 : ℝ) ≤ asec2rad := by unfold asec2rad; norm_num
  have hA : asec2rad ≤ 5e-6 := by unfold asec2rad; norm_num
  have e : (p' * cos (o' * asec2rad) + q') - (p * cos (o * asec2rad) + q) =
      (p' - p) * cos (o' * asec2rad) + p * (cos (o' * asec2rad) - cos (o * asec2rad)) + (q' - q) := by ring
  rw [e]
  refine (abs_add_three _ _ _).trans ?_
  have m1 : |(p' - p) * cos (o' * asec2rad)| ≤ (0.2708 * |a| + 1e-15) * asec2rad := by
    rw [abs_mul]
    have := mul_le_mul hN (abs_cos_le (o' * asec2rad)) (abs_nonneg _) (by positivity)
    linarith
  have m2 : |p * (cos (o' * asec2rad) - cos (o * asec2rad))| ≤ 21 * asec2rad * (60 / 36525 * |b| * 5e-6) := by
    rw [abs_mul]
    refine mul_le_mul hB ?_ (abs_nonneg _) (by positivity)
    refine (cos_lipschitz _ _).trans ?_
    rw [← sub_mul, abs_mul, abs_of_nonneg h0]
    exact mul_le_mul hO hA h0 (by positivity)
  refine (add_le_add (add_le_add m1 m2) hE).trans ?_
  have e2 : (0.2708 * |a| + 1e-15) * asec2rad + 21 * asec2rad * (60 / 36525 * |b| * 5e-6) + 0.00001 * |a| * asec2rad =
      (0.2708 * |a| + 1e-15 + 21 * (60 / 36525 * |b| * 5e-6) + 0.00001 * |a|) * asec2rad := by ring
  rw [e2]
  refine mul_le_mul_of_nonneg_right ?_ h0
  linarith [abs_nonneg d]

private theorem gain_arith {g g' x x' P P' s s' Q Q' d c : ℝ} {n n' : ℤ}
    (h : g = 24 * (c + 1.00273781191135448 * (x - 2451545)) + P / (15 * 3600) + Q * (24 / (2 * π)) - 24 * n)
    (h' : g' = 24 * (c + 1.00273781191135448 * (x' - 2451545)) + P' / (15 * 3600) + Q' * (24 / (2 * π)) - 24 * n')
    (hx : x' - x = d) (hP : |P' - P - 4612.156534 * (s' - s)| ≤ 90 * |s' - s|)
    (hs : |36525 * (s' - s) - d| ≤ 0.001 * |d|) (hQ : |Q' - Q| ≤ (0.2712 * |d| + 1e-15) * asec2rad) :
    ∃ n : ℤ, |g' - g - 24 * (1.00273790935 * d) - 24 * n| * 3600 ≤ 0.0184 * |d| + 1e-15 := by
  refine ⟨n - n', ?_⟩
  have e : g' - g - 24 * (1.00273790935 * d) - 24 * ((n - n' : ℤ) : ℝ) =
      24 * ((1.00273781191135448 - 1.00273790935 + 4612.156534 / 36525 / 1296000) * d) +
      (4612.156534 * (36525 * (s' - s) - d) / 36525 / 54000 + (P' - P - 4612.156534 * (s' - s)) / 54000) +
      (Q' - Q) * (24 / (2 * π)) := by
    rw [h, h', ← hx]
    push_cast
    ring
  rw [e]
  have h0 := abs_nonneg d
  have b1 : |24 * ((1.00273781191135448 - 1.00273790935 + 4612.156534 / 36525 / 1296000) * d)| ≤ 1e-9 * |d| := by
    rw [abs_mul, abs_mul, ← mul_assoc]
    refine mul_le_mul_of_nonneg_right ?_ h0
    rw [← abs_mul, abs_le]
    constructor <;> norm_num
  have hss : |s' - s| ≤ 1.001 / 36525 * |d| := by
    have e3 : s' - s = ((36525 * (s' - s) - d) + d) / 36525 := by ring
    rw [e3, abs_div, abs_of_pos (by norm_num : (0 : ℝ) < 36525), div_le_iff₀ (by norm_num)]
    have e4 : 1.001 / 36525 * |d| * 36525 = 1.001 * |d| := by ring
    rw [e4]
    exact (abs_add_le _ _).trans (by linarith)
  have b2 : |4612.156534 * (36525 * (s' - s) - d) / 36525 / 54000 + (P' - P - 4612.156534 * (s' - s)) / 54000| ≤
      5e-8 * |d| := by
    refine (abs_add_le _ _).trans ?_
    rw [abs_div, abs_div, abs_mul, abs_div (P' - P - _), abs_of_pos (by norm_num : (0 : ℝ) < 36525),
      abs_of_pos (by norm_num : (0 : ℝ) < 54000), abs_of_pos (by norm_num : (0 : ℝ) < 4612.156534)]
    have f1 : 4612.156534 * |36525 * (s' - s) - d| / 36525 / 54000 ≤ 4612.156534 * (0.001 * |d|) / 36525 / 54000 := by gcongr
    have f2 : |P' - P - 4612.156534 * (s' - s)| / 54000 ≤ 90 * (1.001 / 36525 * |d|) / 54000 := by
      gcongr
      exact hP.trans (by linarith)
    refine (add_le_add f1 f2).trans ?_
    have e5 : 4612.156534 * (0.001 * |d|) / 36525 / 54000 + 90 * (1.001 / 36525 * |d|) / 54000 =
      (4612.156534 * 0.001 / 36525 / 54000 + 90 * 1.001 / 36525 / 54000) * |d| := by ring
    rw [e5]
    refine mul_le_mul_of_nonneg_right (by norm_num) h0
  have htau : (6.28318 : ℝ) < 2 * π := by linarith [pi_gt_d6]
  have hq : 24 / (2 * π) ≤ 24 / 6.28318 := div_le_div_of_nonneg_left (by norm_num) (by norm_num) htau.le
  have hq0 : 0 ≤ 24 / (2 * π) := by positivity
  have hA : (0 : ℝ) ≤ asec2rad := by unfold asec2rad; norm_num
  have b3 : |(Q' - Q) * (24 / (2 * π))| ≤ (0.2712 * |d| + 1e-15) * (asec2rad * (24 / 6.28318)) := by
    rw [abs_mul, abs_of_nonneg hq0, ← mul_assoc]
    exact mul_le_mul hQ hq hq0 (by positivity)
  have h6 : asec2rad * (24 / 6.28318) * 3600 ≤ 0.0666668 := by unfold asec2rad; norm_num
  have b4 := mul_le_mul_of_nonneg_left h6 (by positivity : 0 ≤ 0.2712 * |d| + 1e-15)
  have b5 := abs_add_three (24 * ((1.00273781191135448 - 1.00273790935 + 4612.156534 / 36525 / 1296000) * d))
    (4612.156534 * (36525 * (s' - s) - d) / 36525 / 54000 + (P' - P - 4612.156534 * (s' - s)) / 54000)
    ((Q' - Q) * (24 / (2 * π)))
  have b6 := mul_le_mul_of_nonneg_right (b5.trans (add_le_add (add_le_add b1 b2) b3)) (by norm_num : (0 : ℝ) ≤ 3600)
  refine b6.trans ?_
  have e7 : (1e-9 * |d| + 5e-8 * |d| + (0.2712 * |d| + 1e-15) * (asec2rad * (24 / 6.28318))) * 3600 =
    (1e-9 * |d| + 5e-8 * |d|) * 3600 + (0.2712 * |d| + 1e-15) * (asec2rad * (24 / 6.28318) * 3600) := by ring
  rw [e7]
  linarith

/-- **C106.** Apparent sidereal time runs steadily: between two times within thirty centuries of J2000 it advances, whole days
apart, by 1.00273790935 times the UT1 between them, to within 0.0184 seconds for each day between them. -/
theorem C106_sidereal_gain {t u : Time ℝ} {d : ℝ} (hc : ClocksAgree t u d) (h1 : WithinThirtyCenturies t.tt)
    (h2 : WithinThirtyCenturies u.tt) (h3 : WithinThirtyCenturies (t.tdb tdbMinusTt))
    (h4 : WithinThirtyCenturies (u.tdb tdbMinusTt)) {series : NutationSeries} {g g' : ℝ} (hg : t.gast series = some g)
    (hg' : u.gast series = some g') :
    ∃ n : ℤ, |g' - g - 24 * (1.00273790935 * d) - 24 * n| * 3600 ≤ 0.0184 * |d| + 1e-15 := by
  obtain ⟨⟨p, e⟩, hp⟩ : ∃ x, t.nutationAnglesRadians series = some x := by
    unfold Time.gast at hg
    cases h : t.nutationAnglesRadians series with
    | none => rw [h] at hg; simp at hg
    | some x => exact ⟨x, rfl⟩
  obtain ⟨⟨p', e'⟩, hp'⟩ : ∃ x, u.nutationAnglesRadians series = some x := by
    unfold Time.gast at hg'
    cases h : u.nutationAnglesRadians series with
    | none => rw [h] at hg'; simp at hg'
    | some x => exact ⟨x, rfl⟩
  obtain ⟨n, hn⟩ := gast_unwrapped t hp hg
  obtain ⟨n', hn'⟩ := gast_unwrapped u hp' hg'
  have hN := (nutation_series h2 h1 hp' hp).1.1
  have hE := C106_equinox_rate h2 h1
  have hP := precession_change h4.centuries h3.centuries
  have hO := obliquity_change h4 h3
  have hB' := (nutation_series h1 h2 hp hp').2
  obtain ⟨hu, htt, htdb⟩ := hc
  have at1 : |u.tt - t.tt| ≤ 1.001 * |d| := by
    have := abs_add_le (u.tt - t.tt - d) d
    rw [sub_add_cancel] at this
    linarith
  have at2 : |u.tdb tdbMinusTt - t.tdb tdbMinusTt| ≤ 1.001 * |d| := by
    have := abs_add_le (u.tdb tdbMinusTt - t.tdb tdbMinusTt - d) d
    rw [sub_add_cancel] at this
    linarith
  have hQ := equation_change at1 at2 hN hE hO hB'
  have hz : (t0 : ℝ) = 2451545 := by unfold t0; norm_num
  rw [hz] at hP
  refine gain_arith hn hn' hu hP ?_ hQ
  refine le_trans (le_of_eq ?_) htdb
  congr 1
  ring

/-- **C106.** The clocks of two times built from TT, TAI or UTC agree so well whenever ΔT changes by no more than 40 seconds for
each day between them. -/
theorem C106_clocks_agree {t u : Time ℝ} (h1 : WithinThirtyCenturies t.tt) (ht : t.tdbFraction? = none ∧ t.ut1Fraction? = none)
    (hu : u.tdbFraction? = none ∧ u.ut1Fraction? = none) (hd : |u.deltaT - t.deltaT| ≤ 40 * |u.tt - t.tt|) :
    ClocksAgree t u (u.ut1 - t.ut1) := by
  have hg : |tdbMinusTt u.whole u.ttFraction - tdbMinusTt t.whole t.ttFraction| ≤ 1.28 / 36525 * |u.tt - t.tt| := by
    have hc : |tdbCenturies t.whole t.ttFraction| ≤ 30 := by
      have e : tdbCenturies t.whole t.ttFraction = (t.tt - t0) / 36525 := by unfold tdbCenturies Time.tt t0; ring
      rw [e]
      exact h1.centuries
    have hL := tdbSeries_lipschitz (tdbCenturies t.whole t.ttFraction) (tdbCenturies u.whole u.ttFraction) hc
    unfold tdbMinusTt
    rw [abs_sub_comm]
    refine hL.trans (le_of_eq ?_)
    have e : tdbCenturies t.whole t.ttFraction - tdbCenturies u.whole u.ttFraction = -((u.tt - t.tt) / 36525) := by
      unfold tdbCenturies Time.tt; ring
    rw [e, abs_neg, abs_div, abs_of_pos (by norm_num : (0 : ℝ) < 36525)]
    ring
  have e1 : u.ut1 - t.ut1 = (u.tt - t.tt) - (u.deltaT - t.deltaT) / 86400 := by
    unfold Time.ut1 Time.ut1Fraction
    rw [ht.2, hu.2]
    unfold Time.tt dayS
    ring
  have e2 : u.tdb tdbMinusTt - t.tdb tdbMinusTt =
      (u.tt - t.tt) + (tdbMinusTt u.whole u.ttFraction - tdbMinusTt t.whole t.ttFraction) / 86400 := by
    unfold Time.tdb Time.tdbFraction
    rw [ht.1, hu.1]
    unfold Time.tt dayS
    ring
  generalize hdd : u.ut1 - t.ut1 = d at *
  generalize hx : u.tt - t.tt = x at *
  generalize hy : u.tdb tdbMinusTt - t.tdb tdbMinusTt = y at *
  generalize u.deltaT - t.deltaT = r at *
  generalize tdbMinusTt u.whole u.ttFraction - tdbMinusTt t.whole t.ttFraction = q at *
  have f1 : |x - d| = |r| / 86400 := by
    rw [e1, ← abs_of_pos (by norm_num : (0 : ℝ) < 86400), ← abs_div, abs_of_pos (by norm_num : (0 : ℝ) < 86400)]
    congr 1; ring
  have f2 : |x| ≤ |d| + |r| / 86400 := by
    have := abs_add_le (x - d) d
    rw [sub_add_cancel, f1] at this
    linarith
  have f3 : |y - d| ≤ |r| / 86400 + |q| / 86400 := by
    have e : y - d = r / 86400 + q / 86400 := by rw [e1, e2]; ring
    rw [e]
    refine (abs_add_le _ _).trans (le_of_eq ?_)
    rw [abs_div, abs_div, abs_of_pos (by norm_num : (0 : ℝ) < 86400)]
  have h0 := abs_nonneg d
  refine ⟨hdd, ?_, ?_⟩
  · rw [hx, f1]
    linarith
  · rw [hy]
    refine f3.trans ?_
    norm_num at hg ⊢
    linarith

/-- **C106.** The apparent sidereal day: if the sidereal time is back where it was, to within `ε` seconds, after some minutes or
more and less than 1.9 days of UT1, then 23 h 56 m 4.0905 s have passed, to within 0.0185 seconds and `ε`. -/
theorem C106_sidereal_day {t u : Time ℝ} {d ε : ℝ} (hc : ClocksAgree t u d) (h1 : WithinThirtyCenturies t.tt)
    (h2 : WithinThirtyCenturies u.tt) (h3 : WithinThirtyCenturies (t.tdb tdbMinusTt))
    (h4 : WithinThirtyCenturies (u.tdb tdbMinusTt)) {series : NutationSeries} {g g' : ℝ} (hg : t.gast series = some g)
    (hg' : u.gast series = some g')
    (hε : ε ≤ 300) (hback : ∃ n : ℤ, |g' - g - 24 * n| * 3600 ≤ ε) (hd : 0.01 ≤ d) (hd' : d ≤ 1.9) :
    |86400 * d - (23 * 3600 + 56 * 60 + 4.0905)| ≤ 0.0185 + ε := by
  obtain ⟨n, hn⟩ := C106_sidereal_gain hc h1 h2 h3 h4 hg hg'
  obtain ⟨m, hm⟩ := hback
  rw [abs_of_pos (by linarith : 0 < d)] at hn
  have k1 : |24 * (1.00273790935 * d) - 24 * ((m - n : ℤ) : ℝ)| * 3600 ≤ ε + (0.0184 * d + 1e-15) := by
    have e : 24 * (1.00273790935 * d) - 24 * ((m - n : ℤ) : ℝ) =
        (g' - g - 24 * m) - (g' - g - 24 * (1.00273790935 * d) - 24 * n) := by push_cast; ring
    rw [e]
    have := abs_sub (g' - g - 24 * m) (g' - g - 24 * (1.00273790935 * d) - 24 * n)
    linarith
  generalize m - n = k at k1
  have hk : k = 1 := by
    have h5 : |24 * (1.00273790935 * d) - 24 * (k : ℝ)| ≤ 0.1 := by linarith
    rw [abs_le] at h5
    have l1 : (0 : ℝ) < k := by linarith [h5.2]
    have l2 : (k : ℝ) < 2 := by linarith [h5.1]
    have l1' : 0 < k := by exact_mod_cast l1
    have l2' : k < 2 := by exact_mod_cast l2
    omega
  subst hk
  have k2 : |24 * (1.00273790935 * d) - 24 * ((1 : ℤ) : ℝ)| ≤ (ε + (0.0184 * d + 1e-15)) / 3600 := by
    rw [le_div_iff₀ (by norm_num)]; exact k1
  have hε0 : 0 ≤ ε := (by positivity : 0 ≤ |g' - g - 24 * (m : ℝ)| * 3600).trans hm
  push_cast at k2
  rw [abs_le] at k2 ⊢
  constructor <;> linarith [k2.1, k2.2]

/-- Specification: a time scale whose ΔT never changes, and its time at a Julian date TT. -/
private noncomputable def steadyTime (jd : ℝ) : Time ℝ where
  ts := { deltaT := fun _ => 69, leapDates := [], leapOffsets := [], cutoff := none }
  whole := jd
  ttFraction := 0

/-- The hypotheses are met: 2024 January 1 and a mean sidereal day later. -/
example : ∃ (t u : Time ℝ) (d g g' : ℝ), ClocksAgree t u d ∧ WithinThirtyCenturies t.tt ∧ WithinThirtyCenturies u.tt ∧
    WithinThirtyCenturies (t.tdb tdbMinusTt) ∧ WithinThirtyCenturies (u.tdb tdbMinusTt) ∧ t.gast = some g ∧
    u.gast = some g' ∧ (∃ n : ℤ, |g' - g - 24 * n| * 3600 ≤ 0.02) ∧ 0.01 ≤ d ∧ d ≤ 1.9 := by
  have w : ∀ jd : ℝ, 2460310.5 ≤ jd → jd ≤ 2460312 → WithinThirtyCenturies jd := by
    intro jd a b
    unfold WithinThirtyCenturies
    rw [abs_le]; constructor <;> linarith
  have tt : ∀ jd, (steadyTime jd).tt = jd := fun jd => by simp [steadyTime, Time.tt]
  have tdb : ∀ jd : ℝ, 2460310.5 ≤ jd → jd ≤ 2460311.9 → WithinThirtyCenturies ((steadyTime jd).tdb tdbMinusTt) := by
    intro jd a b
    have h := C12_within_2ms jd 0 (by rw [abs_le]; constructor <;> linarith)
    rw [abs_lt] at h
    have e : (steadyTime jd).tdb tdbMinusTt = jd + tdbMinusTt jd 0 / 86400 := by
      simp [steadyTime, Time.tdb, Time.tdbFraction, dayS]
    rw [e]
    unfold WithinThirtyCenturies
    rw [abs_le]; constructor <;> linarith [h.1, h.2]
  have ut1 : ∀ jd, (steadyTime jd).ut1 = jd - 69 / 86400 := fun jd => by
    simp only [steadyTime, Time.ut1, Time.ut1Fraction, Time.deltaT, dayS]; ring
  have hd : (steadyTime (2460310.5 + 1 / 1.00273790935)).ut1 - (steadyTime 2460310.5).ut1 = 1 / 1.00273790935 := by
    rw [ut1, ut1]; ring
  have hc : ClocksAgree (steadyTime 2460310.5) (steadyTime (2460310.5 + 1 / 1.00273790935)) (1 / 1.00273790935) := by
    have := C106_clocks_agree (t := steadyTime 2460310.5) (u := steadyTime (2460310.5 + 1 / 1.00273790935))
      (w _ (by rw [tt]) (by rw [tt]; norm_num)) ⟨rfl, rfl⟩ ⟨rfl, rfl⟩ (by simp [Time.deltaT, steadyTime])
    rwa [hd] at this
  have w1 := w 2460310.5 le_rfl (by norm_num)
  have w2 := w (2460310.5 + 1 / 1.00273790935) (by norm_num) (by norm_num)
  have w3 := tdb 2460310.5 le_rfl (by norm_num)
  have w4 := tdb (2460310.5 + 1 / 1.00273790935) (by norm_num) (by norm_num)
  rw [← tt 2460310.5] at w1
  rw [← tt (2460310.5 + 1 / 1.00273790935)] at w2
  obtain ⟨g, hg, -⟩ := C106_gast_defined (steadyTime 2460310.5)
  obtain ⟨g', hg', -⟩ := C106_gast_defined (steadyTime (2460310.5 + 1 / 1.00273790935))
  refine ⟨_, _, _, g, g', hc, w1, w2, w3, w4, hg, hg', ?_, by norm_num, by norm_num⟩
  obtain ⟨n, hn⟩ := C106_sidereal_gain hc w1 w2 w3 w4 hg hg'
  refine ⟨1 + n, ?_⟩
  have e : g' - g - 24 * ((1 + n : ℤ) : ℝ) = g' - g - 24 * (1.00273790935 * (1 / 1.00273790935)) - 24 * n := by
    push_cast; norm_num; ring
  rw [e]
  refine hn.trans ?_
  rw [abs_of_pos (by norm_num)]
  norm_num

end Skyfield
