import Verif.Lemmas.Turns
import Verif.Model.EarthOfDate
import Verif.Props.NutationRate
import Verif.Props.Parallax
import Verif.Spec.FixedFrames

/-
C110: the frames of date turn slowly, and a place on Earth moves with the velocity it reports.
-/
namespace Skyfield
open _root_.Spec Real

/-! ### Precession -/

private theorem quintic_change {t u : ℝ} (ht : |t| ≤ 30) (hu : |u| ≤ 30) (a b c d e f : ℝ) :
    |(((((a * t + b) * t + c) * t + d) * t + e) * t + f) - (((((a * u + b) * u + c) * u + d) * u + e) * u + f)| ≤
      (|e| + 60 * |d| + 2700 * |c| + 108000 * |b| + 4050000 * |a|) * |t - u| := by
  have m : ∀ (i j : ℕ), |t ^ i * u ^ j| ≤ 30 ^ (i + j) := by
    intro i j
    rw [abs_mul, abs_pow, abs_pow, pow_add]
    gcongr
  have e1 : (((((a * t + b) * t + c) * t + d) * t + e) * t + f) - (((((a * u + b) * u + c) * u + d) * u + e) * u + f)
      = (e + d * (t ^ 1 * u ^ 0 + t ^ 0 * u ^ 1) + c * (t ^ 2 * u ^ 0 + t ^ 1 * u ^ 1 + t ^ 0 * u ^ 2)
        + b * (t ^ 3 * u ^ 0 + t ^ 2 * u ^ 1 + t ^ 1 * u ^ 2 + t ^ 0 * u ^ 3)
        + a * (t ^ 4 * u ^ 0 + t ^ 3 * u ^ 1 + t ^ 2 * u ^ 2 + t ^ 1 * u ^ 3 + t ^ 0 * u ^ 4)) * (t - u) := by ring
  rw [e1, abs_mul]
  refine mul_le_mul_of_nonneg_right ?_ (abs_nonneg _)
  have d1 : |t ^ 1 * u ^ 0 + t ^ 0 * u ^ 1| ≤ 60 := by
    refine (abs_add_le _ _).trans ?_
    have := m 1 0; have := m 0 1
    norm_num at *
    linarith
  have d2 : |t ^ 2 * u ^ 0 + t ^ 1 * u ^ 1 + t ^ 0 * u ^ 2| ≤ 2700 := by
    have h1 := m 2 0; have h2 := m 1 1; have h3 := m 0 2
    norm_num only at h1 h2 h3
    refine (abs_add_three _ _ _).trans ?_
    linarith
  have d3 : |t ^ 3 * u ^ 0 + t ^ 2 * u ^ 1 + t ^ 1 * u ^ 2 + t ^ 0 * u ^ 3| ≤ 108000 := by
    have h1 := m 3 0; have h2 := m 2 1; have h3 := m 1 2; have h4 := m 0 3
    norm_num only at h1 h2 h3 h4
    refine (abs_add_le _ _).trans ?_
    have := abs_add_three (t ^ 3 * u ^ 0) (t ^ 2 * u ^ 1) (t ^ 1 * u ^ 2)
    linarith
  have d4 : |t ^ 4 * u ^ 0 + t ^ 3 * u ^ 1 + t ^ 2 * u ^ 2 + t ^ 1 * u ^ 3 + t ^ 0 * u ^ 4| ≤ 4050000 := by
    have h1 := m 4 0; have h2 := m 3 1; have h3 := m 2 2; have h4 := m 1 3; have h5 := m 0 4
    norm_num only at h1 h2 h3 h4 h5
    refine (abs_add_three _ _ _).trans ?_
    have := abs_add_three (t ^ 4 * u ^ 0) (t ^ 3 * u ^ 1) (t ^ 2 * u ^ 2)
    linarith
  generalize t ^ 1 * u ^ 0 + t ^ 0 * u ^ 1 = x1 at *
  generalize t ^ 2 * u ^ 0 + t ^ 1 * u ^ 1 + t ^ 0 * u ^ 2 = x2 at *
  generalize t ^ 3 * u ^ 0 + t ^ 2 * u ^ 1 + t ^ 1 * u ^ 2 + t ^ 0 * u ^ 3 = x3 at *
  generalize t ^ 4 * u ^ 0 + t ^ 3 * u ^ 1 + t ^ 2 * u ^ 2 + t ^ 1 * u ^ 3 + t ^ 0 * u ^ 4 = x4 at *
  have t1 : |d * x1| ≤ 60 * |d| := by rw [abs_mul, mul_comm]; exact mul_le_mul_of_nonneg_right d1 (abs_nonneg _)
  have t2 : |c * x2| ≤ 2700 * |c| := by rw [abs_mul, mul_comm]; exact mul_le_mul_of_nonneg_right d2 (abs_nonneg _)
  have t3 : |b * x3| ≤ 108000 * |b| := by rw [abs_mul, mul_comm]; exact mul_le_mul_of_nonneg_right d3 (abs_nonneg _)
  have t4 : |a * x4| ≤ 4050000 * |a| := by rw [abs_mul, mul_comm]; exact mul_le_mul_of_nonneg_right d4 (abs_nonneg _)
  refine (abs_add_three _ _ _).trans ?_
  have := abs_add_three e (d * x1) (c * x2)
  linarith

/-- The three angles of precession change by at most 5122″, 26″ and 176″ a century. -/
theorem precessionAngles_change {jd jd' : ℝ} (hj : WithinThirtyCenturies jd) (hj' : WithinThirtyCenturies jd') :
    |(precessionAngles jd).1 - (precessionAngles jd').1| ≤ 5122 / 36525 * |jd - jd'| ∧
    |(precessionAngles jd).2.1 - (precessionAngles jd').2.1| ≤ 26 / 36525 * |jd - jd'| ∧
    |(precessionAngles jd).2.2 - (precessionAngles jd').2.2| ≤ 176 / 36525 * |jd - jd'| := by
  have ht := hj.centuries
  have hu := hj'.centuries
  have e1 : |jd - jd'| = 36525 * |(jd - t0) / 36525 - (jd' - t0) / 36525| := by
    rw [← abs_of_pos (by norm_num : (0 : ℝ) < 36525), ← abs_mul, abs_of_pos (by norm_num : (0 : ℝ) < 36525)]
    congr 1; ring
  rw [e1]
  unfold precessionAngles
  simp only
  generalize (jd - t0) / 36525 = t at *
  generalize (jd' - t0) / 36525 = u at *
  have h0 := abs_nonneg (t - u)
  have e2 : ∀ k : ℝ, k / 36525 * (36525 * |t - u|) = k * |t - u| := fun k => by ring
  simp only [e2]
  have k1 := quintic_change ht hu (-0.0000000951) 0.000132851 (-0.00114045) (-1.0790069) 5038.481507 0
  have k2 := quintic_change ht hu 0.0000003337 (-0.000000467) (-0.00772503) 0.0512623 (-0.025754) 84381.406
  have k3 := quintic_change ht hu (-0.0000000560) 0.000170663 (-0.00121197) (-2.3814292) 10.556403 0
  refine ⟨?_, ?_, ?_⟩
  · refine le_trans (le_of_eq (by congr 1; ring)) (k1.trans (mul_le_mul_of_nonneg_right ?_ h0))
    norm_num [abs_of_pos]
  · refine le_trans (le_of_eq (by congr 1)) (k2.trans (mul_le_mul_of_nonneg_right ?_ h0))
    norm_num [abs_of_pos]
  · refine le_trans (le_of_eq (by congr 1; ring)) (k3.trans (mul_le_mul_of_nonneg_right ?_ h0))
    norm_num [abs_of_pos]

theorem near_precession {jd jd' : ℝ} (hj : WithinThirtyCenturies jd) (hj' : WithinThirtyCenturies jd') :
    NearMatrices (5324 / 36525 * |jd - jd'| * asec2rad) (computePrecession jd) (computePrecession jd') := by
  obtain ⟨h1, h2, h3⟩ := precessionAngles_change hj hj'
  have hA : (0 : ℝ) ≤ asec2rad := by unfold asec2rad; norm_num
  unfold computePrecession
  simp only [precessionFrom_eq]
  refine ((near_rotZ _ _).mul ((near_rotX _ _).mul ((near_rotZ _ _).mul (NearMatrices.refl _) (C35_rot_z _) (C35_rot_x _))
    (C35_rot_x _) ((C35_rot_z _).mul (C35_rot_x _))) (C35_rot_z _) ((C35_rot_x _).mul ((C35_rot_z _).mul (C35_rot_x _)))).mono ?_
  have e : ∀ a b : ℝ, |a * asec2rad - b * asec2rad| = |a - b| * asec2rad := fun a b => by
    rw [← sub_mul, abs_mul, abs_of_nonneg hA]
  have e' : ∀ a b : ℝ, |-(a * asec2rad) - -(b * asec2rad)| = |a - b| * asec2rad := fun a b => by
    rw [← e, abs_sub_comm (a * asec2rad)]; congr 1; ring
  rw [e, e, e']
  have := mul_le_mul_of_nonneg_right (add_le_add (add_le_add h1 h2) h3) hA
  linarith

/-! ### The frames of date -/

theorem near_nutation {t u : SkyTime} {a b k : ℝ} (ht : WithinThirtyCenturies t.tdb) (hu : WithinThirtyCenturies u.tdb)
    (hp : |t.dPsi - u.dPsi| ≤ a * asec2rad) (he : |t.dEps - u.dEps| ≤ b * asec2rad) (hk : |t.tdb - u.tdb| ≤ k) :
    NearMatrices ((120 / 36525 * k + a + b) * asec2rad) t.nutationMatrix u.nutationMatrix ∧
    NearMatrices ((60 / 36525 * k + a) * asec2rad)
      ((rotX (-(t.meanObliquityRadians + t.dEps))).mul t.nutationMatrix)
      ((rotX (-(u.meanObliquityRadians + u.dEps))).mul u.nutationMatrix) := by
  have hA : (0 : ℝ) ≤ asec2rad := by unfold asec2rad; norm_num
  have hm : |t.meanObliquityRadians - u.meanObliquityRadians| ≤ 60 / 36525 * k * asec2rad := by
    unfold SkyTime.meanObliquityRadians
    rw [← sub_mul, abs_mul, abs_of_nonneg hA]
    refine mul_le_mul_of_nonneg_right ((obliquity_change ht hu).trans ?_) hA
    linarith
  have hm' : |-t.meanObliquityRadians - -u.meanObliquityRadians| ≤ 60 / 36525 * k * asec2rad := by
    rw [neg_sub_neg, abs_sub_comm]; exact hm
  constructor
  · unfold SkyTime.nutationMatrix
    simp only [buildNutationMatrix_eq]
    refine ((near_rotX _ _).mul ((near_rotZ _ _).mul (near_rotX _ _) (C35_rot_z _) (C35_rot_x _)) (C35_rot_x _)
      ((C35_rot_z _).mul (C35_rot_x _))).mono ?_
    have := abs_add_le (t.meanObliquityRadians - u.meanObliquityRadians) (t.dEps - u.dEps)
    rw [add_sub_add_comm]
    linarith
  · unfold SkyTime.nutationMatrix
    have e : ∀ x y z : ℝ, (rotX (-y)).mul ((rotX y).mul ((rotZ x).mul (rotX z))) = (rotZ x).mul (rotX z) := by
      intro x y z
      rw [← Mat3.mul_assoc]
      have : (rotX (-y)).mul (rotX y) = Mat3.one := by
        have h := sin_sq_add_cos_sq y
        ext <;> simp [rotX, Mat3.mul, Mat3.transpose, Vec3.dot, Mat3.one] <;> first | linear_combination h | ring
      rw [this, Mat3.one_mul]
    simp only [buildNutationMatrix_eq, e]
    refine ((near_rotZ _ _).mul (near_rotX _ _) (C35_rot_z _) (C35_rot_x _)).mono ?_
    linarith

/-- What a `Time` gives its frames: every `Time` gives some. -/
theorem Time.sky_eq {t : Time ℝ} {series : NutationSeries} {s : SkyTime} (h : t.sky series = some s) :
    t.nutationAnglesRadians series = some (s.dPsi, s.dEps) ∧ t.gast series = some s.gast ∧ s.tdb = t.tdb tdbMinusTt ∧ s.polar = none := by
  unfold Time.sky at h
  cases hn : t.nutationAnglesRadians series with
  | none => rw [hn] at h; simp at h
  | some x =>
    cases hg : t.gast series with
    | none => rw [hn, hg] at h; simp at h
    | some g =>
      rw [hn, hg] at h
      simp only [Option.bind_some, Option.map_some, Option.some.injEq] at h
      subst h
      exact ⟨rfl, rfl, rfl, rfl⟩

/-- Every `Time` has its frames of date. -/
theorem Time.sky_defined (t : Time ℝ) (series : NutationSeries := .iau2000a) : ∃ s, t.sky series = some s := by
  obtain ⟨g, hg, -⟩ := C106_gast_defined t series
  unfold Time.sky
  cases hn : t.nutationAnglesRadians series with
  | none => unfold Time.gast at hg; rw [hn] at hg; simp at hg
  | some x => exact ⟨_, by rw [hg]; rfl⟩

/-- Specification: two times within thirty centuries of J2000, `d` days of UT1 apart, over which TT and TDB advance with UT1 to a
tenth of a percent. -/
structure DaysApart (t u : Time ℝ) (d : ℝ) : Prop where
  clocks : ClocksAgree t u d
  tt : WithinThirtyCenturies t.tt
  tt' : WithinThirtyCenturies u.tt
  tdb : WithinThirtyCenturies (t.tdb tdbMinusTt)
  tdb' : WithinThirtyCenturies (u.tdb tdbMinusTt)

private theorem abs_le_thousandth {x d : ℝ} (h : |x - d| ≤ 0.001 * |d|) : |x| ≤ 1.001 * |d| := by
  have := abs_add_le (x - d) d
  rw [sub_add_cancel] at this
  linarith

private theorem bias_length (v : Vec3) : (icrsToJ2000.mulVec v).length ≤ (1 + 2e-14) * v.length := by
  have h := C35_bias.dot v v
  have h0 := Vec3.length_nonneg v
  have h1 := Vec3.length_nonneg (icrsToJ2000.mulVec v)
  rw [← Vec3.length_sq, ← Vec3.length_sq, abs_le] at h
  nlinarith [h.2]

theorem near_dates {t u : Time ℝ} {d : ℝ} (h : DaysApart t u d) {series : NutationSeries} {s s' : SkyTime}
    (hs : t.sky series = some s) (hs' : u.sky series = some s') :
    NearMatrices ((0.146 * |d|) * asec2rad) (meanEquatorRotation s) (meanEquatorRotation s') ∧
    NearMatrices ((0.53 * |d| + 3e-15) * asec2rad) (trueEquatorRotation s) (trueEquatorRotation s') ∧
    NearMatrices ((0.42 * |d| + 2e-15) * asec2rad) (eclipticRotation s) (eclipticRotation s') := by
  obtain ⟨hn, -, hb, -⟩ := Time.sky_eq hs
  obtain ⟨hn', -, hb', -⟩ := Time.sky_eq hs'
  have hN := (nutation_series h.tt h.tt' hn hn').1
  have hA : (0 : ℝ) ≤ asec2rad := by unfold asec2rad; norm_num
  have h0 := abs_nonneg d
  have k1 : |t.tt - u.tt| ≤ 1.001 * |d| := by rw [abs_sub_comm]; exact abs_le_thousandth h.clocks.tt
  have k2 : |s.tdb - s'.tdb| ≤ 1.001 * |d| := by rw [abs_sub_comm, hb, hb']; exact abs_le_thousandth h.clocks.tdb
  have b1 : |s.dPsi - s'.dPsi| ≤ (0.2711 * |d| + 1e-15) * asec2rad :=
    hN.1.trans (mul_le_mul_of_nonneg_right (by linarith) hA)
  have b2 : |s.dEps - s'.dEps| ≤ (0.1093 * |d| + 1e-15) * asec2rad :=
    hN.2.trans (mul_le_mul_of_nonneg_right (by linarith) hA)
  have w : WithinThirtyCenturies s.tdb := by rw [hb]; exact h.tdb
  have w' : WithinThirtyCenturies s'.tdb := by rw [hb']; exact h.tdb'
  obtain ⟨m1, m2⟩ := near_nutation w w' b1 b2 k2
  have mp : NearMatrices ((0.14591 * |d|) * asec2rad) s.precessionMatrix s'.precessionMatrix := by
    refine (near_precession w w').mono (mul_le_mul_of_nonneg_right ?_ hA)
    linarith
  refine ⟨?_, ?_, ?_⟩
  · refine (mp.mul_right (by positivity) bias_length).mono ?_
    have : 0 ≤ |d| * asec2rad := by positivity
    linarith
  · unfold trueEquatorRotation SkyTime.M Mat3.mul3
    refine ((m1.mul mp (C35_nutation _ _ _).1 (C35_precession _).1).mul_right (by positivity) bias_length).mono ?_
    have : 0 ≤ |d| * asec2rad := by positivity
    linarith
  · unfold eclipticRotation SkyTime.M Mat3.mul3
    rw [← Mat3.mul_assoc, ← Mat3.mul_assoc, ← Mat3.mul_assoc, ← Mat3.mul_assoc]
    refine ((m2.mul mp ((C35_rot_x _).mul (C35_nutation _ _ _).1) (C35_precession _).1).mul_right (by positivity)
      bias_length).mono ?_
    have : 0 ≤ |d| * asec2rad := by positivity
    linarith

private theorem near_angle {m n : Mat3} {e c k D : ℝ} (hm : IsometryUpTo 2e-14 m) (h : NearMatrices ((k * D + e) * asec2rad) m n)
    (hD : 0 ≤ D) (hD' : D ≤ 36525) (hk : 0 < k) (hk' : k ≤ 0.53) (hc : k * 1.01 ≤ c) (he : 0 ≤ e) (he' : e ≤ 3e-15) (v : Vec3) (hv : v ≠ 0) :
    angleBetween (n.mulVec v) (m.mulVec v) ≤ arcseconds (c * D + 2 * e) := by
  have hA : (asec2rad : ℝ) ≤ 4.848136812e-6 := by unfold asec2rad; norm_num
  have hA0 : (0 : ℝ) < asec2rad := by unfold asec2rad; norm_num
  have hl := Vec3.length_pos hv
  have h1 := hm.dot v v
  rw [← Vec3.length_sq, ← Vec3.length_sq, abs_le] at h1
  have hl' : (1 - 2e-14) * v.length ≤ (m.mulVec v).length := by
    by_contra hlt
    push Not at hlt
    have h3 := Vec3.length_nonneg (m.mulVec v)
    have : (m.mulVec v).length ^ 2 ≤ ((1 - 2e-14) * v.length) ^ 2 := pow_le_pow_left₀ h3 hlt.le 2
    have h4 : 0 < v.length ^ 2 := by positivity
    nlinarith [h1.1]
  set x := (k * D + e) * asec2rad with hx
  have hx0 : 0 ≤ x := by positivity
  have hkD : k * D ≤ 0.53 * 36525 := mul_le_mul hk' hD' hD (by norm_num)
  have hx1 : x ≤ 0.0939 := by
    refine (mul_le_mul (add_le_add hkD he') hA hA0.le (by positivity)).trans ?_
    norm_num
  have hb : (m.mulVec v - n.mulVec v).length ≤ x * (1 + 3e-14) * (m.mulVec v).length := by
    refine (h v).trans ?_
    rw [mul_assoc x]
    refine mul_le_mul_of_nonneg_left ?_ hx0
    nlinarith
  have hlm : 0 < (m.mulVec v).length := by nlinarith
  have hp := (parallax_le (p := m.mulVec v) (o := m.mulVec v - n.mulVec v) hb (by nlinarith)).2
  have e1 : sightFrom (m.mulVec v) (m.mulVec v - n.mulVec v) = n.mulVec v := by
    unfold sightFrom; ext <;> simp
  rw [e1, mul_div_assoc, div_self hlm.ne', mul_one] at hp
  refine (hp.trans (Shadow.arcsin_le_cube (by positivity) (by nlinarith))).trans ?_
  have h5 : x * (1 + 3e-14) + (x * (1 + 3e-14)) ^ 3 ≤ x * 1.009 := by
    have : (x * (1 + 3e-14)) ^ 2 ≤ 0.00885 := by
      have : (x * (1 + 3e-14)) ^ 2 ≤ (0.0939 * (1 + 3e-14)) ^ 2 := by gcongr
      refine this.trans ?_
      norm_num
    have e2 : (x * (1 + 3e-14)) ^ 3 = (x * (1 + 3e-14)) ^ 2 * (x * (1 + 3e-14)) := by ring
    rw [e2]
    have h6 : 0 ≤ x * (1 + 3e-14) := by positivity
    have := mul_le_mul_of_nonneg_right this h6
    linarith
  refine h5.trans ?_
  have hs : asec2rad * 1.009 ≤ 1.0095 * π / 648000 := by
    have := pi_gt_d6
    unfold asec2rad
    norm_num at *
    linarith
  unfold arcseconds
  have h7 : x * 1.009 ≤ (k * D + e) * (1.0095 * π / 648000) := by
    rw [hx, mul_assoc]
    exact mul_le_mul_of_nonneg_left hs (by positivity)
  refine h7.trans ?_
  have e3 : (k * D + e) * (1.0095 * π / 648000) = ((k * D + e) * 1.0095) * π / 648000 := by ring
  rw [e3]
  have h8 : (k * D + e) * 1.0095 ≤ c * D + 2 * e := by
    have := mul_le_mul_of_nonneg_right hc hD
    have : 0 ≤ k * D := by positivity
    nlinarith
  gcongr

/-- **C110.** The frames of date turn slowly.  Between two times at most a century apart, the coordinates of a fixed direction in the
mean equator and equinox of date turn by no more than 0.15 arcseconds for each day between them, in the true equator and equinox
of date by no more than 0.54 arcseconds, in the ecliptic frame by no more than 0.43 arcseconds (and 6e-15″ for a constant not being
exact). -/
theorem C110_frames_of_date {t u : Time ℝ} {d : ℝ} (h : DaysApart t u d) (hd : |d| ≤ 36525) {series : NutationSeries} {s s' : SkyTime}
    (hs : t.sky series = some s) (hs' : u.sky series = some s') (v : Vec3) (hv : v ≠ 0) :
    angleBetween (frameXyz meanEquatorFrame s' v) (frameXyz meanEquatorFrame s v) ≤ arcseconds (0.15 * |d|) ∧
    angleBetween (frameXyz trueEquatorFrame s' v) (frameXyz trueEquatorFrame s v) ≤ arcseconds (0.54 * |d| + 6e-15) ∧
    angleBetween (frameXyz eclipticFrame s' v) (frameXyz eclipticFrame s v) ≤ arcseconds (0.43 * |d| + 4e-15) := by
  obtain ⟨h1, h2, h3⟩ := near_dates h hs hs'
  have hF := C35_frames s 0 0 0 0
  have h0 := abs_nonneg d
  refine ⟨?_, ?_, ?_⟩
  · have := near_angle (e := 0) (c := 0.15) hF.1 (by rw [add_zero]; exact h1) h0 hd (by norm_num) (by norm_num) (by norm_num) le_rfl
      (by norm_num) v hv
    rw [mul_zero, add_zero] at this
    exact this
  · have := near_angle (c := 0.54) hF.2.1 h2 h0 hd (by norm_num) (by norm_num) (by norm_num) (by norm_num) (by norm_num) v hv
    norm_num only at this ⊢
    exact this
  · have := near_angle (c := 0.43) hF.2.2.2.2.1 h3 h0 hd (by norm_num) (by norm_num) (by norm_num) (by norm_num) (by norm_num) v hv
    norm_num only at this ⊢
    exact this

/-! ### Places on Earth -/

private theorem turn_gain {g g' d : ℝ} {n : ℤ} (h : |g' - g - 24 * (1.00273790935 * d) - 24 * n| * 3600 ≤ 0.0184 * |d| + 1e-15) :
    ∃ φ, g' * tau / 24 = g * tau / 24 + φ + n * (2 * π) ∧ |φ - angvel * dayS' * d| ≤ 2.09e-6 * |d| + 1e-19 ∧
      |φ| ≤ 6.3004 * |d| + 1e-19 := by
  have hpi := pi_gt_d20
  have hpi' := pi_lt_d20
  set y := g' - g - 24 * (1.00273790935 * d) - 24 * n with hy
  have h0 := abs_nonneg d
  have hy' : |y * (2 * π / 24)| ≤ 1.3382e-6 * |d| + 1e-19 := by
    rw [abs_mul, abs_of_pos (by positivity : 0 < 2 * π / 24)]
    have h1 : |y| ≤ (0.0184 * |d| + 1e-15) / 3600 := by rw [le_div_iff₀ (by norm_num)]; exact h
    have h2 : 2 * π / 24 ≤ 0.2617994 := by linarith
    refine (mul_le_mul h1 h2 (by positivity) (by positivity)).trans ?_
    linarith
  have hw : |(2 * π * 1.00273790935 - angvel * dayS') * d| ≤ 7.5e-7 * |d| := by
    rw [abs_mul]
    refine mul_le_mul_of_nonneg_right ?_ h0
    unfold angvel dayS'
    rw [abs_le]
    constructor <;> norm_num at * <;> linarith
  have e1 : (2 * π * (1.00273790935 * d) + y * (2 * π / 24)) - angvel * dayS' * d =
      (2 * π * 1.00273790935 - angvel * dayS') * d + y * (2 * π / 24) := by ring
  have hdiff : |(2 * π * (1.00273790935 * d) + y * (2 * π / 24)) - angvel * dayS' * d| ≤ 2.09e-6 * |d| + 1e-19 := by
    rw [e1]
    refine (abs_add_le _ _).trans ?_
    linarith
  refine ⟨2 * π * (1.00273790935 * d) + y * (2 * π / 24), ?_, hdiff, ?_⟩
  · rw [hy]
    unfold tau
    ring
  · have h3 := abs_add_le (2 * π * (1.00273790935 * d) + y * (2 * π / 24) - angvel * dayS' * d) (angvel * dayS' * d)
    rw [sub_add_cancel] at h3
    have h4 : |angvel * dayS' * d| ≤ 6.3003874 * |d| := by
      rw [abs_mul]
      refine mul_le_mul_of_nonneg_right ?_ h0
      unfold angvel dayS'
      rw [abs_of_pos (by norm_num)]
      norm_num
    linarith

private theorem rotZ_add (a b : ℝ) (v : Vec3) : (rotZ (a + b)).mulVec v = (rotZ a).mulVec ((rotZ b).mulVec v) := by
  ext <;> simp [rotZ, Mat3.mulVec, Vec3.dot, cos_add, sin_add] <;> ring

private theorem rotZ_turns (a : ℝ) (n : ℤ) : rotZ (a + n * (2 * π)) = rotZ a := by
  unfold rotZ
  rw [cos_add_int_mul_two_pi, sin_add_int_mul_two_pi]

theorem itrs_transpose {s : SkyTime} (h : s.polar = none) (v : Vec3) :
    (itrsRotation s).transpose.mulVec v = s.M.transpose.mulVec ((rotZ (s.gast * tau / 24)).mulVec v) := by
  unfold itrsRotation
  rw [h]
  simp only
  rw [Mat3.transpose_mul, Mat3.mul_mulVec]
  congr 1
  have e : -s.gast * tau / 24 = -(s.gast * tau / 24) := by ring
  rw [e]
  ext <;> simp [rotZ, Mat3.transpose, Mat3.mulVec, Vec3.dot]

/-- **C110.** A place moves with the velocity it reports.  Over `d` days of UT1, a place fixed to the Earth, `p.length` from its
center, gets to where its velocity takes it, but for what the Earth's turning bends its way (the term with `d²`) and for at most 4.7
millionths of its distance a day, the drift of the Earth's axis and equinox, which the velocity leaves out. -/
theorem C110_place_velocity {t u : Time ℝ} {d : ℝ} (h : DaysApart t u d) {series : NutationSeries} {s s' : SkyTime} (hs : t.sky series = some s)
    (hs' : u.sky series = some s') (p : GeoPosition) :
    ((p.at s').1 - (p.at s).1 - d • (p.at s).2).length ≤ (19.85 * d ^ 2 + 4.7e-6 * |d| + 2e-19) * p.itrs.length := by
  obtain ⟨-, hg, -, hn⟩ := Time.sky_eq hs
  obtain ⟨-, hg', -, hn'⟩ := Time.sky_eq hs'
  obtain ⟨-, hM, -⟩ := near_dates h hs hs'
  obtain ⟨n, hgain⟩ := C106_sidereal_gain h.clocks h.tt h.tt' h.tdb h.tdb' hg hg'
  obtain ⟨φ, hφ, hω, hφ'⟩ := turn_gain hgain
  have h0 := abs_nonneg d
  have hA : (asec2rad : ℝ) ≤ 4.848136812e-6 := by unfold asec2rad; norm_num
  have hA0 : (0 : ℝ) ≤ asec2rad := by unfold asec2rad; norm_num
  unfold trueEquatorRotation at hM
  unfold GeoPosition.at itrsPlaceAt
  simp only
  rw [itrs_transpose hn, itrs_transpose hn', itrs_transpose hn, hφ, rotZ_turns, rotZ_add]
  set θ := s.gast * tau / 24
  generalize p.itrs = r
  have hr := Vec3.length_nonneg r
  set q := (rotZ φ).mulVec r with hq
  have hql : q.length = r.length := (C35_rot_z φ).length r
  have e : s'.M.transpose.mulVec ((rotZ θ).mulVec q) - s.M.transpose.mulVec ((rotZ θ).mulVec r) -
      d • s.M.transpose.mulVec ((rotZ θ).mulVec (itrsVelocity r)) =
      (s'.M.transpose.mulVec ((rotZ θ).mulVec q) - s.M.transpose.mulVec ((rotZ θ).mulVec q)) +
      s.M.transpose.mulVec ((rotZ θ).mulVec ((q - r - φ • (⟨-r.y, r.x, 0⟩ : Vec3)) +
        (φ - angvel * dayS' * d) • (⟨-r.y, r.x, 0⟩ : Vec3))) := by
    have e1 : (q - r - φ • (⟨-r.y, r.x, 0⟩ : Vec3)) + (φ - angvel * dayS' * d) • (⟨-r.y, r.x, 0⟩ : Vec3) =
        q - r - d • itrsVelocity r := by
      unfold itrsVelocity
      ext <;> simp <;> ring
    rw [e1, Mat3.mulVec_sub, Mat3.mulVec_sub, Mat3.mulVec_sub, Mat3.mulVec_sub, Mat3.mulVec_smul, Mat3.mulVec_smul]
    ext <;> simp only [Vec3.sub_x, Vec3.sub_y, Vec3.sub_z, Vec3.add_x, Vec3.add_y, Vec3.add_z] <;> ring
  rw [e]
  refine (Vec3.length_add_le _ _).trans ?_
  have b1 := hM.symm.transpose ((rotZ θ).mulVec q)
  rw [(C35_rot_z θ).length, hql] at b1
  have b2 := rotZ_tangent φ r
  rw [← hq] at b2
  have hJ : (⟨-r.y, r.x, 0⟩ : Vec3).length ≤ r.length := by
    unfold Vec3.length
    apply Real.sqrt_le_sqrt
    nlinarith [mul_self_nonneg r.z]
  have b3 : ((φ - angvel * dayS' * d) • (⟨-r.y, r.x, 0⟩ : Vec3)).length ≤ (2.09e-6 * |d| + 1e-19) * r.length := by
    rw [Vec3.length_smul]
    exact mul_le_mul hω hJ (Vec3.length_nonneg _) (by positivity)
  have b4 : φ ^ 2 / 2 ≤ 19.848 * d ^ 2 + 1e-18 * |d| + 1e-38 := by
    have : φ ^ 2 ≤ (6.3004 * |d| + 1e-19) ^ 2 := by
      rw [← sq_abs φ]
      exact pow_le_pow_left₀ (abs_nonneg _) hφ' 2
    have e2 : (6.3004 * |d| + 1e-19) ^ 2 = 6.3004 ^ 2 * d ^ 2 + 2 * 6.3004 * 1e-19 * |d| + 1e-38 := by
      rw [← sq_abs d]; ring
    rw [e2] at this
    nlinarith [sq_nonneg d]
  have b5 : ∀ w : Vec3, (s.M.transpose.mulVec ((rotZ θ).mulVec w)).length ≤ (1 + 2e-14) * w.length := by
    intro w
    have := (isometryUpTo_M s).transpose_length ((rotZ θ).mulVec w)
    rw [(C35_rot_z θ).length, abs_le] at this
    linarith [this.2]
  have b6 := b5 ((q - r - φ • (⟨-r.y, r.x, 0⟩ : Vec3)) + (φ - angvel * dayS' * d) • (⟨-r.y, r.x, 0⟩ : Vec3))
  have b7 := Vec3.length_add_le (q - r - φ • (⟨-r.y, r.x, 0⟩ : Vec3)) ((φ - angvel * dayS' * d) • (⟨-r.y, r.x, 0⟩ : Vec3))
  have b8 : (0.53 * |d| + 3e-15) * asec2rad ≤ 2.5696e-6 * |d| + 2e-20 := by
    refine (mul_le_mul_of_nonneg_left hA (by positivity)).trans ?_
    linarith
  have b9 := mul_le_mul_of_nonneg_right b8 hr
  have c1 := mul_le_mul_of_nonneg_right b4 hr
  have c2 : 0 ≤ d ^ 2 * r.length := by positivity
  have c3 : 0 ≤ |d| * r.length := by positivity
  linarith

theorem place_velocity_length (p : GeoPosition) (s : SkyTime) : (p.at s).2.length ≤ 6.3004 * p.itrs.length := by
  unfold GeoPosition.at itrsPlaceAt
  simp only
  generalize p.itrs = r
  have hr := Vec3.length_nonneg r
  have h := (itrs_up_to s).transpose_length (itrsVelocity r)
  rw [abs_le] at h
  have hJ : (⟨-r.y, r.x, 0 * r.z⟩ : Vec3).length ≤ r.length := by
    unfold Vec3.length
    apply Real.sqrt_le_sqrt
    nlinarith [mul_self_nonneg r.z]
  have hv : (itrsVelocity r).length ≤ 6.3003874 * r.length := by
    unfold itrsVelocity
    rw [Vec3.length_smul]
    refine mul_le_mul ?_ hJ (Vec3.length_nonneg _) (by norm_num)
    unfold angvel dayS'
    rw [abs_of_pos (by norm_num)]
    norm_num
  linarith [h.2]

/-- **C110.** The same by the clock TT, which velocities go by: for two times built from TT, TAI or UTC over which ΔT changes by no more
than 4.1 milliseconds for each day between them, `u.tt - t.tt` days of the reported velocity lead from one position to the other. -/
theorem C110_place_velocity_tt {t u : Time ℝ} (h1 : WithinThirtyCenturies t.tt) (h2 : WithinThirtyCenturies u.tt)
    (h3 : WithinThirtyCenturies (t.tdb tdbMinusTt)) (h4 : WithinThirtyCenturies (u.tdb tdbMinusTt))
    (ht : t.tdbFraction? = none ∧ t.ut1Fraction? = none) (hu : u.tdbFraction? = none ∧ u.ut1Fraction? = none)
    (hd : |u.deltaT - t.deltaT| ≤ 0.0041 * |u.tt - t.tt|) {series : NutationSeries} {s s' : SkyTime}
    (hs : t.sky series = some s) (hs' : u.sky series = some s')
    (p : GeoPosition) :
    ((p.at s').1 - (p.at s).1 - (u.tt - t.tt) • (p.at s).2).length ≤
      (19.86 * (u.tt - t.tt) ^ 2 + 5e-6 * |u.tt - t.tt| + 2e-19) * p.itrs.length := by
  have h0 := abs_nonneg (u.tt - t.tt)
  have hc := C106_clocks_agree h1 ht hu (hd.trans (by linarith))
  have e1 : u.ut1 - t.ut1 = (u.tt - t.tt) - (u.deltaT - t.deltaT) / 86400 := by
    unfold Time.ut1 Time.ut1Fraction
    rw [ht.2, hu.2]
    unfold Time.tt dayS
    ring
  have hv := C110_place_velocity ⟨hc, h1, h2, h3, h4⟩ hs hs' p
  have hl := place_velocity_length p s
  generalize u.ut1 - t.ut1 = d at *
  generalize u.tt - t.tt = x at *
  generalize u.deltaT - t.deltaT = y at *
  have hr := Vec3.length_nonneg p.itrs
  have hx : |d - x| ≤ 4.75e-8 * |x| := by
    have e : d - x = -(y / 86400) := by rw [e1]; ring
    rw [e, abs_neg, abs_div, abs_of_pos (by norm_num : (0 : ℝ) < 86400), div_le_iff₀ (by norm_num)]
    linarith
  have hdx : |d| ≤ (1 + 4.75e-8) * |x| := by
    have := abs_add_le (d - x) x
    rw [sub_add_cancel] at this
    linarith
  have hd2 : d ^ 2 ≤ (1 + 1e-7) * x ^ 2 := by
    rw [← sq_abs d, ← sq_abs x]
    refine (pow_le_pow_left₀ (abs_nonneg d) hdx 2).trans ?_
    nlinarith [sq_nonneg |x|]
  have e : (p.at s').1 - (p.at s).1 - x • (p.at s).2 = ((p.at s').1 - (p.at s).1 - d • (p.at s).2) + (d - x) • (p.at s).2 := by
    ext <;> simp only [Vec3.sub_x, Vec3.sub_y, Vec3.sub_z, Vec3.add_x, Vec3.add_y, Vec3.add_z, Vec3.smul_x, Vec3.smul_y, Vec3.smul_z] <;> ring
  rw [e]
  refine (Vec3.length_add_le _ _).trans ?_
  rw [Vec3.length_smul]
  have b1 := mul_le_mul hx hl (Vec3.length_nonneg _) (by positivity)
  have b2 : (19.85 * d ^ 2 + 4.7e-6 * |d| + 2e-19) ≤ 19.8501 * x ^ 2 + 4.7001e-6 * |x| + 2e-19 := by
    nlinarith [sq_nonneg x]
  have b3 := mul_le_mul_of_nonneg_right b2 hr
  have c1 : 0 ≤ x ^ 2 * p.itrs.length := by positivity
  have c2 : 0 ≤ |x| * p.itrs.length := by positivity
  linarith

/-- **C110.** A place on the wgs84 ellipsoid, no more than 9 km above or below it: over any hundredth of a second or less, it moves with
the velocity it reports to within 0.6 mm/s; and a second later it is within 18 mm of where that velocity takes it. -/
theorem C110_on_the_ground {t u : Time ℝ} (h1 : WithinThirtyCenturies t.tt) (h2 : WithinThirtyCenturies u.tt)
    (h3 : WithinThirtyCenturies (t.tdb tdbMinusTt)) (h4 : WithinThirtyCenturies (u.tdb tdbMinusTt))
    (ht : t.tdbFraction? = none ∧ t.ut1Fraction? = none) (hu : u.tdbFraction? = none ∧ u.ut1Fraction? = none)
    (hd : |u.deltaT - t.deltaT| ≤ 0.0041 * |u.tt - t.tt|) {series : NutationSeries} {s s' : SkyTime}
    (hs : t.sky series = some s) (hs' : u.sky series = some s')
    (lat lon elevation : ℝ) (he : |elevation| ≤ 9000) :
    (let p := wgs84Au.place lat lon elevation
     let miss := ((p.at s').1 - (p.at s).1 - (u.tt - t.tt) • (p.at s).2).length * auM
     let seconds := |u.tt - t.tt| * 86400
     (seconds ≤ 0.01 → miss ≤ 0.0006 * seconds + 1e-11) ∧ (seconds ≤ 1 → miss ≤ 0.018)) := by
  have h := C110_place_velocity_tt h1 h2 h3 h4 ht hu hd hs hs' (wgs84Au.place lat lon elevation)
  have hg : wgs84Au.Proper := ⟨by norm_num [wgs84Au, auM], by norm_num [wgs84Au]⟩
  have ha : (auM : ℝ) = 149597870700 := by unfold auM; norm_num
  have hl : (wgs84Au.place lat lon elevation).itrs.length * auM ≤ 6387137 := by
    have := hg.latlon_length_le (lat / 360 * tau) (lon / 360 * tau) (elevation / auM)
    rw [abs_div, abs_of_pos (by rw [ha]; norm_num : (0 : ℝ) < auM)] at this
    have e : wgs84Au.radius = 6378137 / auM := rfl
    rw [e, ← add_div, le_div_iff₀ (by rw [ha]; norm_num)] at this
    unfold Geoid.place
    simp only
    linarith
  simp only
  generalize u.tt - t.tt = x at *
  generalize wgs84Au.place lat lon elevation = p at *
  have hr := Vec3.length_nonneg p.itrs
  have h0 := abs_nonneg x
  have h5 := mul_le_mul_of_nonneg_right h (by rw [ha]; norm_num : (0 : ℝ) ≤ auM)
  rw [mul_assoc] at h5
  have h6 := mul_le_mul_of_nonneg_left hl (by positivity : 0 ≤ 19.86 * x ^ 2 + 5e-6 * |x| + 2e-19)
  have h7 := h5.trans h6
  rw [← sq_abs x] at h7
  constructor
  · intro hx
    have h8 : |x| ^ 2 ≤ 0.01 / 86400 * |x| := by
      rw [sq]
      refine mul_le_mul_of_nonneg_right ?_ h0
      rw [le_div_iff₀ (by norm_num)]
      exact hx
    refine h7.trans ?_
    have := mul_le_mul_of_nonneg_right h8 (by norm_num : (0 : ℝ) ≤ 19.86 * 6387137)
    linarith
  · intro hx
    have h8 : |x| ≤ 1 / 86400 := by rw [le_div_iff₀ (by norm_num)]; exact hx
    have h9 : |x| ^ 2 ≤ (1 / 86400) ^ 2 := pow_le_pow_left₀ h0 h8 2
    refine h7.trans ?_
    linarith

/-- A time scale whose ΔT never changes, and its time at a Julian date TT. -/
private noncomputable def evenTime (jd : ℝ) : Time ℝ where
  ts := { deltaT := fun _ => 69, leapDates := [], leapOffsets := [], cutoff := none }
  whole := jd
  ttFraction := 0

/-- The hypotheses are met: 2024 January 1 and half a second later. -/
theorem half_second_apart : ∃ (t u : Time ℝ) (s s' : SkyTime), WithinThirtyCenturies t.tt ∧ WithinThirtyCenturies u.tt ∧
    WithinThirtyCenturies (t.tdb tdbMinusTt) ∧ WithinThirtyCenturies (u.tdb tdbMinusTt) ∧
    (t.tdbFraction? = none ∧ t.ut1Fraction? = none) ∧ (u.tdbFraction? = none ∧ u.ut1Fraction? = none) ∧
    |u.deltaT - t.deltaT| ≤ 0.0041 * |u.tt - t.tt| ∧ t.sky = some s ∧ u.sky = some s' ∧
    |u.tt - t.tt| * 86400 = 0.5 ∧ DaysApart t u (u.ut1 - t.ut1) := by
  have w : ∀ jd : ℝ, 2460310.5 ≤ jd → jd ≤ 2460312 → WithinThirtyCenturies jd := by
    intro jd a b
    unfold WithinThirtyCenturies
    rw [abs_le]; constructor <;> linarith
  have tt : ∀ jd, (evenTime jd).tt = jd := fun jd => by simp [evenTime, Time.tt]
  have tdb : ∀ jd : ℝ, 2460310.5 ≤ jd → jd ≤ 2460311.9 → WithinThirtyCenturies ((evenTime jd).tdb tdbMinusTt) := by
    intro jd a b
    have h := C12_within_2ms jd 0 (by rw [abs_le]; constructor <;> linarith)
    rw [abs_lt] at h
    have e : (evenTime jd).tdb tdbMinusTt = jd + tdbMinusTt jd 0 / 86400 := by
      simp [evenTime, Time.tdb, Time.tdbFraction, dayS]
    rw [e]
    unfold WithinThirtyCenturies
    rw [abs_le]; constructor <;> linarith [h.1, h.2]
  obtain ⟨s, hs⟩ := Time.sky_defined (evenTime 2460310.5)
  obtain ⟨s', hs'⟩ := Time.sky_defined (evenTime (2460310.5 + 0.5 / 86400))
  have w1 := w 2460310.5 le_rfl (by norm_num)
  have w2 := w (2460310.5 + 0.5 / 86400) (by norm_num) (by norm_num)
  have w3 := tdb 2460310.5 le_rfl (by norm_num)
  have w4 := tdb (2460310.5 + 0.5 / 86400) (by norm_num) (by norm_num)
  rw [← tt 2460310.5] at w1
  rw [← tt (2460310.5 + 0.5 / 86400)] at w2
  have hd : |(evenTime (2460310.5 + 0.5 / 86400)).deltaT - (evenTime 2460310.5).deltaT| = 0 := by
    simp [Time.deltaT, evenTime]
  refine ⟨_, _, s, s', w1, w2, w3, w4, ⟨rfl, rfl⟩, ⟨rfl, rfl⟩, ?_, hs, hs', ?_,
    C106_clocks_agree w1 ⟨rfl, rfl⟩ ⟨rfl, rfl⟩ (by rw [hd]; positivity), w1, w2, w3, w4⟩
  · rw [hd]; positivity
  · rw [tt, tt, add_sub_cancel_left, abs_of_pos (by norm_num)]
    norm_num

end Skyfield
