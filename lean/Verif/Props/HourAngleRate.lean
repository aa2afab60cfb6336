import Verif.Props.EarthMotion
import Verif.Props.Horizon

/-
C112: hour angles advance at the sidereal rate.
-/
namespace Skyfield
open _root_.Spec Real

/-- Specification: the direction of a vector, as a vector of length one. -/
noncomputable def Vec3.direction (v : Vec3) : Vec3 := (1 / v.length) • v

theorem Vec3.direction_length {v : Vec3} (hv : v ≠ 0) : v.direction.length = 1 := by
  have := Vec3.length_pos hv
  unfold Vec3.direction
  rw [Vec3.length_smul_of_nonneg (by positivity)]
  field_simp

theorem Vec3.smul_direction {v : Vec3} (hv : v ≠ 0) : v = v.length • v.direction := by
  have := Vec3.length_pos hv
  unfold Vec3.direction
  ext <;> simp <;> field_simp

/-- Two vectors cannot be close unless their longitudes are: away from the poles. -/
private theorem chord_bound (a b c c' L L' : ℝ) (ha : 0 ≤ a * c) (hb : 0 ≤ b * c') {p q : Vec3}
    (px : p.x = a * c * cos L) (py : p.y = a * c * sin L) (qx : q.x = b * c' * cos L') (qy : q.y = b * c' * sin L') :
    4 * (a * c) * (b * c') * sin ((L' - L) / 2) ^ 2 ≤ (p - q).length ^ 2 := by
  rw [Vec3.length_sq]
  have e : 2 * sin ((L' - L) / 2) ^ 2 = 1 - cos (L' - L) := by
    have := cos_sq_add_sin_sq ((L' - L) / 2)
    have h2 := cos_two_mul ((L' - L) / 2)
    rw [show 2 * ((L' - L) / 2) = L' - L by ring] at h2
    linarith
  have e2 : 4 * (a * c) * (b * c') * sin ((L' - L) / 2) ^ 2 = 2 * (a * c) * (b * c') * (1 - cos (L' - L)) := by rw [← e]; ring
  rw [e2, cos_sub]
  have hd : (p - q).dot (p - q) = (p.x - q.x) ^ 2 + (p.y - q.y) ^ 2 + (p.z - q.z) ^ 2 := by
    simp only [Vec3.dot, Vec3.sub_x, Vec3.sub_y, Vec3.sub_z]; ring
  rw [hd, px, py, qx, qy]
  have h1 := cos_sq_add_sin_sq L
  have h2 := cos_sq_add_sin_sq L'
  have key : (a * c * cos L - b * c' * cos L') ^ 2 + (a * c * sin L - b * c' * sin L') ^ 2 + (p.z - q.z) ^ 2 -
      2 * (a * c) * (b * c') * (1 - (cos L' * cos L + sin L' * sin L)) = (a * c - b * c') ^ 2 + (p.z - q.z) ^ 2 := by
    linear_combination (a * c) ^ 2 * h1 + (b * c') ^ 2 * h2
  have := sq_nonneg (a * c - b * c')
  have := sq_nonneg (p.z - q.z)
  linarith

/-- An angle, brought within half a turn, is at most π times the sine of its half. -/
private theorem reduced_le (x : ℝ) : ∃ n : ℤ, |x - 2 * π * n| ≤ π * |sin (x / 2)| := by
  obtain ⟨n, hn⟩ : ∃ n : ℤ, |x - 2 * π * n| ≤ π := by
    refine ⟨round (x / (2 * π)), ?_⟩
    have := abs_sub_round (x / (2 * π))
    have hp := pi_pos
    have e : x - 2 * π * (round (x / (2 * π)) : ℤ) = 2 * π * (x / (2 * π) - (round (x / (2 * π)) : ℤ)) := by field_simp
    rw [e, abs_mul, abs_of_pos (by positivity)]
    nlinarith
  refine ⟨n, ?_⟩
  have hs : |sin (x / 2)| = |sin ((x - 2 * π * n) / 2)| := by
    rw [show (x - 2 * π * n) / 2 = x / 2 - n * π by ring, sin_sub_int_mul_pi, abs_mul]
    rcases Int.even_or_odd n with h | h
    · rw [h.neg_one_zpow]; simp
    · rw [h.neg_one_zpow]; simp
  rw [hs]
  generalize x - 2 * π * n = y at *
  have hy : |sin (y / 2)| = sin (|y| / 2) := by
    rcases le_total 0 y with h | h
    · rw [abs_of_nonneg h] at hn ⊢
      exact abs_of_nonneg (sin_nonneg_of_nonneg_of_le_pi (by linarith) (by linarith))
    · rw [abs_of_nonpos h] at hn ⊢
      rw [show -y / 2 = -(y / 2) by ring, sin_neg]
      exact abs_of_nonpos (sin_nonpos_of_nonpos_of_neg_pi_le (by linarith) (by linarith))
  rw [hy]
  have := mul_le_sin (x := |y| / 2) (by positivity) (by linarith)
  have hp := pi_pos
  have e : 2 / π * (|y| / 2) = |y| / π := by field_simp
  rw [e, div_le_iff₀ hp] at this
  linarith

private theorem frame_length (s : SkyTime) {x : Vec3} : (1 - 2e-14) * x.length ≤ (s.M.mulVec x).length ∧
    (s.M.mulVec x).length ≤ (1 + 2e-14) * x.length := by
  have hm : IsometryUpTo 2e-14 s.M := (C35_frames s 0 0 0 0).2.1
  have h := hm.dot x x
  have h0 := Vec3.length_nonneg x
  have h1 := Vec3.length_nonneg (s.M.mulVec x)
  rw [← Vec3.length_sq, ← Vec3.length_sq, abs_le] at h
  constructor
  · by_contra hlt
    push Not at hlt
    have : (s.M.mulVec x).length ^ 2 < ((1 - 2e-14) * x.length) ^ 2 := pow_lt_pow_left₀ hlt h1 (by norm_num)
    nlinarith [h.1]
  · by_contra hlt
    push Not at hlt
    have : ((1 + 2e-14) * x.length) ^ 2 < (s.M.mulVec x).length ^ 2 := pow_lt_pow_left₀ hlt (by positivity) (by norm_num)
    nlinarith [h.2]

/-- Coordinates of a direction on the true equator and equinox of date. -/
private theorem date_coords (σ : SkyTime) {x : Vec3} (hx : x ≠ 0) :
    (σ.M.mulVec x.direction).x = (σ.M.mulVec x.direction).length * cos (frameLatlon trueEquatorFrame σ x).2.1 *
        cos (frameLatlon trueEquatorFrame σ x).2.2 ∧
      (σ.M.mulVec x.direction).y = (σ.M.mulVec x.direction).length * cos (frameLatlon trueEquatorFrame σ x).2.1 *
        sin (frameLatlon trueEquatorFrame σ x).2.2 ∧
      (σ.M.mulVec x.direction).z = (σ.M.mulVec x.direction).length * sin (frameLatlon trueEquatorFrame σ x).2.1 := by
  obtain ⟨m1, m2, m3⟩ := C36_meaning (σ.M.mulVec x)
  have hl : frameLatlon trueEquatorFrame σ x = toSpherical (σ.M.mulVec x) := rfl
  rw [hl]
  have hpos := Vec3.length_pos hx
  have e : σ.M.mulVec x = x.length • σ.M.mulVec x.direction := by
    rw [← Mat3.mulVec_smul, ← Vec3.smul_direction hx]
  have hl1 : (toSpherical (σ.M.mulVec x)).1 = x.length * (σ.M.mulVec x.direction).length := by
    rw [(C36_range _).1, e, Vec3.length_smul_of_nonneg hpos.le]
  have ex : (σ.M.mulVec x).x = x.length * (σ.M.mulVec x.direction).x := by rw [e]; rfl
  have ey : (σ.M.mulVec x).y = x.length * (σ.M.mulVec x.direction).y := by rw [e]; rfl
  have ez : (σ.M.mulVec x).z = x.length * (σ.M.mulVec x.direction).z := by rw [e]; rfl
  rw [hl1, ex] at m1
  rw [hl1, ey] at m2
  rw [hl1, ez] at m3
  exact ⟨mul_left_cancel₀ hpos.ne' (by rw [m1]; ring), mul_left_cancel₀ hpos.ne' (by rw [m2]; ring),
    mul_left_cancel₀ hpos.ne' (by rw [m3]; ring)⟩

theorem date_dec {σ : SkyTime} (hσ : σ.polar = none) (lon : ℝ) (x : Vec3) :
    (hadec σ lon x).2.1 = (frameLatlon trueEquatorFrame σ x).2.1 := by
  have hrot : (itrsRotation σ).mulVec x = (rotZ (-σ.gast * tau / 24)).mulVec (σ.M.mulVec x) := by
    unfold itrsRotation
    rw [hσ]
    simp only
    rw [Mat3.mul_mulVec]
  have e1 : (hadec σ lon x).2.1 = (toSpherical ((rotZ (-σ.gast * tau / 24)).mulVec (σ.M.mulVec x))).2.1 := by
    unfold hadec; simp only; rw [hrot]
  have e2 : (frameLatlon trueEquatorFrame σ x).2.1 = (toSpherical (σ.M.mulVec x)).2.1 := rfl
  rw [e1, e2]
  generalize σ.M.mulVec x = y
  generalize -σ.gast * tau / 24 = θ
  simp only [toSpherical]
  have hz : ((rotZ θ).mulVec y).z = y.z := by simp [rotZ, Mat3.mulVec, Vec3.dot]
  have hh : hypot ((rotZ θ).mulVec y).x ((rotZ θ).mulVec y).y = hypot y.x y.y := by
    unfold hypot
    congr 1
    simp only [rotZ, Mat3.mulVec, Vec3.dot]
    linear_combination (y.x ^ 2 + y.y ^ 2) * sin_sq_add_cos_sq θ
  rw [hz, hh]

/-- Longitudes of two vectors of about length one. -/
theorem lon_change {p q : Vec3} {δ δ' L L' : ℝ} (hp : 1 - 2e-14 ≤ p.length) (hq : 1 - 2e-14 ≤ q.length)
    (h0 : 0 ≤ cos δ) (h0' : 0 ≤ cos δ')
    (px : p.x = p.length * cos δ * cos L) (py : p.y = p.length * cos δ * sin L) (qx : q.x = q.length * cos δ' * cos L')
    (qy : q.y = q.length * cos δ' * sin L') :
    ∃ m : ℤ, |L' - L - 2 * π * m| * min (cos δ) (cos δ') ≤ 1.5708 * (1 + 3e-14) * (p - q).length := by
  have hch := chord_bound p.length q.length _ _ _ _ (mul_nonneg (Vec3.length_nonneg p) h0)
    (mul_nonneg (Vec3.length_nonneg q) h0') px py qx qy
  obtain ⟨m, hm⟩ := reduced_le (L' - L)
  refine ⟨m, ?_⟩
  have h1 : (1 - 2e-14) * min (cos δ) (cos δ') ≤ p.length * cos δ :=
    mul_le_mul hp (min_le_left _ _) (le_min h0 h0') (Vec3.length_nonneg p)
  have h2 : (1 - 2e-14) * min (cos δ) (cos δ') ≤ q.length * cos δ' :=
    mul_le_mul hq (min_le_right _ _) (le_min h0 h0') (Vec3.length_nonneg q)
  have hcmin0 : 0 ≤ min (cos δ) (cos δ') := le_min h0 h0'
  have h9 := Vec3.length_nonneg (p - q)
  generalize p.length * cos δ = P at *
  generalize q.length * cos δ' = Q at *
  generalize min (cos δ) (cos δ') = c at *
  generalize (p - q).length = D at *
  generalize sin ((L' - L) / 2) = x at *
  have h3 : ((1 - 2e-14) * c) * ((1 - 2e-14) * c) ≤ P * Q := mul_le_mul h1 h2 (by positivity) ((by positivity : (0:ℝ) ≤ (1 - 2e-14) * c).trans h1)
  have h4 := mul_le_mul_of_nonneg_right h3 (by positivity : 0 ≤ 4 * x ^ 2)
  have hsin : |x| * c * (1 - 2e-14) ≤ D / 2 := by
    refine le_of_sq_le_sq ?_ (by positivity)
    have e : (|x| * c * (1 - 2e-14)) ^ 2 = ((1 - 2e-14) * c) * ((1 - 2e-14) * c) * (4 * x ^ 2) / 4 := by
      rw [mul_pow, mul_pow, sq_abs]; ring
    rw [e]
    linarith
  have h10 : |x| * c ≤ D / 2 * (1 + 2.5e-14) := by
    have h11 : 0 ≤ |x| * c := by positivity
    linarith
  have h8 := mul_le_mul_of_nonneg_right hm hcmin0
  have hpi' := pi_lt_d6
  have hpi := pi_pos
  rw [mul_assoc π] at h8
  refine h8.trans ((mul_le_mul_of_nonneg_left h10 hpi.le).trans ?_)
  have : π * (D / 2 * (1 + 2.5e-14)) = (π / 2 * (1 + 2.5e-14)) * D := by ring
  rw [this]
  refine mul_le_mul_of_nonneg_right ?_ h9
  linarith

/-- At the poles the declination's cosine vanishes. -/
private theorem dec_at_pole {s : SkyTime} (hp : s.polar = none) (lon : ℝ) {v : Vec3} (hv : v ≠ 0)
    (h : ¬ ((s.M.mulVec v).x ≠ 0 ∨ (s.M.mulVec v).y ≠ 0)) : cos (hadec s lon v).2.1 = 0 := by
  push Not at h
  have hrot : (itrsRotation s).mulVec v = (rotZ (-s.gast * tau / 24)).mulVec (s.M.mulVec v) := by
    unfold itrsRotation
    rw [hp]
    simp only
    rw [Mat3.mul_mulVec]
  have hx : ((itrsRotation s).mulVec v).x = 0 := by rw [hrot]; simp [rotZ, Mat3.mulVec, Vec3.dot]; simp [Mat3.mulVec, Vec3.dot] at h; rw [h.1, h.2]; ring
  have hy : ((itrsRotation s).mulVec v).y = 0 := by rw [hrot]; simp [rotZ, Mat3.mulVec, Vec3.dot]; simp [Mat3.mulVec, Vec3.dot] at h; rw [h.1, h.2]; ring
  have hne : (itrsRotation s).mulVec v ≠ 0 := by
    intro e
    have h1 := ((C35_frames s 0 0 0 0).2.2.2.1).dot v v
    rw [e] at h1
    have h2 := Vec3.length_pos hv
    have h3 : (0 : Vec3).dot 0 = 0 := by simp [Vec3.dot]
    rw [h3, ← Vec3.length_sq, abs_le] at h1
    nlinarith [h1.1]
  obtain ⟨m1, m2, -⟩ := C36_meaning ((itrsRotation s).mulVec v)
  have hr := (C36_range ((itrsRotation s).mulVec v)).2.1 hne
  rw [hx] at m1
  rw [hy] at m2
  have hd : (hadec s lon v).2.1 = (toSpherical ((itrsRotation s).mulVec v)).2.1 := rfl
  rw [hd]
  generalize toSpherical ((itrsRotation s).mulVec v) = x at *
  have h1 := sin_sq_add_cos_sq x.2.2
  have h2 : (x.1 * cos x.2.1) ^ 2 = 0 := by
    have : (x.1 * cos x.2.1) ^ 2 = (x.1 * cos x.2.1 * cos x.2.2) ^ 2 + (x.1 * cos x.2.1 * sin x.2.2) ^ 2 := by
      linear_combination (-(x.1 * cos x.2.1) ^ 2) * h1
    rw [this, ← m1, ← m2]; ring
  have h3 := pow_eq_zero_iff (two_ne_zero) |>.1 h2
  exact (mul_eq_zero.1 h3).resolve_left hr.ne'

private theorem total_error {x y μ D : ℝ} (hμ : 0 ≤ μ) (hD : 0 ≤ D) (hx : x ≤ 1.34e-6 * D + 1e-19)
    (hy : y ≤ 1.5708 * (1 + 3e-14) * ((1 + 2e-14) * μ + 2.57e-6 * D + 2e-20)) : x + y ≤ 1.5709 * μ + 5.5e-6 * D + 2e-19 := by
  linarith

/-- **C112.** Hour angles advance at the sidereal rate.  Between two times `d` days of UT1 apart, the hour angle that `hadec()` gives for
a target grows by 1.00273790935 turns a day, up to whole turns, to within 5.5 millionths of a radian a day and π/2 times the distance `μ`
its direction has moved on the sky, both divided by the cosine of the declination; and the sine of the declination changes by no more
than `μ` and 2.6 millionths a day. -/
theorem C112_hour_angle_rate {t u : Time ℝ} {d : ℝ} (h : DaysApart t u d) {series : NutationSeries} {s s' : SkyTime}
    (hs : t.sky series = some s) (hs' : u.sky series = some s')
    (lon : ℝ) {v w : Vec3} (hv : v ≠ 0) (hw : w ≠ 0) {μ : ℝ} (hμ : (w.direction - v.direction).length ≤ μ) :
    let a := hadec s lon v
    let b := hadec s' lon w
    (∃ n : ℤ, |b.1 - a.1 - 2 * π * (1.00273790935 * d) - 2 * π * n| * min (cos a.2.1) (cos b.2.1) ≤
      1.5709 * μ + 5.5e-6 * |d| + 2e-19) ∧
    |sin b.2.1 - sin a.2.1| ≤ 1.0001 * μ + 2.6e-6 * |d| + 1e-13 := by
  intro a b
  obtain ⟨-, hg, -, hn⟩ := Time.sky_eq hs
  obtain ⟨-, hg', -, hn'⟩ := Time.sky_eq hs'
  obtain ⟨-, hM, -⟩ := near_dates h hs hs'
  obtain ⟨k, hgain⟩ := C106_sidereal_gain h.clocks h.tt h.tt' h.tdb h.tdb' hg hg'
  have h0 := abs_nonneg d
  have hμ0 : 0 ≤ μ := (Vec3.length_nonneg _).trans hμ
  have hA : (asec2rad : ℝ) ≤ 4.848136812e-6 := by unfold asec2rad; norm_num
  have hA0 : (0 : ℝ) ≤ asec2rad := by unfold asec2rad; norm_num
  set p := s.M.mulVec v.direction with hp
  set q := s'.M.mulVec w.direction with hq
  have hdist : (p - q).length ≤ (1 + 2e-14) * μ + 2.57e-6 * |d| + 2e-20 := by
    have e : p - q = (s.M.mulVec v.direction - s'.M.mulVec v.direction) + s'.M.mulVec (v.direction - w.direction) := by
      rw [Mat3.mulVec_sub]; ext <;> simp [hp, hq]
    rw [e]
    refine (Vec3.length_add_le _ _).trans ?_
    have h1 := hM v.direction
    rw [Vec3.direction_length hv, mul_one] at h1
    have h2 := (frame_length s' (x := v.direction - w.direction)).2
    rw [Vec3.length_sub_comm v.direction] at h2
    have h3 := mul_le_mul_of_nonneg_left hμ (by norm_num : (0:ℝ) ≤ 1 + 2e-14)
    have h4 : (0.53 * |d| + 3e-15) * asec2rad ≤ 2.57e-6 * |d| + 2e-20 := by
      refine (mul_le_mul_of_nonneg_left hA (by positivity)).trans ?_
      linarith
    unfold trueEquatorRotation at h1
    linarith
  have hpl := frame_length s (x := v.direction)
  have hql := frame_length s' (x := w.direction)
  rw [Vec3.direction_length hv, mul_one, mul_one] at hpl
  rw [Vec3.direction_length hw, mul_one, mul_one] at hql
  rw [← hp] at hpl
  rw [← hq] at hql
  obtain ⟨px, py, pz⟩ := date_coords s hv
  obtain ⟨qx, qy, qz⟩ := date_coords s' hw
  rw [← hp] at px py pz
  rw [← hq] at qx qy qz
  have hca : cos a.2.1 = cos (frameLatlon trueEquatorFrame s v).2.1 := by rw [← date_dec hn lon v]
  have hcb : cos b.2.1 = cos (frameLatlon trueEquatorFrame s' w).2.1 := by rw [← date_dec hn' lon w]
  have hsa : sin a.2.1 = sin (frameLatlon trueEquatorFrame s v).2.1 := by rw [← date_dec hn lon v]
  have hsb : sin b.2.1 = sin (frameLatlon trueEquatorFrame s' w).2.1 := by rw [← date_dec hn' lon w]
  have hc0 : ∀ x : Vec3, 0 ≤ cos (toSpherical x).2.1 := fun x =>
    cos_nonneg_of_mem_Icc ⟨by linarith [(abs_le.1 (C36_range x).2.2.1).1], (abs_le.1 (C36_range x).2.2.1).2⟩
  have hca0 : 0 ≤ cos a.2.1 := hc0 _
  have hcb0 : 0 ≤ cos b.2.1 := hc0 _
  constructor
  · by_cases hoff : (s.M.mulVec v).x ≠ 0 ∨ (s.M.mulVec v).y ≠ 0
    swap
    · refine ⟨0, ?_⟩
      have hz : cos a.2.1 = 0 := dec_at_pole hn lon hv hoff
      rw [hz, min_eq_left hcb0, mul_zero]
      positivity
    by_cases hoff' : (s'.M.mulVec w).x ≠ 0 ∨ (s'.M.mulVec w).y ≠ 0
    swap
    · refine ⟨0, ?_⟩
      have hz : cos b.2.1 = 0 := dec_at_pole hn' lon hw hoff'
      rw [hz, min_eq_right hca0, mul_zero]
      positivity
    obtain ⟨i, hi⟩ := (C49_sidereal_minus_ra s lon v hn hoff).1
    obtain ⟨j, hj⟩ := (C49_sidereal_minus_ra s' lon w hn' hoff').1
    obtain ⟨m, h7⟩ := lon_change hpl.1 hql.1 (hca ▸ hca0) (hcb ▸ hcb0) px py qx qy
    rw [← hca, ← hcb] at h7
    have ea : a.1 = lon + s.gast * (2 * π) / 24 - (frameLatlon trueEquatorFrame s v).2.2 - 2 * π * i := hi
    have eb : b.1 = lon + s'.gast * (2 * π) / 24 - (frameLatlon trueEquatorFrame s' w).2.2 - 2 * π * j := hj
    have hcmin0 : 0 ≤ min (cos a.2.1) (cos b.2.1) := le_min hca0 hcb0
    have hc1 : min (cos a.2.1) (cos b.2.1) ≤ 1 := (min_le_left _ _).trans (cos_le_one _)
    generalize min (cos a.2.1) (cos b.2.1) = c at *
    generalize (frameLatlon trueEquatorFrame s v).2.2 = L at *
    generalize (frameLatlon trueEquatorFrame s' w).2.2 = L' at *
    refine ⟨k - j + i - m, ?_⟩
    have hgr : |(s'.gast - s.gast - 24 * (1.00273790935 * d) - 24 * k) * (2 * π / 24)| ≤ 1.34e-6 * |d| + 1e-19 := by
      have hpi' := pi_lt_d6
      have hpi := pi_pos
      rw [abs_mul, abs_of_pos (by positivity : 0 < 2 * π / 24)]
      generalize |s'.gast - s.gast - 24 * (1.00273790935 * d) - 24 * k| = y at hgain ⊢
      have hy : y ≤ (0.0184 * |d| + 1e-15) / 3600 := by rw [le_div_iff₀ (by norm_num)]; exact hgain
      refine (mul_le_mul hy (by linarith : 2 * π / 24 ≤ 0.2618) (by positivity) (by positivity)).trans ?_
      linarith
    have e : b.1 - a.1 - 2 * π * (1.00273790935 * d) - 2 * π * ((k - j + i - m : ℤ) : ℝ) =
        (s'.gast - s.gast - 24 * (1.00273790935 * d) - 24 * k) * (2 * π / 24) - (L' - L - 2 * π * m) := by
      rw [ea, eb]; push_cast; ring
    rw [e]
    have h5 := mul_le_mul_of_nonneg_right (abs_sub ((s'.gast - s.gast - 24 * (1.00273790935 * d) - 24 * k) * (2 * π / 24))
      (L' - L - 2 * π * m)) hcmin0
    refine h5.trans ?_
    rw [add_mul]
    have h6 : |(s'.gast - s.gast - 24 * (1.00273790935 * d) - 24 * k) * (2 * π / 24)| * c ≤ 1.34e-6 * |d| + 1e-19 := by
      refine (mul_le_mul hgr hc1 hcmin0 (by positivity)).trans ?_
      rw [mul_one]
    have h12 := mul_le_mul_of_nonneg_left hdist (by norm_num : (0:ℝ) ≤ 1.5708 * (1 + 3e-14))
    exact total_error hμ0 h0 h6 (h7.trans h12)
  · rw [hsa, hsb]
    have hz : |q.z - p.z| ≤ (p - q).length := by
      rw [Vec3.length_sub_comm]
      have : |(q - p).z| ≤ (q - p).length := by
        refine abs_le_of_sq_le_sq ?_ (Vec3.length_nonneg _)
        rw [Vec3.length_sq]
        simp only [Vec3.dot]
        nlinarith [sq_nonneg (q - p).x, sq_nonneg (q - p).y]
      simpa using this
    rw [pz, qz] at hz
    generalize sin (frameLatlon trueEquatorFrame s v).2.1 = x at *
    generalize hy : sin (frameLatlon trueEquatorFrame s' w).2.1 = y at *
    have hx1 : |x| ≤ 1 := by rw [← hsa]; exact abs_sin_le_one _
    have hy1 : |y| ≤ 1 := by rw [← hsb]; exact abs_sin_le_one _
    have e : y - x = (q.length * y - p.length * x) + (1 - q.length) * y - (1 - p.length) * x := by ring
    rw [e]
    have g1 : |(1 - q.length) * y| ≤ 2e-14 := by
      rw [abs_mul]
      have : |1 - q.length| ≤ 2e-14 := by rw [abs_le]; constructor <;> linarith [hql.1, hql.2]
      nlinarith [abs_nonneg y, abs_nonneg (1 - q.length)]
    have g2 : |(1 - p.length) * x| ≤ 2e-14 := by
      rw [abs_mul]
      have : |1 - p.length| ≤ 2e-14 := by rw [abs_le]; constructor <;> linarith [hpl.1, hpl.2]
      nlinarith [abs_nonneg x, abs_nonneg (1 - p.length)]
    have g3 := abs_sub ((q.length * y - p.length * x) + (1 - q.length) * y) ((1 - p.length) * x)
    have g4 := abs_add_le (q.length * y - p.length * x) ((1 - q.length) * y)
    linarith

/-- **C112.** A star comes back.  A fixed direction has, one sidereal day of 1 / 1.00273790935 days of UT1 later, the same hour angle, up
to whole turns, to within 1.2 arcseconds divided by the cosine of its declination. -/
theorem C112_sidereal_day {t u : Time ℝ} (h : DaysApart t u (1 / 1.00273790935)) {series : NutationSeries} {s s' : SkyTime} (hs : t.sky series = some s)
    (hs' : u.sky series = some s') (lon : ℝ) {v : Vec3} (hv : v ≠ 0) :
    ∃ n : ℤ, |(hadec s' lon v).1 - (hadec s lon v).1 - 2 * π * n| * min (cos (hadec s lon v).2.1) (cos (hadec s' lon v).2.1) ≤
      arcseconds 1.2 := by
  obtain ⟨n, hn⟩ := (C112_hour_angle_rate h hs hs' lon hv hv (μ := 0) (by simp [Vec3.length, sub_self])).1
  refine ⟨n + 1, le_trans (le_of_eq ?_) (hn.trans ?_)⟩
  · congr 2
    push_cast
    ring
  · have := pi_gt_d6
    rw [abs_of_pos (by norm_num)]
    unfold arcseconds
    norm_num at *
    linarith

/-- The hypotheses are met: half a second after the start of 2024, by a target that has moved by a millionth of a radian or so. -/
example : ∃ (t u : Time ℝ) (d : ℝ) (s s' : SkyTime) (v w : Vec3), DaysApart t u d ∧ d ≠ 0 ∧ t.sky = some s ∧ u.sky = some s' ∧ v ≠ 0 ∧
    w ≠ 0 ∧ v ≠ w ∧ (w.direction - v.direction).length ≤ 0.000002 := by
  obtain ⟨t, u, s, s', h1, h2, -, -, ht, hu, hd, hs, hs', h3, h4⟩ := half_second_apart
  have v1 : (⟨1, 0, 0⟩ : Vec3).length = 1 := by simp [Vec3.length]
  have w1 : (⟨1, 0.000001, 0⟩ : Vec3).length = √(1 + 0.000001 ^ 2) := by
    unfold Vec3.length; congr 1; norm_num
  have r1 : 1 ≤ √(1 + 0.000001 ^ 2) := by rw [le_sqrt' (by norm_num)]; norm_num
  have r2 : √(1 + 0.000001 ^ 2) ≤ 1 + 0.000001 ^ 2 := by
    rw [sqrt_le_left (by norm_num)]; norm_num
  refine ⟨t, u, u.ut1 - t.ut1, s, s', ⟨1, 0, 0⟩, ⟨1, 0.000001, 0⟩, h4, ?_, hs, hs', ?_, ?_, ?_, ?_⟩
  · intro e
    have h5 := h4.clocks.tt
    rw [e] at h5
    have h6 : |u.tt - t.tt| ≤ 0 := by simpa using h5
    rw [le_antisymm h6 (abs_nonneg _)] at h3
    norm_num at h3
  · intro e; have := congrArg Vec3.x e; simp at this
  · intro e; have := congrArg Vec3.x e; simp at this
  · intro e; have := congrArg Vec3.y e; norm_num at this
  · unfold Vec3.direction
    rw [v1, w1]
    generalize √(1 + 0.000001 ^ 2) = r at r1 r2
    have hr : 0 < r := by linarith
    have b1 : |1 / r - 1| ≤ 0.000001 := by
      have e : 1 / r - 1 = -((r - 1) / r) := by field_simp; ring
      rw [e, abs_neg, abs_of_nonneg (div_nonneg (by linarith) hr.le), div_le_iff₀ hr]
      norm_num at r2 ⊢
      linarith
    have b2 : |1 / r * 0.000001| ≤ 0.000001 := by
      rw [abs_of_pos (by positivity)]
      have : 1 / r ≤ 1 := by rw [div_le_one hr]; exact r1
      nlinarith
    have hsq : (((1 / r) • (⟨1, 0.000001, 0⟩ : Vec3)) - ((1:ℝ) / 1) • (⟨1, 0, 0⟩ : Vec3)).length =
        √((1 / r - 1) * (1 / r - 1) + (1 / r * 0.000001) * (1 / r * 0.000001)) := by
      unfold Vec3.length; congr 1; simp
    rw [hsq, sqrt_le_left (by norm_num)]
    have c1 : (1 / r - 1) * (1 / r - 1) ≤ 0.000001 ^ 2 := by
      rw [← abs_mul_abs_self (1 / r - 1), sq]; exact mul_le_mul b1 b1 (abs_nonneg _) (by norm_num)
    have c2 : (1 / r * 0.000001) * (1 / r * 0.000001) ≤ 0.000001 ^ 2 := by
      rw [← abs_mul_abs_self (1 / r * 0.000001), sq]; exact mul_le_mul b2 b2 (abs_nonneg _) (by norm_num)
    norm_num at c1 c2 ⊢
    linarith

end Skyfield
