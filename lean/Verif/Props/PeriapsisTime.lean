import Verif.Lemmas.TwoBody
import Mathlib.Analysis.Complex.ExponentialBounds

/-
C64: the osculating elements of a body in two-body motion, followed through time.
-/
namespace Skyfield
open Real

namespace TwoBody
variable {mu : ℝ} {r v : ℝ → Vec3}

/-- **C64.** Constant elements: whenever they are taken along a two-body motion, the size, shape and orientation of the
orbit, its distances, its period and its mean motion are the same. -/
theorem _root_.Skyfield.C64_constant (h : TwoBody mu r v) (hm : 0 < mu) (s t : ℝ) :
    let a : Osculating := ⟨r s, v s, mu⟩
    let b : Osculating := ⟨r t, v t, mu⟩
    a.latusRectum = b.latusRectum ∧ a.eccentricity = b.eccentricity ∧ a.inclination = b.inclination ∧
      a.ascendingNode = b.ascendingNode ∧ a.periapsisArgument = b.periapsisArgument ∧
      a.periapsisLongitude = b.periapsisLongitude ∧ a.majorAxis = b.majorAxis ∧ a.minorAxis = b.minorAxis ∧
      a.periapsis = b.periapsis ∧ a.apoapsis = b.apoapsis ∧ a.period = b.period ∧ a.motion = b.motion := by
  intro a b
  have h1 : a.hVec = b.hVec := h.hVec_const s t
  have h2 : a.eVec = b.eVec := h.eVec_const hm s t
  have hp : a.latusRectum = b.latusRectum := h.latus_const s t
  have he : a.eccentricity = b.eccentricity := h.ecc_const hm s t
  have hn : a.nVec = b.nVec := by unfold Osculating.nVec; rw [h1]
  have hi : a.inclination = b.inclination := by unfold Osculating.inclination; rw [h1]
  have hO : a.ascendingNode = b.ascendingNode := by unfold Osculating.ascendingNode; rw [h1, hi]
  have hw : a.periapsisArgument = b.periapsisArgument := by
    have h1' : a.pos.cross a.vel = b.pos.cross b.vel := h1
    unfold Osculating.periapsisArgument argumentOfPeriapsis
    rw [h2, hn, h1']
  have ha : a.majorAxis = b.majorAxis := by unfold Osculating.majorAxis; rw [hp, he]
  refine ⟨hp, he, hi, hO, hw, ?_, ha, ?_, ?_, ?_, ?_, ?_⟩
  · unfold Osculating.periapsisLongitude; rw [hO, hw]
  · unfold Osculating.minorAxis; rw [hp, he]
  · unfold Osculating.periapsis; rw [hp, he]
  · unfold Osculating.apoapsis; rw [hp, he]
  · unfold Osculating.period; rw [ha]
  · unfold Osculating.motion; rw [ha]

end TwoBody

namespace Osculating
variable {o : Osculating}

theorem h_len_sq (hm : 0 < o.mu) : o.hVec.length ^ 2 = o.mu * o.latusRectum := by
  unfold latusRectum semiLatusRectum; field_simp

/-- Position on the ellipse through distance and radial velocity. -/
theorem ellipse_CS (hm : 0 < o.mu) (hh : o.hVec ≠ 0) (he : o.eccentricity = 0 ∨ 1e-15 < o.eccentricity)
    (h1 : o.eccentricity < 1) (hv : cos (o.trueAnomaly / 2) ≠ 0) {al ka : ℝ}
    (hal : al = (1 - o.eccentricity ^ 2) / o.latusRectum) (hka : 0 < ka) (hk : ka ^ 2 = o.mu * al) :
    1 - al * o.pos.length = o.eccentricity * cos o.eccentricAnomaly ∧
      al / ka * o.pos.dot o.vel = o.eccentricity * sin o.eccentricAnomaly := by
  have lp := latusRectum_pos hm hh
  have lh := Vec3.length_pos hh
  have e0 := o.ecc_nonneg
  have hlen := length_mul hm hh he
  have hrv := pos_dot_vel hm hh he
  have h12 : 0 < 1 - o.eccentricity ^ 2 := by nlinarith
  obtain ⟨a1, a2, -, -⟩ := ellipse_anomaly e0 h1 hv hlen
  have a1' : o.pos.length * cos o.trueAnomaly =
      o.latusRectum / (1 - o.eccentricity ^ 2) * (cos o.eccentricAnomaly - o.eccentricity) := a1
  have a2' : o.pos.length * sin o.trueAnomaly = o.latusRectum / √(1 - o.eccentricity ^ 2) * sin o.eccentricAnomaly := a2
  have hs : 0 < √(1 - o.eccentricity ^ 2) := sqrt_pos.2 h12
  have hss : √(1 - o.eccentricity ^ 2) ^ 2 = 1 - o.eccentricity ^ 2 := sq_sqrt h12.le
  have hal0 : 0 < al := by rw [hal]; positivity
  have hap : al * o.latusRectum = 1 - o.eccentricity ^ 2 := by rw [hal]; field_simp
  constructor
  · have b : al * (o.pos.length * cos o.trueAnomaly) = cos o.eccentricAnomaly - o.eccentricity := by
      rw [a1', hal]; field_simp
    have : al * o.pos.length + o.eccentricity * (al * (o.pos.length * cos o.trueAnomaly)) = 1 - o.eccentricity ^ 2 := by
      rw [← hap, ← hlen]; ring
    rw [b] at this
    linear_combination -this
  · have b : o.pos.dot o.vel = o.hVec.length / √(1 - o.eccentricity ^ 2) * (o.eccentricity * sin o.eccentricAnomaly) := by
      apply mul_left_cancel₀ lp.ne'
      rw [hrv, show o.hVec.length * o.pos.length * o.eccentricity * sin o.trueAnomaly =
        o.hVec.length * o.eccentricity * (o.pos.length * sin o.trueAnomaly) by ring, a2']
      field_simp
    have c : o.hVec.length / √(1 - o.eccentricity ^ 2) = ka / al := by
      rw [div_eq_div_iff hs.ne' hal0.ne']
      have q : (o.hVec.length * al) ^ 2 = (ka * √(1 - o.eccentricity ^ 2)) ^ 2 := by
        rw [mul_pow, mul_pow, h_len_sq hm, hk, hss, ← hap]; ring
      exact (pow_left_inj₀ (by positivity) (by positivity) two_ne_zero).1 q
    rw [b, c]; field_simp

theorem half_artanh {T : ℝ} (h : T ^ 2 < 1) :
    cosh (2 * artanh T) * (1 - T ^ 2) = 1 + T ^ 2 ∧ sinh (2 * artanh T) * (1 - T ^ 2) = 2 * T := by
  have hT : T ∈ Set.Ioo (-1 : ℝ) 1 := ⟨by nlinarith, by nlinarith⟩
  have hp : 0 < 1 - T ^ 2 := by linarith
  have hs := sq_sqrt hp.le
  have hs0 := sqrt_pos.2 hp
  rw [cosh_two_mul, sinh_two_mul, cosh_artanh hT, sinh_artanh hT]
  constructor
  · field_simp; rw [hs]
  · field_simp; rw [hs]

/-- The hyperbolic anomaly before it is wrapped: the argument of `normpi` in the code. -/
noncomputable def trueHyperbolic (o : Osculating) : ℝ :=
  2 * artanh (tan (o.trueAnomaly / 2) / √((o.eccentricity + 1) / (o.eccentricity - 1)))

theorem open_cos_ne (hm : 0 < o.mu) (hh : o.hVec ≠ 0) (h1 : 1 ≤ o.eccentricity) : cos (o.trueAnomaly / 2) ≠ 0 := by
  have he : o.eccentricity = 0 ∨ 1e-15 < o.eccentricity := Or.inr (by linarith [show (1e-15 : ℝ) < 1 by norm_num])
  have hlen := length_mul hm hh he
  have lp := latusRectum_pos hm hh
  have lr := Vec3.length_pos (pos_ne hh)
  intro h
  have h2 : cos o.trueAnomaly = -1 := by
    have : cos o.trueAnomaly = 2 * cos (o.trueAnomaly / 2) ^ 2 - 1 := by rw [← cos_two_mul]; congr 1; ring
    rw [this, h]; norm_num
  rw [h2] at hlen
  nlinarith

theorem hyperbola_CS (hm : 0 < o.mu) (hh : o.hVec ≠ 0) (h1 : 1 < o.eccentricity) {al ka : ℝ}
    (hal : al = (1 - o.eccentricity ^ 2) / o.latusRectum) (hka : 0 < ka) (hk : ka ^ 2 = -(o.mu * al)) :
    1 - al * o.pos.length = o.eccentricity * cosh o.trueHyperbolic ∧
      -al / ka * o.pos.dot o.vel = o.eccentricity * sinh o.trueHyperbolic := by
  have he : o.eccentricity = 0 ∨ 1e-15 < o.eccentricity := Or.inr (by linarith [show (1e-15 : ℝ) < 1 by norm_num])
  have lp := latusRectum_pos hm hh
  have lh := Vec3.length_pos hh
  have lr := Vec3.length_pos (pos_ne hh)
  have hlen := length_mul hm hh he
  have hrv := pos_dot_vel hm hh he
  have hsq := h_len_sq hm
  obtain ⟨c1, s1⟩ := half_angle (open_cos_ne hm hh h1.le)
  have hF : o.trueHyperbolic = 2 * artanh (tan (o.trueAnomaly / 2) / √((o.eccentricity + 1) / (o.eccentricity - 1))) := rfl
  set D := tan (o.trueAnomaly / 2) with hD
  set e := o.eccentricity with hedef
  set p := o.latusRectum with hpdef
  have e1 : 0 < e - 1 := by linarith
  have e2 : 0 < e + 1 := by linarith
  set k := √((e + 1) / (e - 1)) with hkd
  have hkp : 0 < k := sqrt_pos.2 (by positivity)
  have hk2 : k ^ 2 = (e + 1) / (e - 1) := sq_sqrt (by positivity)
  have hk2' : k ^ 2 * (e - 1) = e + 1 := by rw [hk2]; field_simp
  have hD2 : 0 < 1 + D ^ 2 := by positivity
  set T := D / k with hT
  have hDT : D = T * k := by rw [hT]; field_simp
  -- the distance through T
  have hr : o.pos.length * ((1 + e) * (1 - T ^ 2)) = p * (1 + D ^ 2) := by
    have : o.pos.length * ((1 + D ^ 2) + e * (cos o.trueAnomaly * (1 + D ^ 2))) = p * (1 + D ^ 2) := by
      linear_combination (1 + D ^ 2) * hlen
    rw [c1] at this
    rw [← this, hDT]
    linear_combination o.pos.length * T ^ 2 * hk2'
  have hTlt : T ^ 2 < 1 := by
    have : 0 < o.pos.length * (1 + e) * (1 - T ^ 2) := by
      have : 0 < p * (1 + D ^ 2) := by positivity
      rw [← hr] at this; linarith
    have := pos_of_mul_pos_right this (by positivity)
    linarith
  obtain ⟨c2, s2⟩ := half_artanh hTlt
  rw [← hF] at c2 s2
  have hT1 : 0 < 1 - T ^ 2 := by linarith
  have hap : al * p = 1 - e ^ 2 := by rw [hal]; field_simp
  have hal0 : al < 0 := by rw [hal]; exact div_neg_of_neg_of_pos (by nlinarith) lp
  constructor
  · apply mul_right_cancel₀ hT1.ne'
    rw [mul_assoc e, c2]
    have : al * (o.pos.length * ((1 + e) * (1 - T ^ 2))) = (1 - e ^ 2) * (1 + D ^ 2) := by rw [hr, ← hap]; ring
    have h3 : al * o.pos.length * (1 - T ^ 2) = (1 - e) * (1 + D ^ 2) := by
      apply mul_right_cancel₀ e2.ne'
      linear_combination this
    rw [hDT] at h3
    linear_combination -h3 + T ^ 2 * hk2'
  · have b : o.pos.dot o.vel * (1 - T ^ 2) = o.hVec.length * e * (2 * T * k) / (1 + e) := by
      rw [eq_div_iff (by positivity)]
      apply mul_left_cancel₀ lp.ne'
      apply mul_right_cancel₀ hD2.ne'
      have : p * (o.pos.dot o.vel * (1 - T ^ 2) * (1 + e)) * (1 + D ^ 2) =
          o.hVec.length * e * (sin o.trueAnomaly * (1 + D ^ 2)) * (o.pos.length * ((1 + e) * (1 - T ^ 2))) := by
        linear_combination (1 - T ^ 2) * (1 + e) * (1 + D ^ 2) * hrv
      rw [this, hr, s1, hDT]; ring
    have c : o.hVec.length * k / (1 + e) = ka / -al := by
      rw [div_eq_div_iff (by positivity) (by linarith)]
      have q : (o.hVec.length * k * -al) ^ 2 = (ka * (1 + e)) ^ 2 := by
        rw [mul_pow, mul_pow, mul_pow, hsq, hk]
        have : al * (p * (k ^ 2)) = -(1 + e) ^ 2 := by
          rw [← mul_assoc, hap]; linear_combination (-(1 + e)) * hk2'
        linear_combination (o.mu * al) * this
      exact (pow_left_inj₀ (mul_nonneg (by positivity) (by linarith)) (by positivity) two_ne_zero).1 q
    apply mul_right_cancel₀ hT1.ne'
    have hne : al ≠ 0 := hal0.ne
    rw [mul_assoc, b, mul_assoc e, s2, show o.hVec.length * e * (2 * T * k) / (1 + e) = e * (2 * T) * (o.hVec.length * k / (1 + e)) by ring, c]
    field_simp

theorem parabola_D (hm : 0 < o.mu) (hh : o.hVec ≠ 0) (h1 : o.eccentricity = 1) :
    o.pos.dot o.vel / o.hVec.length = tan (o.trueAnomaly / 2) := by
  have he : o.eccentricity = 0 ∨ 1e-15 < o.eccentricity := Or.inr (by rw [h1]; norm_num)
  have lp := latusRectum_pos hm hh
  have lh := Vec3.length_pos hh
  have hlen := length_mul hm hh he
  have hrv := pos_dot_vel hm hh he
  obtain ⟨c1, s1⟩ := half_angle (open_cos_ne hm hh h1.ge)
  set D := tan (o.trueAnomaly / 2)
  have hD2 : 0 < 1 + D ^ 2 := by positivity
  rw [h1] at hlen hrv
  rw [div_eq_iff lh.ne']
  apply mul_left_cancel₀ lp.ne'
  apply mul_right_cancel₀ hD2.ne'
  have hr : o.pos.length * 2 = o.latusRectum * (1 + D ^ 2) := by
    have : o.pos.length * ((1 + D ^ 2) + cos o.trueAnomaly * (1 + D ^ 2)) = o.latusRectum * (1 + D ^ 2) := by
      linear_combination (1 + D ^ 2) * hlen
    rw [c1] at this
    linarith
  linear_combination (1 + D ^ 2) * hrv + o.hVec.length * o.pos.length * s1 + o.hVec.length * D * hr

theorem periapsis_eq (o : Osculating) : o.periapsis = o.latusRectum / (1 + o.eccentricity) := by
  have e0 := o.ecc_nonneg
  unfold periapsis periapsisDistance
  split
  · rename_i h1
    have : 1 - o.eccentricity ≠ 0 := fun h => h1 (by linarith)
    rw [show 1 - o.eccentricity ^ 2 = (1 - o.eccentricity) * (1 + o.eccentricity) by ring]
    field_simp
  · rename_i h1; push Not at h1; rw [h1]; norm_num

theorem motion_eq (hm : 0 < o.mu) (hh : o.hVec ≠ 0) (h1 : o.eccentricity ≠ 1) {al ka : ℝ}
    (hal : al = (1 - o.eccentricity ^ 2) / o.latusRectum) (hka : 0 < ka) (hk : ka ^ 2 = o.mu * |al|) :
    o.motion = |al| * ka := by
  have lp := latusRectum_pos hm hh
  have e0 := o.ecc_nonneg
  have hne : 1 - o.eccentricity ^ 2 ≠ 0 := fun h => h1 (by nlinarith)
  have hal0 : 0 < |al| := abs_pos.2 (by rw [hal]; exact div_ne_zero hne lp.ne')
  unfold motion meanMotion majorAxis semiMajorAxis
  rw [if_pos h1]
  simp only
  have : |o.latusRectum / (1 - o.eccentricity ^ 2)| = 1 / |al| := by
    rw [hal, abs_div, abs_div, one_div_div]
  rw [this, sqrt_eq_iff_mul_self_eq (by positivity) (by positivity)]
  field_simp
  linear_combination -hk

end Osculating

/-- `x - e sin x` is strictly increasing for `e < 1`. -/
theorem kepler_left_strictMono {e : ℝ} (h0 : 0 ≤ e) (h1 : e < 1) : StrictMono fun x => x - e * sin x := by
  intro x y hxy
  simp only
  have h2 : |sin y - sin x| ≤ |y - x| := by
    have hd : sin y - sin x = 2 * sin ((y - x) / 2) * cos ((y + x) / 2) := by rw [sin_sub_sin]
    rw [hd, abs_mul, abs_mul]
    have a1 := abs_cos_le_one ((y + x) / 2)
    have a2 := abs_sin_le_abs (x := (y - x) / 2)
    rw [abs_div] at a2
    have : |(2 : ℝ)| = 2 := abs_of_pos two_pos
    rw [this] at a2 ⊢
    nlinarith [abs_nonneg (sin ((y - x) / 2)), abs_nonneg (cos ((y + x) / 2))]
  rw [abs_of_pos (sub_pos.2 hxy)] at h2
  have := (abs_le.1 h2).2
  have h3 : e * (sin y - sin x) < y - x := by
    rcases h0.eq_or_lt with h | h
    · rw [← h]; linarith
    · nlinarith [mul_le_mul_of_nonneg_left this h0]
  linarith

theorem hyperbolic_strictMono {e : ℝ} (h1 : 1 < e) : StrictMono fun x => e * sinh x - x := by
  intro x y hxy
  have a := sinh_sub_id_strictMono hxy
  have b := sinh_lt_sinh.2 hxy
  simp only at *
  nlinarith

namespace TwoBody
variable {mu : ℝ} {r v : ℝ → Vec3}

theorem momentum_ne (h : TwoBody mu r v) {s : ℝ} (hh : (r s).cross (v s) ≠ 0) (t : ℝ) : (r t).cross (v t) ≠ 0 := by
  have : (r t).cross (v t) = (r s).cross (v s) := h.hVec_const t s
  rwa [this]

/-- The scalar equations of the motion with the elements taken at time `s`. -/
theorem scalars_at (h : TwoBody mu r v) (hm : 0 < mu) {s : ℝ} (hh : (r s).cross (v s) ≠ 0) {al : ℝ}
    (ha : al = (1 - (at_ mu r v s).eccentricity ^ 2) / (at_ mu r v s).latusRectum) (t : ℝ) :
    (v t).dot (v t) = 2 * mu / (r t).length - mu * al ∧
      2 * mu * (r t).length - mu * al * (r t).length ^ 2 - (r t).dot (v t) ^ 2 = mu * (at_ mu r v s).latusRectum ∧
      1 - al * (at_ mu r v s).latusRectum = (at_ mu r v s).eccentricity ^ 2 := by
  have := h.scalars hm (h.momentum_ne hh 0) (h.ecc_const hm 0 s) (h.latus_const 0 s) ha t
  exact this.2.2

/-- Ellipses: eccentric anomaly at time `s`, place at time `t`. -/
theorem ellipse_at (h : TwoBody mu r v) (hm : 0 < mu) {s : ℝ} (hh : (r s).cross (v s) ≠ 0)
    (he : (at_ mu r v s).eccentricity = 0 ∨ 1e-15 < (at_ mu r v s).eccentricity) (h1 : (at_ mu r v s).eccentricity < 1)
    (hv : cos ((at_ mu r v s).trueAnomaly / 2) ≠ 0) (t : ℝ) :
    let o := at_ mu r v s
    let al := (1 - o.eccentricity ^ 2) / o.latusRectum
    let ph := o.eccentricAnomaly + o.motion * (t - s) + al / √(mu * al) * (r t).dot (v t) -
      o.eccentricity * sin o.eccentricAnomaly
    1 - al * (r t).length = o.eccentricity * cos ph ∧ al / √(mu * al) * (r t).dot (v t) = o.eccentricity * sin ph := by
  intro o al ph
  have lp : 0 < o.latusRectum := Osculating.latusRectum_pos hm hh
  have e0 := o.ecc_nonneg
  have hal : 0 < al := div_pos (by nlinarith) lp
  have hka : 0 < √(mu * al) := sqrt_pos.2 (by positivity)
  have hk : √(mu * al) ^ 2 = mu * al := sq_sqrt (by positivity)
  have hn := Osculating.motion_eq (o := o) hm hh h1.ne rfl hka (by rw [hk, abs_of_pos hal]; rfl)
  rw [abs_of_pos hal] at hn
  obtain ⟨c1, c2⟩ := Osculating.ellipse_CS (o := o) hm hh he h1 hv rfl hka hk
  have hP := h.ellipse_phase hm hal hka hk (fun t => (h.scalars_at hm hh rfl t).1) s t
  simp only at hP
  change 1 - al * (r s).length = _ at c1
  change al / √(mu * al) * (r s).dot (v s) = _ at c2
  rw [c1, c2] at hP
  have hph : ph = o.eccentricAnomaly + (al * √(mu * al) * (t - s) + al / √(mu * al) * (r t).dot (v t) -
      o.eccentricity * sin o.eccentricAnomaly) := by simp only [ph, hn]; ring
  rw [hph, cos_add, sin_add]
  constructor
  · refine hP.1.trans ?_; ring
  · refine hP.2.trans ?_; ring

theorem eq_of_sin_cos {a b : ℝ} (hc : cos a = cos b) (hs : sin a = sin b) : ∃ k : ℤ, a = b + 2 * π * k := by
  have h1 : cos (a - b) = 1 := by rw [cos_sub, hc, hs]; linarith [sin_sq_add_cos_sq b]
  obtain ⟨k, hk⟩ := (cos_eq_one_iff _).1 h1
  exact ⟨k, by linarith⟩

/-- Uniform circular motion. -/
theorem circle_at (h : TwoBody mu r v) (hm : 0 < mu) {s : ℝ} (hh : (r s).cross (v s) ≠ 0)
    (he : (at_ mu r v s).eccentricity = 0) (t : ℝ) :
    let o := at_ mu r v s
    Turned (poleDir o.ascendingNode o.inclination) (o.motion * (t - s)) (r s) (r t) ∧ (r t).length = o.latusRectum := by
  intro o
  have lp : 0 < o.latusRectum := Osculating.latusRectum_pos hm hh
  have hlen : ∀ t, (r t).length = o.latusRectum := by
    intro t
    have h2 := Osculating.length_mul (o := at_ mu r v t) hm (h.momentum_ne hh t) (Or.inl (by rw [h.ecc_const hm t s, he]))
    rw [h.ecc_const hm t s, he, h.latus_const t s] at h2
    have h3 : (r t).length * (1 + 0 * _) = o.latusRectum := h2
    linarith
  refine ⟨?_, hlen t⟩
  have hal : 0 < 1 / o.latusRectum := by positivity
  have hka : 0 < √(mu * (1 / o.latusRectum)) := sqrt_pos.2 (by positivity)
  have hk : √(mu * (1 / o.latusRectum)) ^ 2 = mu * (1 / o.latusRectum) := sq_sqrt (by positivity)
  have hn := Osculating.motion_eq (o := o) hm hh (by rw [he]; norm_num) (al := 1 / o.latusRectum) (by rw [he]; norm_num) hka
    (by rw [hk, abs_of_pos hal]; rfl)
  rw [abs_of_pos hal] at hn
  have hn2 : o.motion ^ 2 = mu / o.latusRectum ^ 3 := by rw [hn, mul_pow, hk]; field_simp
  have hn0 : 0 < o.motion := by rw [hn]; positivity
  set n := o.motion with hnd
  have hacc : ∀ t, MovesWith v t ((-n ^ 2) • r t) := by
    intro t
    have := h.pull t
    rwa [hlen t, ← hn2] at this
  have dc : ∀ t, HasDerivAt (fun t => cos (n * t)) (-sin (n * t) * n) t := fun t => by
    simpa using ((hasDerivAt_id t).const_mul n).cos
  have ds : ∀ t, HasDerivAt (fun t => sin (n * t)) (cos (n * t) * n) t := fun t => by
    simpa using ((hasDerivAt_id t).const_mul n).sin
  have dnc : ∀ t, HasDerivAt (fun t => -cos (n * t)) (sin (n * t) * n) t := fun t => (dc t).neg.congr_deriv (by ring)
  have cA := const_of_movesWith (a := fun t => cos (n * t) • r t - (sin (n * t) / n) • v t) (fun t => by
    have := (MovesWith.smul (dc t) (h.moves t)).sub (MovesWith.smul ((ds t).div_const n) (hacc t))
    convert this using 1
    ext
    · simp only [Vec3.smul_x, Vec3.add_x, Vec3.sub_x, Vec3.zero_x]; field_simp; ring_nf
    · simp only [Vec3.smul_y, Vec3.add_y, Vec3.sub_y, Vec3.zero_y]; field_simp; ring_nf
    · simp only [Vec3.smul_z, Vec3.add_z, Vec3.sub_z, Vec3.zero_z]; field_simp; ring_nf) s t
  have cB := const_of_movesWith (a := fun t => sin (n * t) • r t - (-cos (n * t) / n) • v t) (fun t => by
    have := (MovesWith.smul (ds t) (h.moves t)).sub (MovesWith.smul ((dnc t).div_const n) (hacc t))
    convert this using 1
    ext
    · simp only [Vec3.smul_x, Vec3.add_x, Vec3.sub_x, Vec3.zero_x]; field_simp; ring_nf
    · simp only [Vec3.smul_y, Vec3.add_y, Vec3.sub_y, Vec3.zero_y]; field_simp; ring_nf
    · simp only [Vec3.smul_z, Vec3.add_z, Vec3.sub_z, Vec3.zero_z]; field_simp; ring_nf) s t
  have q := sin_sq_add_cos_sq (n * t)
  have hrt : r t = cos (n * (t - s)) • r s + (sin (n * (t - s)) / n) • v s := by
    rw [mul_sub, cos_sub, sin_sub]
    rw [Vec3.ext_iff'] at cA cB ⊢
    simp only [Vec3.smul_x, Vec3.add_x, Vec3.sub_x, Vec3.smul_y, Vec3.add_y, Vec3.sub_y, Vec3.smul_z, Vec3.add_z,
      Vec3.sub_z] at cA cB ⊢
    obtain ⟨a1, a2, a3⟩ := cA
    obtain ⟨b1, b2, b3⟩ := cB
    refine ⟨?_, ?_, ?_⟩
    · linear_combination (-cos (n * t)) * a1 - sin (n * t) * b1 - (r t).x * q
    · linear_combination (-cos (n * t)) * a2 - sin (n * t) * b2 - (r t).y * q
    · linear_combination (-cos (n * t)) * a3 - sin (n * t) * b3 - (r t).z * q
  -- the pole turns the position into the direction of the velocity
  have hperp : (r s).dot (v s) = 0 := by
    have h2 := Osculating.pos_dot_vel (o := o) hm hh (Or.inl he)
    rw [he] at h2
    have h3 : o.latusRectum * (r s).dot (v s) = 0 := by rw [show (r s).dot (v s) = o.pos.dot o.vel from rfl, h2]; ring
    exact (mul_eq_zero.1 h3).resolve_left lp.ne'
  have lh := Vec3.length_pos (show o.hVec ≠ 0 from hh)
  have hl2 := Osculating.h_len_sq (o := o) hm
  have hnh : n * o.latusRectum ^ 2 = o.hVec.length := by
    refine (pow_left_inj₀ (by positivity) lh.le two_ne_zero).1 ?_
    rw [hl2, mul_pow, hn2]
    show _ = mu * o.latusRectum
    field_simp
  have hcr : (poleDir o.ascendingNode o.inclination).cross (r s) = (1 / n) • v s := by
    have e1 : o.hVec.cross (r s) = (r s).dot (r s) • v s := by
      have hp' := hperp
      have : o.hVec = (r s).cross (v s) := rfl
      rw [this]
      simp only [Vec3.dot] at hp' ⊢
      ext
      · simp only [Vec3.cross, Vec3.smul_x]; linear_combination (-(r s).x) * hp'
      · simp only [Vec3.cross, Vec3.smul_y]; linear_combination (-(r s).y) * hp'
      · simp only [Vec3.cross, Vec3.smul_z]; linear_combination (-(r s).z) * hp'
    have e2 : o.hVec.cross (r s) = o.hVec.length • (poleDir o.ascendingNode o.inclination).cross (r s) := by
      conv_lhs => rw [Osculating.h_eq (o := o) hh]
      ext <;> simp [Vec3.cross] <;> ring
    rw [e2, ← Vec3.length_sq, hlen s, ← hnh, Vec3.ext_iff'] at e1
    simp only [Vec3.smul_x, Vec3.smul_y, Vec3.smul_z] at e1
    obtain ⟨x1, x2, x3⟩ := e1
    have hpp : o.latusRectum ^ 2 ≠ 0 := by positivity
    ext
    · simp only [Vec3.smul_x]; rw [one_div, eq_inv_mul_iff_mul_eq₀ hn0.ne']; apply mul_left_cancel₀ hpp; linear_combination x1
    · simp only [Vec3.smul_y]; rw [one_div, eq_inv_mul_iff_mul_eq₀ hn0.ne']; apply mul_left_cancel₀ hpp; linear_combination x2
    · simp only [Vec3.smul_z]; rw [one_div, eq_inv_mul_iff_mul_eq₀ hn0.ne']; apply mul_left_cancel₀ hpp; linear_combination x3
  unfold Turned
  rw [hlen s, hlen t, hcr]
  conv_lhs => rw [hrt]
  ext
  · simp only [Vec3.smul_x, Vec3.add_x]; ring
  · simp only [Vec3.smul_y, Vec3.add_y]; ring
  · simp only [Vec3.smul_z, Vec3.add_z]; ring

/-- **C64.** The mean anomaly runs uniformly: between any two times of an elliptic or circular two-body motion the reported
mean anomaly grows by the reported mean motion times the time passed, up to whole turns.  (The instants of apoapsis, where
the code's tangent has its pole, are excluded.) -/
theorem _root_.Skyfield.C64_mean_anomaly (h : TwoBody mu r v) (hm : 0 < mu) (s t : ℝ) (hh : (r s).cross (v s) ≠ 0) :
    let a : Osculating := ⟨r s, v s, mu⟩
    let b : Osculating := ⟨r t, v t, mu⟩
    a.eccentricity = 0 ∨ 1e-15 < a.eccentricity → a.eccentricity < 1 →
    cos (a.trueAnomaly / 2) ≠ 0 → cos (b.trueAnomaly / 2) ≠ 0 →
    ∃ k : ℤ, b.meanAnomaly = a.meanAnomaly + a.motion * (t - s) + 2 * π * k := by
  intro a b he h1 hva hvb
  have hhb := h.momentum_ne hh t
  have eb : b.eccentricity = a.eccentricity := h.ecc_const hm t s
  have pb : b.latusRectum = a.latusRectum := h.latus_const t s
  have e0 := a.ecc_nonneg
  have lp : 0 < a.latusRectum := Osculating.latusRectum_pos hm hh
  obtain ⟨-, -, -, -, -, -, -, -, ka, hka⟩ := C63_ellipse (o := a) hm hh he h1 hva
  obtain ⟨-, -, -, -, -, -, -, -, kb, hkb⟩ := C63_ellipse (o := b) hm hhb (by rwa [eb]) (by rwa [eb]) hvb
  rw [eb] at hkb
  suffices ∃ k : ℤ, b.eccentricAnomaly - a.eccentricity * sin b.eccentricAnomaly =
      a.eccentricAnomaly - a.eccentricity * sin a.eccentricAnomaly + a.motion * (t - s) + 2 * π * k by
    obtain ⟨k, hk⟩ := this
    refine ⟨k + ka - kb, ?_⟩
    push_cast
    linear_combination hk - hkb + hka
  rcases he with he | he
  · -- the circle
    have hE : ∀ o : Osculating, o.eccentricity = 0 → cos (o.trueAnomaly / 2) ≠ 0 →
        cos o.eccentricAnomaly = cos o.trueAnomaly ∧ sin o.eccentricAnomaly = sin o.trueAnomaly := by
      intro o ho hv
      obtain ⟨x1, x2, -, -⟩ := Osculating.ellipse_anomaly (p := 1) (e := 0) (r := 1) le_rfl one_pos hv (by ring)
      have hE : o.eccentricAnomaly = eccentricAnomalyOf o.trueAnomaly 0 := by unfold Osculating.eccentricAnomaly; rw [ho]
      rw [hE]
      constructor
      · linear_combination -x1
      · simp only [ne_eq, OfNat.ofNat_ne_zero, not_false_eq_true, zero_pow, sub_zero, sqrt_one, div_one, one_mul] at x2
        exact x2.symm
    obtain ⟨a1, a2⟩ := hE a he hva
    obtain ⟨b1, b2⟩ := hE b (eb.trans he) hvb
    have ta := Osculating.turned_circular (o := a) hm hh (Vec3.length_eq_zero.1 he)
    have tb := Osculating.turned_circular (o := b) hm hhb (Vec3.length_eq_zero.1 (eb.trans he))
    obtain ⟨-, -, hi, hO, -⟩ := C64_constant h hm t s
    change b.inclination = a.inclination at hi
    change b.ascendingNode = a.ascendingNode at hO
    rw [hi, hO] at tb
    have tt := turned_trans (pole_unit _ _) (pole_dot_node _ _) (h.away s) ta (h.circle_at hm hh he t).1
    obtain ⟨c1, c2⟩ := turned_unique (node_ne _) (h.away t) (pole_unit _ _) (pole_dot_node _ _) tb tt
    rw [he, zero_mul, zero_mul, sub_zero, sub_zero]
    obtain ⟨k1, hk1⟩ := eq_of_sin_cos a1 a2
    obtain ⟨k2, hk2⟩ := eq_of_sin_cos b1 b2
    obtain ⟨k3, hk3⟩ := eq_of_sin_cos c1 c2
    refine ⟨k2 + k3 - k1, ?_⟩
    push_cast
    change b.trueAnomaly = a.trueAnomaly + a.motion * (t - s) + _ at hk3
    linear_combination hk2 + hk3 - hk1
  · have hal : 0 < (1 - a.eccentricity ^ 2) / a.latusRectum := div_pos (by nlinarith) lp
    have hkap : 0 < √(mu * ((1 - a.eccentricity ^ 2) / a.latusRectum)) := sqrt_pos.2 (by positivity)
    have hk2 := sq_sqrt (show 0 ≤ mu * ((1 - a.eccentricity ^ 2) / a.latusRectum) by positivity)
    obtain ⟨p1, p2⟩ := h.ellipse_at hm hh (Or.inr he) h1 hva t
    obtain ⟨q1, q2⟩ := Osculating.ellipse_CS (o := b) hm hhb (by rw [eb]; exact Or.inr he) (by rwa [eb]) hvb
      (al := (1 - a.eccentricity ^ 2) / a.latusRectum) (by rw [eb, pb]) hkap hk2
    rw [eb] at q1 q2
    have e1 : 0 < a.eccentricity := lt_trans (by norm_num) he
    change 1 - _ * (r t).length = _ at q1
    change _ * (r t).dot (v t) = _ at q2
    have r1 := mul_left_cancel₀ e1.ne' (q1.symm.trans p1)
    have r2 := mul_left_cancel₀ e1.ne' (q2.symm.trans p2)
    obtain ⟨k, hk⟩ := eq_of_sin_cos r1 r2
    refine ⟨k, ?_⟩
    change b.eccentricAnomaly = a.eccentricAnomaly + a.motion * (t - s) + (1 - a.eccentricity ^ 2) / a.latusRectum /
      √(mu * ((1 - a.eccentricity ^ 2) / a.latusRectum)) * (r t).dot (v t) - a.eccentricity * sin a.eccentricAnomaly + _ at hk
    rw [q2] at hk
    linear_combination hk

/-- The mean anomaly of a hyperbola as the code forms it, from the wrapped anomaly. -/
theorem hyperbola_since {o : Osculating} (h1 : 1 < o.eccentricity) (hn : 8.64e-15 ≤ o.motion) :
    o.sincePeriapsis = (o.eccentricity * sinh (normpi o.trueHyperbolic) - normpi o.trueHyperbolic) / o.motion := by
  have hE : o.eccentricAnomaly = normpi o.trueHyperbolic := by
    unfold Osculating.eccentricAnomaly eccentricAnomalyOf
    rw [if_neg (not_lt.2 h1.le), if_pos h1]; rfl
  unfold Osculating.sincePeriapsis timeSincePeriapsis
  rw [if_pos hn, hE]
  unfold meanAnomalyOf
  rw [if_neg (not_lt.2 h1.le), if_pos h1]
  rfl

/-- Hyperbolas: the place at time `t` through the anomaly at time `s`. -/
theorem hyperbola_at (h : TwoBody mu r v) (hm : 0 < mu) {s : ℝ} (hh : (r s).cross (v s) ≠ 0)
    (h1 : 1 < (at_ mu r v s).eccentricity) (t : ℝ) :
    let o := at_ mu r v s
    ∃ F, 1 + (o.eccentricity ^ 2 - 1) / o.latusRectum * (r t).length = o.eccentricity * cosh F ∧
      o.eccentricity * sinh F - F = o.eccentricity * sinh o.trueHyperbolic - o.trueHyperbolic + o.motion * (t - s) ∧
      0 < o.motion ∧ 1 + (o.eccentricity ^ 2 - 1) / o.latusRectum * (r s).length = o.eccentricity * cosh o.trueHyperbolic := by
  intro o
  have lp : 0 < o.latusRectum := Osculating.latusRectum_pos hm hh
  have e0 : 0 < o.eccentricity := one_pos.trans h1
  set al := (1 - o.eccentricity ^ 2) / o.latusRectum with hald
  have hal : al < 0 := div_neg_of_neg_of_pos (by nlinarith [show 1 < o.eccentricity from h1]) lp
  have hka : 0 < √(-(mu * al)) := sqrt_pos.2 (by nlinarith)
  have hk : √(-(mu * al)) ^ 2 = -(mu * al) := sq_sqrt (by nlinarith)
  have hn := Osculating.motion_eq (o := o) hm hh h1.ne' hald hka (by rw [hk, abs_of_neg hal]; show _ = mu * _; ring)
  rw [abs_of_neg hal] at hn
  obtain ⟨c1, c2⟩ := Osculating.hyperbola_CS (o := o) hm hh h1 hald hka hk
  change 1 - al * (r s).length = _ at c1
  change -al / √(-(mu * al)) * (r s).dot (v s) = _ at c2
  have hsc := fun t => h.scalars_at hm hh hald t
  have hC : ∀ t, (1 - al * (r t).length) ^ 2 = o.eccentricity ^ 2 + (-al / √(-(mu * al)) * (r t).dot (v t)) ^ 2 := by
    intro t
    obtain ⟨-, x2, x3⟩ := hsc t
    rw [mul_pow, div_pow, hk]
    have hm' := hm.ne'
    have hal' := hal.ne
    field_simp
    change 1 - al * o.latusRectum = o.eccentricity ^ 2 at x3
    change _ = mu * o.latusRectum at x2
    rw [← x3]
    linear_combination (-al) * x2
  have hP := h.hyperbola_phase hm e0 hal hka hk (fun t => (hsc t).1) hC s t
  simp only at hP
  rw [c2, mul_div_cancel_left₀ _ e0.ne', arsinh_sinh, ← hn] at hP
  set S := -al / √(-(mu * al)) * (r t).dot (v t) with hS
  have hneg : (o.eccentricity ^ 2 - 1) / o.latusRectum = -al := by rw [hald]; ring
  refine ⟨arsinh (S / o.eccentricity), ?_, ?_, by rw [hn]; exact mul_pos (by linarith) hka, by rw [hneg, ← c1]; ring⟩
  · rw [cosh_arsinh, hneg]
    have lr := Vec3.length_pos (h.away t)
    have hCp : 0 < 1 - al * (r t).length := by nlinarith
    have hs : √(1 + (S / o.eccentricity) ^ 2) = (1 - al * (r t).length) / o.eccentricity := by
      rw [sqrt_eq_iff_mul_self_eq (by positivity) (by positivity)]
      have := hC t
      rw [← hS] at this
      field_simp
      linear_combination -this
    rw [hs]; field_simp; ring
  · rw [sinh_arsinh, mul_div_cancel₀ _ e0.ne', hP]

theorem least_distance (h : TwoBody mu r v) (hm : 0 < mu) {t : ℝ} (hh : (r t).cross (v t) ≠ 0)
    (he : (at_ mu r v t).eccentricity = 0 ∨ 1e-15 < (at_ mu r v t).eccentricity) (s : ℝ) :
    (at_ mu r v t).periapsis ≤ (r s).length := by
  have := (C63_apsides (o := at_ mu r v s) hm (h.momentum_ne hh s) (by rwa [h.ecc_const hm s t])).2.1
  rwa [show (at_ mu r v s).periapsis = (at_ mu r v t).periapsis from (C64_constant h hm s t).2.2.2.2.2.2.2.2.1] at this

/-- The distance in terms of hyperbolic anomaly is the periapsis distance only at anomaly zero. -/
theorem hyperbola_periapsis {o : Osculating} {x F : ℝ} (hp : 0 < o.latusRectum) (h1 : 1 < o.eccentricity)
    (hx : 1 + (o.eccentricity ^ 2 - 1) / o.latusRectum * x = o.eccentricity * cosh F) : x = o.periapsis ↔ F = 0 := by
  rw [o.periapsis_eq]
  have e1 : 0 < 1 + o.eccentricity := by linarith
  have e2 : 0 < o.eccentricity ^ 2 - 1 := by nlinarith
  have hx' : x = (o.eccentricity * cosh F - 1) * o.latusRectum / (o.eccentricity ^ 2 - 1) := by
    rw [eq_div_iff e2.ne']
    field_simp at hx
    linear_combination hx
  constructor
  · intro h
    have : cosh F = 1 := by
      rw [hx', div_eq_div_iff e2.ne' e1.ne'] at h
      have h2 : o.eccentricity * (o.latusRectum * (1 + o.eccentricity)) * (cosh F - 1) = 0 := by linear_combination h
      have := (mul_eq_zero.1 h2).resolve_left (by positivity)
      linarith
    have h3 : sinh F ^ 2 = 0 := by have := cosh_sq F; rw [‹cosh F = 1›] at this; linarith
    exact sinh_eq_zero.1 (pow_eq_zero_iff two_ne_zero |>.1 h3)
  · intro h
    rw [hx', h, cosh_zero, div_eq_div_iff e2.ne' e1.ne']; ring

theorem cosh_bound {o : Osculating} {x F B : ℝ} (hp : 0 < o.latusRectum) (h1 : 1 < o.eccentricity)
    (hx : 1 + (o.eccentricity ^ 2 - 1) / o.latusRectum * x = o.eccentricity * cosh F) {a : ℝ} (ha : o.majorAxis = some a) :
    (x < -a * (o.eccentricity * cosh B - 1) ↔ cosh F < cosh B) ∧ (-a * (o.eccentricity * cosh B - 1) < x ↔ cosh B < cosh F) := by
  have e2 : 0 < o.eccentricity ^ 2 - 1 := by nlinarith
  have e1 : 0 < o.eccentricity := by linarith
  unfold Osculating.majorAxis semiMajorAxis at ha
  rw [if_pos h1.ne'] at ha
  injection ha with ha
  have hA : -a = o.latusRectum / (o.eccentricity ^ 2 - 1) := by
    rw [← ha, ← div_neg]; ring_nf
  have hx' : x = -a * (o.eccentricity * cosh F - 1) := by
    rw [hA, div_mul_eq_mul_div, eq_div_iff e2.ne']
    field_simp at hx
    linear_combination hx
  have hApos : 0 < -a := by rw [hA]; positivity
  rw [hx', mul_lt_mul_iff_right₀ hApos, mul_lt_mul_iff_right₀ hApos, sub_lt_sub_iff_right, sub_lt_sub_iff_right,
    mul_lt_mul_iff_right₀ e1, mul_lt_mul_iff_right₀ e1]
  exact ⟨Iff.rfl, Iff.rfl⟩

theorem normpi_of_lt {x : ℝ} (h : |x| < π) : normpi x = x := by
  rw [abs_lt] at h
  have hp := pi_pos
  unfold normpi
  have : pyMod (x + π) tau = x + π := pyMod_unique' _ 0 tau_pos (by linarith)
    (by unfold tau; linarith) (by push_cast; ring)
  rw [this]; ring

/-- **C63.** Hyperbolas: with the reported semi-axes a and b, both negative, and the reported hyperbolic anomaly F, the
position is a(cosh F - e) towards periapsis and -b sinh F ahead of it, as long as the body is closer than
`|a| (e cosh π - 1)`; beyond, the reported anomaly is wrapped (see `C64_hyperbola_wrong`). -/
theorem _root_.Skyfield.C63_hyperbola {o : Osculating} (hm : 0 < o.mu) (hh : o.pos.cross o.vel ≠ 0) (h1 : 1 < o.eccentricity)
    (hnear : ∀ a, o.majorAxis = some a → o.pos.length < -a * (o.eccentricity * cosh π - 1)) :
    ∃ a, o.majorAxis = some a ∧ a < 0 ∧ o.minorAxis < 0 ∧ o.minorAxis ^ 2 = a ^ 2 * (o.eccentricity ^ 2 - 1) ∧
      o.pos = (a * (cosh o.eccentricAnomaly - o.eccentricity)) • planeDir o.ascendingNode o.inclination o.periapsisArgument +
        (-o.minorAxis * sinh o.eccentricAnomaly) •
          planeDir o.ascendingNode o.inclination (o.periapsisArgument + π / 2) := by
  have he : o.eccentricity = 0 ∨ 1e-15 < o.eccentricity := Or.inr (by linarith [show (1e-15 : ℝ) < 1 by norm_num])
  have lp : 0 < o.latusRectum := Osculating.latusRectum_pos hm hh
  have lh := Vec3.length_pos (show o.hVec ≠ 0 from hh)
  have hl2 := Osculating.h_len_sq (o := o) hm
  have e2 : 0 < o.eccentricity ^ 2 - 1 := by nlinarith
  have e1 : 0 < o.eccentricity := by linarith
  have ha : o.majorAxis = some (o.latusRectum / (1 - o.eccentricity ^ 2)) := by
    unfold Osculating.majorAxis semiMajorAxis; rw [if_pos h1.ne']
  have hb : o.minorAxis = o.latusRectum * √(o.eccentricity ^ 2 - 1) / (1 - o.eccentricity ^ 2) := by
    unfold Osculating.minorAxis semiMinorAxis; rw [if_neg (not_lt.2 h1.le), if_pos h1]
  set al := (1 - o.eccentricity ^ 2) / o.latusRectum with hald
  have hal : al < 0 := div_neg_of_neg_of_pos (by nlinarith) lp
  have hka : 0 < √(-(o.mu * al)) := sqrt_pos.2 (by nlinarith)
  have hk : √(-(o.mu * al)) ^ 2 = -(o.mu * al) := sq_sqrt (by nlinarith)
  obtain ⟨c1, c2⟩ := Osculating.hyperbola_CS (o := o) hm hh h1 hald hka hk
  have c1' : 1 + (o.eccentricity ^ 2 - 1) / o.latusRectum * o.pos.length = o.eccentricity * cosh o.trueHyperbolic := by
    rw [← c1, hald]; ring
  have hlt : |o.trueHyperbolic| < |π| := cosh_lt_cosh.1 (((cosh_bound lp h1 c1' ha).1).1 (hnear _ ha))
  rw [abs_of_pos pi_pos] at hlt
  have hE : o.eccentricAnomaly = o.trueHyperbolic := by
    unfold Osculating.eccentricAnomaly eccentricAnomalyOf
    rw [if_neg (not_lt.2 h1.le), if_pos h1]
    exact normpi_of_lt hlt
  have hs := sqrt_pos.2 e2
  have hss := sq_sqrt e2.le
  have hneg : 1 - o.eccentricity ^ 2 < 0 := by linarith
  have hne : 1 - o.eccentricity ^ 2 ≠ 0 := hneg.ne
  refine ⟨_, ha, div_neg_of_pos_of_neg lp hneg, by rw [hb]; exact div_neg_of_pos_of_neg (by positivity) hneg, ?_, ?_⟩
  · rw [hb, div_pow, mul_pow, hss]; field_simp
  · conv_lhs => rw [Osculating.pos_apsidal hm hh he]
    have hlen := Osculating.length_mul hm hh he
    have hrv := Osculating.pos_dot_vel hm hh he
    rw [hE]
    have b1 : o.pos.length * cos o.trueAnomaly =
        o.latusRectum / (1 - o.eccentricity ^ 2) * (cosh o.trueHyperbolic - o.eccentricity) := by
      apply mul_left_cancel₀ e1.ne'
      rw [div_mul_eq_mul_div, mul_div_assoc', eq_div_iff hne]
      rw [hald] at c1
      field_simp at c1
      linear_combination (1 - o.eccentricity ^ 2) * hlen + c1
    have b2 : o.pos.length * sin o.trueAnomaly = -o.minorAxis * sinh o.trueHyperbolic := by
      have hbm : -o.minorAxis = √(-(o.mu * al)) / -al * (o.latusRectum / o.hVec.length) := by
        have hal' : 0 < -al := by linarith
        have hpos : 0 ≤ -o.minorAxis := by
          rw [hb]; exact (neg_pos.2 (div_neg_of_pos_of_neg (by positivity) hneg)).le
        refine (pow_left_inj₀ hpos (by positivity) two_ne_zero).1 ?_
        rw [neg_sq, hb, div_pow, mul_pow, hss, mul_pow, div_pow, div_pow, hk, hl2, neg_sq, hald]
        field_simp
        ring
      rw [hbm]
      have c2' : o.pos.dot o.vel = √(-(o.mu * al)) / -al * (o.eccentricity * sinh o.trueHyperbolic) := by
        rw [← c2]
        have := hal.ne
        field_simp
      rw [c2'] at hrv
      apply mul_left_cancel₀ e1.ne'
      apply mul_left_cancel₀ lh.ne'
      have hx : o.hVec.length * (o.eccentricity * (√(-(o.mu * al)) / -al * (o.latusRectum / o.hVec.length) * sinh o.trueHyperbolic)) =
          o.latusRectum * (√(-(o.mu * al)) / -al * (o.eccentricity * sinh o.trueHyperbolic)) := by
        field_simp
      rw [hx, hrv]; ring
    rw [b1, b2]

/-- Non-vacuity of `C63_hyperbola`: a body at the periapsis of a hyperbola of eccentricity 3. -/
example : let o : Osculating := ⟨⟨1, 0, 0⟩, ⟨0, 0, 2⟩, 1⟩
    0 < o.mu ∧ o.pos.cross o.vel ≠ 0 ∧ 1 < o.eccentricity ∧
      ∀ a, o.majorAxis = some a → o.pos.length < -a * (o.eccentricity * cosh π - 1) := by
  have h1 : (⟨1, 0, 0⟩ : Vec3).length = 1 := by unfold Vec3.length; norm_num
  have hh : (⟨1, 0, 0⟩ : Vec3).cross ⟨0, 0, 2⟩ ≠ 0 := fun h => by
    have := congrArg Vec3.y h
    norm_num [Vec3.cross] at this
  intro o
  have hp : o.latusRectum = 4 := by
    unfold Osculating.latusRectum semiLatusRectum
    rw [Vec3.length_sq]
    simp only [o, Osculating.hVec, Vec3.cross, Vec3.dot]; norm_num
  have hs := Osculating.ecc_sq (o := o) one_pos hh
  have e2 : o.eccentricity ^ 2 = 9 := by
    rw [hs, hp]
    simp only [o, h1, Vec3.dot]; norm_num
  have e3 : o.eccentricity = 3 := by
    have := o.ecc_nonneg
    nlinarith
  refine ⟨one_pos, hh, by rw [e3]; norm_num, fun a ha => ?_⟩
  unfold Osculating.majorAxis semiMajorAxis at ha
  rw [if_pos (by rw [e3]; norm_num), hp, e3] at ha
  injection ha with ha
  rw [← ha, e3]
  show (⟨1, 0, 0⟩ : Vec3).length < _
  rw [h1]
  have : 1 < cosh π := one_lt_cosh.2 pi_pos.ne'
  norm_num
  linarith

/-- **C64.** The time of periapsis: at the reported time the body is exactly at the reported periapsis distance, and it is
never closer.  This holds for ellipses (the passage found is the last one, less than a period ago), parabolas, and
hyperbolas as long as the body is closer than `|a| (e cosh π - 1)`.

Missing, and the reason for the suffix: hyperbolas beyond that distance, where the answer is wrong (`C64_hyperbola_wrong`);
the instant of apoapsis; and orbits of period above about two trillion years, which the code treats as parabolas. -/
theorem _root_.Skyfield.C64_periapsis_time_partial (h : TwoBody mu r v) (hm : 0 < mu) (t : ℝ) (hh : (r t).cross (v t) ≠ 0) :
    let o : Osculating := ⟨r t, v t, mu⟩
    o.eccentricity = 0 ∨ 1e-15 < o.eccentricity →
    (o.eccentricity < 1 → cos (o.trueAnomaly / 2) ≠ 0 ∧ 8.64e-15 ≤ o.motion) →
    (1 < o.eccentricity → 8.64e-15 ≤ o.motion ∧
      ∀ a, o.majorAxis = some a → (r t).length < -a * (o.eccentricity * cosh π - 1)) →
    (r (t - o.sincePeriapsis)).length = o.periapsis ∧ (∀ s, o.periapsis ≤ (r s).length) ∧
      (∀ P, o.period = some P → 0 ≤ o.sincePeriapsis ∧ o.sincePeriapsis < P) := by
  intro o he hel hhy
  have lp : 0 < o.latusRectum := Osculating.latusRectum_pos hm hh
  have e0 := o.ecc_nonneg
  have hq := o.periapsis_eq
  refine ⟨?_, h.least_distance hm hh he, ?_⟩
  · rcases lt_trichotomy o.eccentricity 1 with h1 | h1 | h1
    · obtain ⟨hv, hn⟩ := hel h1
      have hn0 : 0 < o.motion := lt_of_lt_of_le (by norm_num) hn
      obtain ⟨p1, p2⟩ := h.ellipse_at hm hh he h1 hv (t - o.sincePeriapsis)
      obtain ⟨k, hk⟩ := pyMod_eq_sub' (o.eccentricAnomaly - o.eccentricity * sin o.eccentricAnomaly) tau
      have hs : o.motion * o.sincePeriapsis = pyMod (o.eccentricAnomaly - o.eccentricity * sin o.eccentricAnomaly) tau := by
        unfold Osculating.sincePeriapsis timeSincePeriapsis
        rw [if_pos hn, mul_div_cancel₀ _ hn0.ne']
        unfold meanAnomalyOf
        rw [if_pos h1]
      set ph := (at_ mu r v t).eccentricAnomaly + (at_ mu r v t).motion * (t - o.sincePeriapsis - t) +
        (1 - (at_ mu r v t).eccentricity ^ 2) / (at_ mu r v t).latusRectum /
        √(mu * ((1 - (at_ mu r v t).eccentricity ^ 2) / (at_ mu r v t).latusRectum)) *
        (r (t - o.sincePeriapsis)).dot (v (t - o.sincePeriapsis)) -
        (at_ mu r v t).eccentricity * sin (at_ mu r v t).eccentricAnomaly with hph
      change 1 - (1 - o.eccentricity ^ 2) / o.latusRectum * _ = o.eccentricity * cos ph at p1
      rw [p2] at hph
      change ph = o.eccentricAnomaly + o.motion * (t - o.sincePeriapsis - t) + o.eccentricity * sin ph -
        o.eccentricity * sin o.eccentricAnomaly at hph
      have hkey : ph - o.eccentricity * sin ph = (k : ℝ) * (2 * π) - o.eccentricity * sin ((k : ℝ) * (2 * π)) := by
        have : sin ((k : ℝ) * (2 * π)) = 0 := by
          rw [show (k : ℝ) * (2 * π) = ((2 * k : ℤ) : ℝ) * π by push_cast; ring]; exact sin_int_mul_pi _
        rw [this]
        have e : tau = 2 * π := rfl
        rw [hk, e] at hs
        linear_combination hph - hs
      have hphk := (kepler_left_strictMono e0 h1).injective hkey
      have hc : cos ph = 1 := by rw [hphk]; exact cos_int_mul_two_pi k
      rw [hc] at p1
      rw [hq]
      have e1 : 0 < 1 - o.eccentricity := by linarith
      have e2 : 0 < 1 + o.eccentricity := by linarith
      rw [eq_div_iff e2.ne']
      apply mul_left_cancel₀ e1.ne'
      field_simp at p1
      linear_combination -p1
    · have hc := Osculating.parabola_D (o := o) hm hh h1
      have lh := Vec3.length_pos (show o.hVec ≠ 0 from hh)
      have hk := Osculating.h_len_sq (o := o) hm
      have hal : (0 : ℝ) = (1 - o.eccentricity ^ 2) / o.latusRectum := by rw [h1]; norm_num
      have hsc := fun s => h.scalars_at hm hh hal s
      have hr : ∀ s, 2 * (r s).length = o.latusRectum * (1 + ((r s).dot (v s) / o.hVec.length) ^ 2) := by
        intro s
        obtain ⟨-, x2, -⟩ := hsc s
        rw [div_pow, hk]
        show _ = _ * (1 + _ / (mu * _))
        have := hm.ne'
        field_simp
        change _ = mu * o.latusRectum at x2
        linear_combination x2
      have hP := h.parabola_phase hm lp lh hk (fun s => (hsc s).1) hr t (t - o.sincePeriapsis)
      simp only at hP
      set D := (r (t - o.sincePeriapsis)).dot (v (t - o.sincePeriapsis)) / o.hVec.length with hDd
      change (r t).dot (v t) / o.hVec.length = tan (o.trueAnomaly / 2) at hc
      rw [hc] at hP
      have hs : o.sincePeriapsis = √(2 * (o.latusRectum / 2) ^ 3 / mu) *
          (tan (o.trueAnomaly / 2) + tan (o.trueAnomaly / 2) ^ 3 / 3) := by
        have hmz : o.motion = 0 := by
          unfold Osculating.motion Osculating.majorAxis semiMajorAxis
          rw [if_neg (by rw [h1]; simp)]; rfl
        unfold Osculating.sincePeriapsis timeSincePeriapsis
        rw [hmz, if_neg (by norm_num)]
      have hcoef : 2 * mu / (o.latusRectum * o.hVec.length) * √(2 * (o.latusRectum / 2) ^ 3 / mu) = 1 := by
        have hsq : √(2 * (o.latusRectum / 2) ^ 3 / mu) = o.latusRectum * o.hVec.length / (2 * mu) := by
          rw [sqrt_eq_iff_mul_self_eq (by positivity) (by positivity)]
          have hk' : o.hVec.length ^ 2 = mu * o.latusRectum := hk
          field_simp
          rw [hk']; ring_nf
        rw [hsq]; field_simp
      have hD0 : D = 0 := by
        have : D + D ^ 3 / 3 = 0 := by
          rw [hP, hs]
          linear_combination (-(tan (o.trueAnomaly / 2) + tan (o.trueAnomaly / 2) ^ 3 / 3)) * hcoef
        have h3 : D * (3 + D ^ 2) = 0 := by linear_combination 3 * this
        exact (mul_eq_zero.1 h3).resolve_right (by positivity)
      have := hr (t - o.sincePeriapsis)
      rw [← hDd, hD0] at this
      rw [hq, h1]
      linarith
    · obtain ⟨hn, hfar⟩ := hhy h1
      obtain ⟨F, f1, f2, f3, f4⟩ := h.hyperbola_at hm hh h1 (t - o.sincePeriapsis)
      have ha : o.majorAxis = some (o.latusRectum / (1 - o.eccentricity ^ 2)) := by
        unfold Osculating.majorAxis semiMajorAxis; rw [if_pos h1.ne']
      have hlt : |o.trueHyperbolic| < |π| := cosh_lt_cosh.1 (((cosh_bound lp h1 f4 ha).1).1 (hfar _ ha))
      rw [abs_of_pos pi_pos] at hlt
      have hs := hyperbola_since h1 hn
      rw [normpi_of_lt hlt] at hs
      refine (hyperbola_periapsis lp h1 f1).2 ?_
      refine (hyperbolic_strictMono h1).injective ?_
      simp only [sinh_zero, mul_zero, sub_zero]
      refine f2.trans ?_
      change _ + o.motion * (t - o.sincePeriapsis - t) = _
      rw [hs]
      have := f3.ne'
      change o.motion ≠ 0 at this
      change o.eccentricity * sinh o.trueHyperbolic - o.trueHyperbolic + _ = _
      field_simp
      ring
  · intro P hP
    have hper := C63_period (o := o) hm hh
    have h1 : o.eccentricity < 1 := by
      by_contra hc
      rw [hper.2.2 (not_lt.1 hc)] at hP
      cases hP
    obtain ⟨a, -, hP0, -, hnP⟩ := hper.1 P hP
    obtain ⟨hv, hn⟩ := hel h1
    have hn0 : 0 < o.motion := lt_of_lt_of_le (by norm_num) hn
    have hs : o.sincePeriapsis = pyMod (o.eccentricAnomaly - o.eccentricity * sin o.eccentricAnomaly) tau / o.motion := by
      unfold Osculating.sincePeriapsis timeSincePeriapsis
      rw [if_pos hn]
      unfold meanAnomalyOf
      rw [if_pos h1]
    obtain ⟨m1, m2⟩ := pyMod_tau_mem (o.eccentricAnomaly - o.eccentricity * sin o.eccentricAnomaly)
    rw [hs]
    refine ⟨div_nonneg m1 hn0.le, ?_⟩
    rw [div_lt_iff₀ hn0]
    have e : tau = 2 * π := rfl
    linarith

/-- **C64 (negative).** The hyperbolic anomaly is wrapped into a half turn either way although it is not an angle: as soon as
a body on a hyperbola is farther than `|a| (e cosh π - 1)` the reported time of periapsis is not a time of periapsis. -/
theorem _root_.Skyfield.C64_hyperbola_wrong (h : TwoBody mu r v) (hm : 0 < mu) (t : ℝ) (hh : (r t).cross (v t) ≠ 0) :
    let o : Osculating := ⟨r t, v t, mu⟩
    1 < o.eccentricity → 8.64e-15 ≤ o.motion →
    (∀ a, o.majorAxis = some a → -a * (o.eccentricity * cosh π - 1) < (r t).length) →
    (r (t - o.sincePeriapsis)).length ≠ o.periapsis := by
  intro o h1 hn hfar hc
  have lp : 0 < o.latusRectum := Osculating.latusRectum_pos hm hh
  obtain ⟨F, f1, f2, f3, f4⟩ := h.hyperbola_at hm hh h1 (t - o.sincePeriapsis)
  have ha : o.majorAxis = some (o.latusRectum / (1 - o.eccentricity ^ 2)) := by
    unfold Osculating.majorAxis semiMajorAxis; rw [if_pos h1.ne']
  have hlt : |π| < |o.trueHyperbolic| := cosh_lt_cosh.1 (((cosh_bound lp h1 f4 ha).2).1 (hfar _ ha))
  rw [abs_of_pos pi_pos] at hlt
  have hs := hyperbola_since h1 hn
  have hF : F = 0 := (hyperbola_periapsis lp h1 f1).1 hc
  rw [hF, sinh_zero] at f2
  change _ = o.eccentricity * sinh o.trueHyperbolic - o.trueHyperbolic + o.motion * (t - o.sincePeriapsis - t) at f2
  rw [hs] at f2
  have f3' : o.motion ≠ 0 := f3.ne'
  have hEq : o.eccentricity * sinh o.trueHyperbolic - o.trueHyperbolic =
      o.eccentricity * sinh (normpi o.trueHyperbolic) - normpi o.trueHyperbolic := by
    field_simp at f2
    linear_combination -f2
  have := (hyperbolic_strictMono h1).injective hEq
  obtain ⟨n1, n2, -⟩ := normpi_mem o.trueHyperbolic
  rw [← this] at n1 n2
  exact absurd hlt (not_lt.2 (abs_le.2 ⟨n1, n2.le⟩))

/-- Through every state with angular momentum there is a two-body motion: the one the library computes (C45). -/
theorem exists_motion (P V : Vec3) {mu : ℝ} (hm : 0 < mu) (hh : P.cross V ≠ 0) :
    ∃ r v, TwoBody mu r v ∧ r 0 = P ∧ v 0 = V := by
  obtain ⟨X, -, h0, h1, h2⟩ := C45_newton P V mu hm hh
  exact ⟨_, _, ⟨fun t => (h2 t).1, fun t => (h2 t).2.1, fun t => (h2 t).2.2⟩, h0, h1⟩

theorem far_state_facts : let o : Osculating := ⟨⟨100, 0, 0⟩, ⟨1, 1 / 100, 0⟩, 1⟩
    1 < o.eccentricity ∧ 8.64e-15 ≤ o.motion ∧
      ∀ a, o.majorAxis = some a → -a * (o.eccentricity * cosh π - 1) < (⟨100, 0, 0⟩ : Vec3).length := by
  intro o
  have hl : (⟨100, 0, 0⟩ : Vec3).length = 100 := by
    unfold Vec3.length
    rw [show (100 * 100 + 0 * 0 + 0 * 0 : ℝ) = 100 ^ 2 by norm_num, sqrt_sq (by norm_num)]
  have hp : o.latusRectum = 1 := by
    unfold Osculating.latusRectum semiLatusRectum
    rw [Vec3.length_sq]
    simp only [o, Osculating.hVec, Vec3.cross, Vec3.dot]; norm_num
  have hh : o.pos.cross o.vel ≠ 0 := fun h => by
    have := congrArg Vec3.z h
    norm_num [o, Vec3.cross] at this
  have hs := Osculating.ecc_sq (o := o) (by norm_num [o]) hh
  have e2 : o.eccentricity ^ 2 = 19801 / 10000 := by
    rw [hs, hp]
    simp only [o, hl, Vec3.dot]; norm_num
  have e0 := o.ecc_nonneg
  have e1 : 1 < o.eccentricity := by nlinarith
  have e3 : o.eccentricity < 3 / 2 := by nlinarith
  have ha : o.majorAxis = some (-(10000 / 9801)) := by
    unfold Osculating.majorAxis semiMajorAxis
    rw [if_pos e1.ne', hp, e2]; norm_num
  refine ⟨e1, ?_, ?_⟩
  · unfold Osculating.motion meanMotion
    rw [ha]
    simp only
    apply le_sqrt_of_sq_le
    rw [abs_neg, abs_of_pos (by norm_num)]
    norm_num [o]
  · intro a h
    rw [ha] at h
    injection h with h
    rw [← h, hl]
    have hc : cosh π < 28 := by
      have h1 : exp π < exp 4 := exp_lt_exp.2 pi_lt_four
      have h2 : exp 4 < 55 := by
        have : exp 4 = exp 1 ^ 4 := by rw [← exp_nat_mul]; norm_num
        rw [this]
        have hx := exp_one_lt_d9
        have hy := exp_pos 1
        have : exp 1 ^ 4 < (2.7182818286 : ℝ) ^ 4 := pow_lt_pow_left₀ hx hy.le (by norm_num)
        linarith [show (2.7182818286 : ℝ) ^ 4 < 55 by norm_num]
      have h3 : exp (-π) < 1 := by rw [exp_lt_one_iff]; linarith [pi_pos]
      rw [cosh_eq]; linarith
    have hc0 := one_le_cosh π
    nlinarith

/-- **C64 (negative), instance.** There is a hyperbolic two-body motion and a time from which the reported periapsis time is
wrong, so the hypothesis on the distance in `C64_periapsis_time_partial` cannot be dropped. -/
theorem _root_.Skyfield.C64_periapsis_time_not_always : ∃ (r v : ℝ → Vec3), TwoBody 1 r v ∧
    (r 0).cross (v 0) ≠ 0 ∧ 1 < (⟨r 0, v 0, 1⟩ : Osculating).eccentricity ∧
    (r (0 - (⟨r 0, v 0, 1⟩ : Osculating).sincePeriapsis)).length ≠ (⟨r 0, v 0, 1⟩ : Osculating).periapsis := by
  have hh : (⟨100, 0, 0⟩ : Vec3).cross ⟨1, 1 / 100, 0⟩ ≠ 0 := fun h => by
    have := congrArg Vec3.z h
    norm_num [Vec3.cross] at this
  obtain ⟨r, v, h, h0, h1⟩ := exists_motion ⟨100, 0, 0⟩ ⟨1, 1 / 100, 0⟩ one_pos hh
  obtain ⟨f1, f2, f3⟩ := far_state_facts
  have hh' : (r 0).cross (v 0) ≠ 0 := by rw [h0, h1]; exact hh
  refine ⟨r, v, h, hh', by rw [h0, h1]; exact f1, ?_⟩
  exact C64_hyperbola_wrong h one_pos 0 hh' (by rw [h0, h1]; exact f1) (by rw [h0, h1]; exact f2) (by rw [h0, h1]; exact f3)

/-- Non-vacuity of `C64_constant`, `C64_mean_anomaly` and `C64_periapsis_time_partial`: an ellipse of eccentricity 0.21. -/
example : ∃ (r v : ℝ → Vec3), TwoBody 1 r v ∧ (r 0).cross (v 0) ≠ 0 ∧
    (let o : Osculating := ⟨r 0, v 0, 1⟩
     1e-15 < o.eccentricity ∧ o.eccentricity < 1 ∧ cos (o.trueAnomaly / 2) ≠ 0 ∧ 8.64e-15 ≤ o.motion) := by
  have hh : (⟨1, 0, 0⟩ : Vec3).cross ⟨0, 11 / 10, 0⟩ ≠ 0 := fun h => by
    have := congrArg Vec3.z h
    norm_num [Vec3.cross] at this
  obtain ⟨r, v, h, h0, h1⟩ := exists_motion ⟨1, 0, 0⟩ ⟨0, 11 / 10, 0⟩ one_pos hh
  refine ⟨r, v, h, by rw [h0, h1]; exact hh, ?_⟩
  rw [h0, h1]
  have l1 : (⟨1, 0, 0⟩ : Vec3).length = 1 := by unfold Vec3.length; norm_num
  have l2 : (⟨0, 11 / 10, 0⟩ : Vec3).length ^ 2 = 121 / 100 := by rw [Vec3.length_sq]; norm_num [Vec3.dot]
  have e1 : (⟨⟨1, 0, 0⟩, ⟨0, 11 / 10, 0⟩, 1⟩ : Osculating).eVec = ⟨21 / 100, 0, 0⟩ := by
    unfold Osculating.eVec eccentricityVector
    simp only [l1, l2]
    ext <;> simp [Vec3.dot]
    norm_num
  have he : (⟨⟨1, 0, 0⟩, ⟨0, 11 / 10, 0⟩, 1⟩ : Osculating).eccentricity = 21 / 100 := by
    unfold Osculating.eccentricity
    rw [e1]
    unfold Vec3.length
    rw [show (21 / 100 * (21 / 100) + 0 * 0 + 0 * 0 : ℝ) = (21 / 100) ^ 2 by ring, sqrt_sq (by norm_num)]
  have hp : (⟨⟨1, 0, 0⟩, ⟨0, 11 / 10, 0⟩, 1⟩ : Osculating).latusRectum = 121 / 100 := by
    unfold Osculating.latusRectum semiLatusRectum
    rw [Vec3.length_sq]
    simp only [Osculating.hVec, Vec3.cross, Vec3.dot]; norm_num
  refine ⟨by rw [he]; norm_num, by rw [he]; norm_num, ?_, ?_⟩
  · rw [Osculating.trueAnomaly_at_periapsis (k := 21 / 100) (by norm_num) (by rw [e1]; ext <;> simp)
      (fun h => by have := congrArg Vec3.x h; simp at this) (by simp [Vec3.dot]) (by rw [he]; norm_num) (by rw [he]; norm_num)]
    simp
  · unfold Osculating.motion meanMotion Osculating.majorAxis semiMajorAxis
    rw [if_pos (by rw [he]; norm_num), hp, he]
    simp only
    apply le_sqrt_of_sq_le
    rw [abs_of_pos (by norm_num)]
    norm_num

end TwoBody
end Skyfield
