import Verif.Props.Elements
import Verif.Props.Propagate

/-
C63: distances, periods and anomalies of an osculating orbit.
-/
namespace Skyfield
open Real

namespace Osculating
variable {o : Osculating} (hm : 0 < o.mu) (hh : o.pos.cross o.vel ≠ 0) (he : o.eccentricity = 0 ∨ 1e-15 < o.eccentricity)

theorem ecc_nonneg (o : Osculating) : 0 ≤ o.eccentricity := Vec3.length_nonneg _

include hm hh in
/-- The squared eccentricity from the energy: `e² = 1 + 2 ε h² / mu²`. -/
theorem ecc_sq : o.eccentricity ^ 2 = 1 + o.latusRectum * (o.vel.dot o.vel - 2 * o.mu / o.pos.length) / o.mu := by
  have lr := Vec3.length_pos (pos_ne (o := o) hh)
  have h1 := Vec3.length_sq o.pos
  have h2 := Vec3.length_sq o.vel
  have h3 := Vec3.length_sq o.hVec
  have h4 := o.h_dot_h
  unfold eccentricity
  rw [Vec3.length_sq]
  unfold eVec eccentricityVector latusRectum semiLatusRectum
  simp only
  rw [h3, h4]
  simp only [Vec3.smul_dot, Vec3.dot_smul, Vec3.sub_dot, Vec3.dot_sub, h2, Vec3.dot_comm o.vel o.pos, ← h1]
  field_simp
  ring

include hm hh in
/-- **C63.** Size and energy: an orbit has a semi-major axis unless its speed is exactly the escape speed; the axis is positive
for a bound orbit and negative for an unbound one, and speed, distance and axis obey the vis-viva equation. -/
theorem _root_.Skyfield.C63_vis_viva :
    (∀ a, o.majorAxis = some a → o.vel.length ^ 2 = o.mu * (2 / o.pos.length - 1 / a) ∧
      (0 < a ↔ o.eccentricity < 1) ∧ (a < 0 ↔ 1 < o.eccentricity)) ∧
    (o.majorAxis = none ↔ o.vel.length ^ 2 = 2 * o.mu / o.pos.length) := by
  have lr := Vec3.length_pos (pos_ne (o := o) hh)
  have lp := latusRectum_pos hm (o := o) hh
  have hs := ecc_sq hm hh
  have e0 := o.ecc_nonneg
  rw [← Vec3.length_sq] at hs
  constructor
  · intro a ha
    unfold majorAxis semiMajorAxis at ha
    split at ha
    · rename_i h1
      injection ha with ha
      have hne : 1 - o.eccentricity ^ 2 ≠ 0 := by
        intro h
        have : (1 - o.eccentricity) * (1 + o.eccentricity) = 0 := by linear_combination h
        rcases mul_eq_zero.1 this with h | h
        · exact h1 (by linarith)
        · linarith
      refine ⟨?_, ?_, ?_⟩
      · have h2 : 1 / a = (1 - o.eccentricity ^ 2) / o.latusRectum := by rw [← ha, one_div_div]
        rw [h2, hs]
        field_simp
        ring
      · rw [← ha]
        constructor
        · intro h
          by_contra hc
          have : 1 - o.eccentricity ^ 2 ≤ 0 := by nlinarith [not_lt.1 hc]
          exact absurd h (not_lt.2 (div_nonpos_of_nonneg_of_nonpos lp.le this))
        · intro h
          exact div_pos lp (by nlinarith)
      · rw [← ha]
        constructor
        · intro h
          by_contra hc
          have : 0 ≤ 1 - o.eccentricity ^ 2 := by nlinarith [not_lt.1 hc]
          exact absurd h (not_lt.2 (div_nonneg lp.le this))
        · intro h
          exact div_neg_of_pos_of_neg lp (by nlinarith)
    · cases ha
  · have key : o.majorAxis = none ↔ o.eccentricity ^ 2 = 1 := by
      unfold majorAxis semiMajorAxis
      split
      · rename_i h1
        simp only [reduceCtorEq, false_iff]
        intro h
        exact h1 (by nlinarith)
      · rename_i h1
        push Not at h1
        simp [h1]
    rw [key, hs]
    constructor
    · intro h
      have h1 : o.latusRectum * (o.vel.length ^ 2 - 2 * o.mu / o.pos.length) / o.mu = 0 := by linarith
      rw [div_eq_zero_iff] at h1
      rcases h1 with h1 | h1
      · rcases mul_eq_zero.1 h1 with h1 | h1
        · linarith
        · linarith
      · linarith
    · intro h
      rw [h]; simp

/-- **C63.** The period and the mean motion: only bound orbits have a period, it obeys Kepler's third law, and in one
period the mean anomaly goes round once. -/
theorem _root_.Skyfield.C63_period (hm : 0 < o.mu) (hh : o.pos.cross o.vel ≠ 0) :
    (∀ P, o.period = some P → ∃ a, o.majorAxis = some a ∧ 0 < P ∧ P ^ 2 * o.mu = 4 * π ^ 2 * a ^ 3 ∧
      o.motion * P = 2 * π) ∧
    (o.period = none ↔ 1 ≤ o.eccentricity) := by
  have hp := pi_pos
  constructor
  · intro P hP
    unfold period periodOf at hP
    split at hP
    · cases hP
    · rename_i a ha
      split at hP
      · rename_i h0
        injection hP with hP
        have hs : 0 < √(a ^ 3 / o.mu) := sqrt_pos.2 (by positivity)
        refine ⟨a, ha, ?_, ?_, ?_⟩
        · rw [← hP]; exact mul_pos tau_pos hs
        · rw [← hP, mul_pow, sq_sqrt (by positivity), tau]; field_simp; ring
        · unfold motion meanMotion
          rw [ha]
          simp only
          rw [abs_of_pos h0, ← hP]
          have : √(o.mu / a ^ 3) * √(a ^ 3 / o.mu) = 1 := by
            rw [← sqrt_mul (by positivity), show o.mu / a ^ 3 * (a ^ 3 / o.mu) = 1 by field_simp, sqrt_one]
          unfold tau
          linear_combination 2 * π * this
      · cases hP
  · unfold period periodOf
    split
    · rename_i ha
      simp only [true_iff]
      unfold majorAxis semiMajorAxis at ha
      split at ha
      · cases ha
      · rename_i h1; push Not at h1; exact h1.ge
    · rename_i a ha
      have h2 := ((C63_vis_viva hm hh).1 a ha).2.1
      split
      · rename_i h0
        simp only [reduceCtorEq, false_iff, not_le]
        exact h2.1 h0
      · rename_i h0
        simp only [true_iff]
        exact not_lt.1 (fun h => h0 (h2.2 h))

/-- **C63.** The apsides: the periapsis distance is the distance of the point of the orbit at true anomaly zero and no point
of the orbit is closer; for a bound orbit the apoapsis distance is that of the point at a half turn and no point is
farther, and an unbound orbit has none.  The position itself is such a point. -/
theorem _root_.Skyfield.C63_apsides (hm : 0 < o.mu) (hh : o.pos.cross o.vel ≠ 0)
    (he : o.eccentricity = 0 ∨ 1e-15 < o.eccentricity) :
    (∀ v r vel, 0 < 1 + o.eccentricity * cos v →
      eleToVec o.latusRectum o.eccentricity o.inclination o.ascendingNode o.periapsisArgument v o.mu = .state r vel →
      o.periapsis ≤ r.length ∧ (cos v = 1 → r.length = o.periapsis) ∧
      (∀ Q, o.apoapsis = some Q → r.length ≤ Q ∧ (cos v = -1 → r.length = Q))) ∧
    o.periapsis ≤ o.pos.length ∧ (∀ Q, o.apoapsis = some Q → o.pos.length ≤ Q) ∧
    (o.apoapsis = none ↔ 1 ≤ o.eccentricity) := by
  have lp := latusRectum_pos hm (o := o) hh
  have e0 := o.ecc_nonneg
  have hq : o.periapsis = o.latusRectum / (1 + o.eccentricity) := by
    unfold periapsis periapsisDistance
    split
    · rename_i h1
      have : 1 - o.eccentricity ≠ 0 := fun h => h1 (by linarith)
      rw [show 1 - o.eccentricity ^ 2 = (1 - o.eccentricity) * (1 + o.eccentricity) by ring]
      field_simp
    · rename_i h1; push Not at h1; rw [h1]; norm_num
  have hQ : ∀ Q, o.apoapsis = some Q → o.eccentricity < 1 ∧ Q = o.latusRectum / (1 - o.eccentricity) := by
    intro Q h
    unfold apoapsis apoapsisDistance at h
    split at h
    · rename_i h1
      injection h with h
      have : 1 - o.eccentricity ≠ 0 := fun h => by linarith
      refine ⟨h1, ?_⟩
      rw [← h, show 1 - o.eccentricity ^ 2 = (1 - o.eccentricity) * (1 + o.eccentricity) by ring]
      field_simp
    · cases h
  have key : ∀ v r vel, 0 < 1 + o.eccentricity * cos v →
      eleToVec o.latusRectum o.eccentricity o.inclination o.ascendingNode o.periapsisArgument v o.mu = .state r vel →
      o.periapsis ≤ r.length ∧ (cos v = 1 → r.length = o.periapsis) ∧
      (∀ Q, o.apoapsis = some Q → r.length ≤ Q ∧ (cos v = -1 → r.length = Q)) := by
    intro v r vel hd h
    have hl := (C44_position lp hd h).2
    have hc1 := cos_le_one v
    have hc2 := neg_one_le_cos v
    refine ⟨?_, ?_, ?_⟩
    · rw [hq, hl]
      exact div_le_div_of_nonneg_left lp.le hd (by nlinarith)
    · intro h1; rw [hq, hl, h1, mul_one]
    · intro Q hQs
      obtain ⟨h1, hQ'⟩ := hQ Q hQs
      constructor
      · rw [hQ', hl]
        exact div_le_div_of_nonneg_left lp.le (by linarith) (by nlinarith)
      · intro h2; rw [hQ', hl, h2]; ring
  have hlen := length_mul hm hh he
  have hd : 0 < 1 + o.eccentricity * cos o.trueAnomaly := by
    by_contra hc
    have := mul_nonpos_of_nonneg_of_nonpos (Vec3.length_nonneg o.pos) (not_lt.1 hc)
    linarith
  have hp := key _ _ _ hd (C62_round_trip o hm hh he)
  refine ⟨key, hp.1, fun Q hQs => (hp.2.2 Q hQs).1, ?_⟩
  unfold apoapsis apoapsisDistance
  split
  · rename_i h1; simp [h1]
  · rename_i h1; simp [not_lt.1 h1]

/-! ### Anomalies -/

/-- Half-angle formulas. -/
theorem half_angle {v : ℝ} (h : cos (v / 2) ≠ 0) :
    cos v * (1 + tan (v / 2) ^ 2) = 1 - tan (v / 2) ^ 2 ∧ sin v * (1 + tan (v / 2) ^ 2) = 2 * tan (v / 2) := by
  have h1 : cos v = 2 * cos (v / 2) ^ 2 - 1 := by rw [← cos_two_mul]; congr 1; ring
  have h2 : sin v = 2 * sin (v / 2) * cos (v / 2) := by rw [← sin_two_mul]; congr 1; ring
  have h3 := sin_sq_add_cos_sq (v / 2)
  rw [h1, h2, tan_eq_sin_div_cos]
  constructor
  · field_simp; linear_combination (2 * cos (v / 2) ^ 2) * h3
  · field_simp; linear_combination sin (v / 2) * h3

theorem half_arctan (T : ℝ) :
    cos (2 * arctan T) * (1 + T ^ 2) = 1 - T ^ 2 ∧ sin (2 * arctan T) * (1 + T ^ 2) = 2 * T := by
  have h := half_angle (v := 2 * arctan T) (by rw [mul_div_cancel_left₀ _ two_ne_zero]; exact (cos_arctan_pos T).ne')
  rwa [mul_div_cancel_left₀ _ (two_ne_zero' ℝ), tan_arctan] at h

/-- The eccentric anomaly of an ellipse against the true anomaly. -/
theorem ellipse_anomaly {p e v r : ℝ} (he0 : 0 ≤ e) (he1 : e < 1) (hv : cos (v / 2) ≠ 0)
    (hr : r * (1 + e * cos v) = p) :
    r * cos v = p / (1 - e ^ 2) * (cos (eccentricAnomalyOf v e) - e) ∧
    r * sin v = p / √(1 - e ^ 2) * sin (eccentricAnomalyOf v e) ∧
    -π < eccentricAnomalyOf v e ∧ eccentricAnomalyOf v e < π := by
  have e1 : 0 < 1 - e := by linarith
  have e2 : 0 < 1 + e := by linarith
  have hE : eccentricAnomalyOf v e = 2 * arctan (√((1 - e) / (1 + e)) * tan (v / 2)) := by
    unfold eccentricAnomalyOf; rw [if_pos he1]
  obtain ⟨c1, s1⟩ := half_angle hv
  obtain ⟨c2, s2⟩ := half_arctan (√((1 - e) / (1 + e)) * tan (v / 2))
  rw [← hE] at c2 s2
  set t := tan (v / 2) with ht
  have hk : √((1 - e) / (1 + e)) ^ 2 = (1 - e) / (1 + e) := sq_sqrt (by positivity)
  have hkk : √(1 - e ^ 2) = √((1 - e) / (1 + e)) * (1 + e) := by
    rw [show 1 - e ^ 2 = (1 - e) / (1 + e) * (1 + e) ^ 2 by field_simp; ring, sqrt_mul (by positivity), sqrt_sq e2.le]
  have hkp : 0 < √((1 - e) / (1 + e)) := sqrt_pos.2 (by positivity)
  set k := √((1 - e) / (1 + e)) with hkdef
  have ht2 : 0 < 1 + t ^ 2 := by positivity
  have hT2 : 0 < 1 + (k * t) ^ 2 := by positivity
  have hk2 : k ^ 2 * (1 + e) = 1 - e := by rw [hk]; field_simp
  -- r in terms of t
  have hr' : r * ((1 + e) * (1 + (k * t) ^ 2)) = p * (1 + t ^ 2) := by
    have : r * ((1 + t ^ 2) + e * (cos v * (1 + t ^ 2))) = p * (1 + t ^ 2) := by linear_combination (1 + t ^ 2) * hr
    rw [c1] at this
    linear_combination this + r * t ^ 2 * hk2
  have hb : -π < eccentricAnomalyOf v e ∧ eccentricAnomalyOf v e < π := by
    rw [hE]
    have h1 := neg_pi_div_two_lt_arctan (k * t)
    have h2 := arctan_lt_pi_div_two (k * t)
    constructor <;> linarith
  refine ⟨?_, ?_, hb.1, hb.2⟩
  · have h12 : 1 - e ^ 2 ≠ 0 := by nlinarith
    rw [div_mul_eq_mul_div, eq_div_iff h12]
    apply mul_right_cancel₀ ht2.ne'
    apply mul_right_cancel₀ hT2.ne'
    have l1 : r * cos v * (1 - e ^ 2) * (1 + t ^ 2) * (1 + (k * t) ^ 2) =
        (1 - e) * (r * ((1 + e) * (1 + (k * t) ^ 2))) * (cos v * (1 + t ^ 2)) := by ring
    have l2 : p * (cos (eccentricAnomalyOf v e) - e) * (1 + t ^ 2) * (1 + (k * t) ^ 2) =
        p * (1 + t ^ 2) * (cos (eccentricAnomalyOf v e) * (1 + (k * t) ^ 2) - e * (1 + (k * t) ^ 2)) := by ring
    rw [l1, l2, hr', c1, c2]
    linear_combination p * (1 + t ^ 2) * t ^ 2 * hk2
  · rw [hkk]
    rw [div_mul_eq_mul_div, eq_div_iff (by positivity)]
    apply mul_right_cancel₀ ht2.ne'
    apply mul_right_cancel₀ hT2.ne'
    have l1 : r * sin v * (k * (1 + e)) * (1 + t ^ 2) * (1 + (k * t) ^ 2) =
        k * (r * ((1 + e) * (1 + (k * t) ^ 2))) * (sin v * (1 + t ^ 2)) := by ring
    have l2 : p * sin (eccentricAnomalyOf v e) * (1 + t ^ 2) * (1 + (k * t) ^ 2) =
        p * (1 + t ^ 2) * (sin (eccentricAnomalyOf v e) * (1 + (k * t) ^ 2)) := by ring
    rw [l1, l2, hr', s1, s2]
    ring

/-- The point of the orbit in terms of the true anomaly, along periapsis and a quarter turn ahead of it. -/
theorem pos_apsidal (hm : 0 < o.mu) (hh : o.hVec ≠ 0) (he : o.eccentricity = 0 ∨ 1e-15 < o.eccentricity) :
    o.pos = (o.pos.length * cos o.trueAnomaly) • planeDir o.ascendingNode o.inclination o.periapsisArgument +
      (o.pos.length * sin o.trueAnomaly) • planeDir o.ascendingNode o.inclination (o.periapsisArgument + π / 2) := by
  conv_lhs => rw [pos_eq hm hh he]
  unfold planeDir
  rw [cos_add, sin_add, cos_add_pi_div_two, sin_add_pi_div_two]
  ext
  · simp only [Vec3.smul_x, Vec3.add_x]; ring
  · simp only [Vec3.smul_y, Vec3.add_y]; ring
  · simp only [Vec3.smul_z, Vec3.add_z]; ring

/-- **C63.** Ellipses: with the reported semi-axes a and b and eccentric anomaly E, the position is a(cos E - e) towards
periapsis and b sin E ahead of it, and the reported mean anomaly is E - e sin E up to whole turns.  (Apoapsis itself, where
the code's tangent has its pole, is excluded.) -/
theorem _root_.Skyfield.C63_ellipse (hm : 0 < o.mu) (hh : o.pos.cross o.vel ≠ 0)
    (he : o.eccentricity = 0 ∨ 1e-15 < o.eccentricity) (h1 : o.eccentricity < 1) (hv : cos (o.trueAnomaly / 2) ≠ 0) :
    ∃ a, o.majorAxis = some a ∧ 0 < a ∧ 0 < o.minorAxis ∧ o.minorAxis ^ 2 = a ^ 2 * (1 - o.eccentricity ^ 2) ∧
      o.pos = (a * (cos o.eccentricAnomaly - o.eccentricity)) •
          planeDir o.ascendingNode o.inclination o.periapsisArgument +
        (o.minorAxis * sin o.eccentricAnomaly) •
          planeDir o.ascendingNode o.inclination (o.periapsisArgument + π / 2) ∧
      (-π < o.eccentricAnomaly ∧ o.eccentricAnomaly < π) ∧
      (0 ≤ o.meanAnomaly ∧ o.meanAnomaly < 2 * π) ∧
      ∃ k : ℤ, o.eccentricAnomaly - o.eccentricity * sin o.eccentricAnomaly = o.meanAnomaly + 2 * π * k := by
  have lp := latusRectum_pos hm (o := o) hh
  have e0 := o.ecc_nonneg
  have hlen := length_mul hm hh he
  have h12 : 0 < 1 - o.eccentricity ^ 2 := by nlinarith
  obtain ⟨a1, a2, a3, a4⟩ := ellipse_anomaly e0 h1 hv hlen
  have ha : o.majorAxis = some (o.latusRectum / (1 - o.eccentricity ^ 2)) := by
    unfold majorAxis semiMajorAxis; rw [if_pos h1.ne]
  have hb : o.minorAxis = o.latusRectum / √(1 - o.eccentricity ^ 2) := by
    unfold minorAxis semiMinorAxis; rw [if_pos h1]
  have hs : 0 < √(1 - o.eccentricity ^ 2) := sqrt_pos.2 h12
  refine ⟨_, ha, by positivity, by rw [hb]; positivity, ?_, ?_, ⟨a3, a4⟩, ?_, ?_⟩
  · rw [hb, div_pow, sq_sqrt h12.le]; field_simp
  · conv_lhs => rw [pos_apsidal hm hh he]
    rw [hb]
    have b1 : o.pos.length * cos o.trueAnomaly =
      o.latusRectum / (1 - o.eccentricity ^ 2) * (cos o.eccentricAnomaly - o.eccentricity) := a1
    have b2 : o.pos.length * sin o.trueAnomaly =
      o.latusRectum / √(1 - o.eccentricity ^ 2) * sin o.eccentricAnomaly := a2
    rw [b1, b2]
  · unfold meanAnomaly meanAnomalyOf
    rw [if_pos h1]
    exact pyMod_tau_mem _
  · unfold meanAnomaly meanAnomalyOf
    rw [if_pos h1]
    obtain ⟨n, hn⟩ := pyMod_eq_sub' (o.eccentricAnomaly - o.eccentricity * sin o.eccentricAnomaly) tau
    refine ⟨n, ?_⟩
    rw [hn, tau]; ring

/-- The true anomaly is zero when the position points along the eccentricity vector. -/
theorem trueAnomaly_at_periapsis {k : ℝ} (hk : 0 < k) (hp : o.eVec = k • o.pos) (hp0 : o.pos ≠ 0) (hv : o.pos.dot o.vel = 0)
    (he : 1e-15 < o.eccentricity) (he1 : o.eccentricity < 1 - 1e-15) : o.trueAnomaly = 0 := by
  have ha : angleBetween o.eVec o.pos = 0 := by
    have h0 : o.eVec ≠ 0 := fun h => by
      unfold eccentricity at he; rw [h, Vec3.length_zero] at he; norm_num at he
    have hl : o.eVec.length = k * o.pos.length := by rw [hp, Vec3.length_smul, abs_of_pos hk]
    have hlp := Vec3.length_pos hp0
    rw [C37_arccos _ _ h0 hp0, hl, hp, Vec3.smul_dot, ← Vec3.length_sq, show k * o.pos.length ^ 2 / (k * o.pos.length * o.pos.length) = 1 by
      field_simp, arccos_one]
  unfold trueAnomaly trueAnomalyOf
  have he' : o.eVec.length > 1e-15 := he
  have he1' : o.eVec.length < 1 - 1e-15 := he1
  simp only
  rw [if_pos he1', if_pos he', ha, hv, if_neg (lt_irrefl _)]
  unfold pyMod; simp

/-- Non-vacuity of `C63_vis_viva`, `C63_period`, `C63_apsides` and `C63_ellipse`: an ellipse of eccentricity 0.21. -/
example : let o : Osculating := ⟨⟨1, 0, 0⟩, ⟨0, 11 / 10, 0⟩, 1⟩
    0 < o.mu ∧ o.pos.cross o.vel ≠ 0 ∧ 1e-15 < o.eccentricity ∧ o.eccentricity < 1 ∧ cos (o.trueAnomaly / 2) ≠ 0 := by
  have h1 : (⟨1, 0, 0⟩ : Vec3).length = 1 := by unfold Vec3.length; norm_num
  have h2 : (⟨0, 11 / 10, 0⟩ : Vec3).length ^ 2 = 121 / 100 := by rw [Vec3.length_sq]; norm_num [Vec3.dot]
  have e1 : (⟨⟨1, 0, 0⟩, ⟨0, 11 / 10, 0⟩, 1⟩ : Osculating).eVec = ⟨21 / 100, 0, 0⟩ := by
    unfold eVec eccentricityVector
    simp only [h1, h2]
    ext <;> simp [Vec3.dot]
    norm_num
  have he : (⟨⟨1, 0, 0⟩, ⟨0, 11 / 10, 0⟩, 1⟩ : Osculating).eccentricity = 21 / 100 := by
    unfold eccentricity
    rw [e1]
    unfold Vec3.length
    rw [show (21 / 100 * (21 / 100) + 0 * 0 + 0 * 0 : ℝ) = (21 / 100) ^ 2 by ring, sqrt_sq (by norm_num)]
  refine ⟨by norm_num, fun h => ?_, by rw [he]; norm_num, by rw [he]; norm_num, ?_⟩
  · have := congrArg Vec3.z h
    norm_num [Vec3.cross] at this
  · rw [trueAnomaly_at_periapsis (k := 21 / 100) (by norm_num) (by rw [e1]; ext <;> simp)
      (fun h => by have := congrArg Vec3.x h; simp at this) (by simp [Vec3.dot]) (by rw [he]; norm_num) (by rw [he]; norm_num)]
    simp

end Osculating
end Skyfield
