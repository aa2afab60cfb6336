import Verif.Props.Kepler

/-
C58: which true anomaly belongs to a mean anomaly, by the kind of the orbit.
-/
namespace Skyfield
open Real

/-- **C58.** The true anomaly that an orbit built from a mean anomaly is given: for an ellipse and for a hyperbola of semi-major axis a, the body is at
the point of that ellipse or hyperbola whose eccentric anomaly is what the solver returned for this mean anomaly; a parabola is built without
the solver. -/
theorem C58_from_mean (p e gm M v a : ℝ) (he : 0 ≤ e) (h : trueFromMean p e gm M = some v) :
    (e < 1 → ∃ E, eccentricAnomaly e M = some E ∧ (cos (E / 2) ≠ 0 →
      let r := a * (1 - e ^ 2) / (1 + e * cos v)
      r * cos v = a * (cos E - e) ∧ r * sin v = a * √(1 - e ^ 2) * sin E)) ∧
    (1 < e → ∃ E, eccentricAnomaly e M = some E ∧
      let r := a * (e ^ 2 - 1) / (1 + e * cos v)
      r * cos v = a * (e - cosh E) ∧ r * sin v = a * √(e ^ 2 - 1) * sinh E) ∧
    (e = 1 → v = trueAnomalyParabolic p gm M) := by
  unfold trueFromMean at h
  refine ⟨fun h1 => ?_, fun h1 => ?_, fun h1 => ?_⟩
  · rw [if_pos h1, Option.map_eq_some_iff] at h
    obtain ⟨E, hE, rfl⟩ := h
    refine ⟨E, hE, fun hn => ?_⟩
    have := C58_true_anomaly a e E he h1 hn
    exact ⟨this.1, this.2.1⟩
  · rw [if_neg (by linarith), if_pos h1, Option.map_eq_some_iff] at h
    obtain ⟨E, hE, rfl⟩ := h
    have := C58_hyperbolic_true_anomaly a e E h1
    exact ⟨E, hE, this.1, this.2.1⟩
  · rw [if_neg (by linarith), if_neg (by linarith)] at h
    exact (Option.some_inj.1 h).symm

/-- Half a turn of mean anomaly: the first guess is exact. -/
theorem eccentricAnomaly_pi (e : ℝ) (he : 1 < e) : eccentricAnomaly e π = some (-π) := by
  have hp := pi_pos
  have hn : normpi π = -π := by
    unfold normpi pyMod tau
    have : (π + π) / (2 * π) = 1 := by field_simp; ring
    rw [this]
    simp
    ring
  have hb : 1 / 4 * π / e - 1 < 0 := by
    rw [sub_neg, div_lt_one (by linarith)]
    linarith [pi_le_four]
  have hs : √(1 + π / (e * (1 / 4 * π / e - 1) * (1 / 4 * π / e - 1))) = 2 / (1 - 1 / 4 * π / e) - 1 := by
    have hb0 : 1 - 1 / 4 * π / e ≠ 0 := by linarith
    have hb1 : 1 / 4 * π / e - 1 ≠ 0 := by linarith
    have he0 : e ≠ 0 := by linarith
    have hge : 0 ≤ 2 / (1 - 1 / 4 * π / e) - 1 := by
      rw [sub_nonneg, le_div_iff₀ (by linarith)]
      have : 0 < 1 / 4 * π / e := by positivity
      linarith
    rw [show 1 + π / (e * (1 / 4 * π / e - 1) * (1 / 4 * π / e - 1)) = (2 / (1 - 1 / 4 * π / e) - 1) ^ 2 by
      set b := 1 - 1 / 4 * π / e with hbd
      have e1 : 1 / 4 * π / e - 1 = -b := by rw [hbd]; ring
      have e2 : π = 4 * e * (1 - b) := by rw [hbd]; field_simp; ring
      rw [e1]
      have : π / (e * -b * -b) = 4 * (1 - b) / b ^ 2 := by
        rw [e2]
        field_simp
      rw [this]
      field_simp
      ring]
    exact sqrt_sq hge
  unfold eccentricAnomaly
  simp only [hn, if_neg (show e ≠ 0 by linarith), if_neg hb.ne]
  rw [sign_neg (show -π < 0 by linarith), sign_neg hb]
  have e3 : (-π) * ((-1 : SignType) : ℝ) = π := by simp
  rw [e3, hs]
  have hE : 1 / 2 * π * (1 / 4 * π / e - 1) * (((-1 : SignType) : ℝ) * (2 / (1 - 1 / 4 * π / e) - 1) - 1) = π := by
    have hb0 : 1 - 1 / 4 * π / e ≠ 0 := by linarith
    set b := 1 - 1 / 4 * π / e with hbd
    have e1 : 1 / 4 * π / e - 1 = -b := by rw [hbd]; ring
    rw [e1]
    simp only [SignType.coe_neg_one]
    field_simp
    ring
  rw [hE]
  have hden : (1 - e * cos π) * (1 - e * cos π) - 1 / 2 * (π - e * sin π - π) * (e * sin π) ≠ 0 := by
    rw [cos_pi, sin_pi]
    have : 0 < (1 + e) * (1 + e) := by positivity
    intro h
    linarith
  have hl : eccentricLoop e π 10 π = some π := by
    unfold eccentricLoop
    simp only [if_neg hden]
    rw [sin_pi]
    norm_num
  rw [hl]
  simp

/-- **C58 (limitation).** On a hyperbola, a body after its periapsis — its mean anomaly e sinh E - E is π — is placed before its periapsis: the true
anomaly is negative, where that of every solution E is positive. -/
theorem C58_hyperbola_wrong (p gm : ℝ) : ∃ v, trueFromMean p 2 gm π = some v ∧ v < 0 ∧
    ∀ E, 2 * sinh E - E = π → 0 < trueAnomalyHyperbolic 2 E := by
  refine ⟨trueAnomalyHyperbolic 2 (-π), ?_, ?_, ?_⟩
  · unfold trueFromMean
    rw [if_neg (by norm_num), if_pos (by norm_num), eccentricAnomaly_pi 2 (by norm_num)]
    rfl
  · unfold trueAnomalyHyperbolic
    have hq : 0 < √(((2 : ℝ) + 1) / (2 - 1)) := sqrt_pos.2 (by norm_num)
    have h1 : tanh (-π / 2) < 0 := by
      rw [tanh_eq_sinh_div_cosh]
      exact div_neg_of_neg_of_pos (sinh_neg_iff.2 (by linarith [pi_pos])) (cosh_pos _)
    have := arctan_lt_zero.2 (mul_neg_of_pos_of_neg hq h1)
    linarith
  · intro E h
    have hE : 0 < E := by
      by_contra hc
      have := sinh_le_self_iff.2 (not_lt.1 hc)
      linarith [pi_pos]
    unfold trueAnomalyHyperbolic
    have hq : 0 < √(((2 : ℝ) + 1) / (2 - 1)) := sqrt_pos.2 (by norm_num)
    have h1 : 0 < tanh (E / 2) := by
      rw [tanh_eq_sinh_div_cosh]
      exact div_pos (sinh_pos_iff.2 (by linarith)) (cosh_pos _)
    have := arctan_pos.2 (mul_pos hq h1)
    linarith

/-- Non-vacuity of `C58_from_mean`, for a hyperbola. -/
example : ∃ v, trueFromMean 3 2 1 π = some v := (C58_hyperbola_wrong 3 1).imp fun _ h => h.1

end Skyfield
