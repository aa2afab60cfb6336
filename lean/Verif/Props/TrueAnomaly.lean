import Verif.Props.MinorPlanets

/-
C76: orbits built from a true anomaly.
-/
namespace Skyfield
open Real

/-- **C76.** The attraction of the primary may be given in km³/s² or in au³/day²: an orbit built from a true anomaly is the same. -/
theorem C76_true_anomaly_either_unit (pKm e i Om w v epoch m : ℝ) (hm : m ≠ 0) :
    KeplerOrbit.fromTrueAnomaly pKm e i Om w v epoch none (some m) =
      KeplerOrbit.fromTrueAnomaly pKm e i Om w v epoch (some (m * 149597870.7 ^ 3 / 86400 ^ 2)) none := by
  have ha : (auKm : ℝ) = 149597870.7 := by norm_num [auKm]
  have hd : (daySeconds : ℝ) = 86400 := rfl
  have h1 : m * 149597870.7 ^ 3 / 86400 ^ 2 ≠ 0 := by
    have : (149597870.7 : ℝ) ^ 3 / 86400 ^ 2 ≠ 0 := by norm_num
    rw [mul_div_assoc]
    exact mul_ne_zero hm this
  unfold KeplerOrbit.fromTrueAnomaly
  simp [hm, h1, ha, hd]

/-- **C76.** It must be given in exactly one of the two units. -/
theorem C76_true_anomaly_refused (pKm e i Om w v epoch m m' : ℝ) (hm : m ≠ 0) (hm' : m' ≠ 0) :
    KeplerOrbit.fromTrueAnomaly pKm e i Om w v epoch none none = none ∧
    KeplerOrbit.fromTrueAnomaly pKm e i Om w v epoch (some m) (some m') = none := by
  unfold KeplerOrbit.fromTrueAnomaly
  simp [hm, hm']

/-- **C76.** The orbit starts, at its epoch, at the place and with the velocity of the elements: in au and au per day what `ele_to_vec` gives in kilometers
and kilometers per second. -/
theorem C76_true_anomaly_state (pKm e i Om w v epoch gm : ℝ) (o : KeplerOrbit)
    (h : KeplerOrbit.fromTrueAnomaly pKm e i Om w v epoch (some gm) none = some o) :
    o.epoch = epoch ∧ eleToVec pKm e i Om w v gm = .state ((149597870.7 : ℝ) • o.pos) ((149597870.7 / 86400 : ℝ) • o.vel) := by
  have ha : (auKm : ℝ) = 149597870.7 := by norm_num [auKm]
  have hd : (daySeconds : ℝ) = 86400 := rfl
  unfold KeplerOrbit.fromTrueAnomaly at h
  by_cases hg : gm = 0
  · subst hg
    simp at h
  · simp [hg] at h
    split at h
    · rename_i pos vel hs
      simp only [Option.some_inj] at h
      subst h
      refine ⟨rfl, ?_⟩
      rw [hs, ha, hd]
      congr 1 <;> ext <;> simp <;> ring
    · cases h

/-- Non-vacuity. -/
example : ∃ o, KeplerOrbit.fromTrueAnomaly 1e8 0.5 1 0 0 0 2451545 (some 132712440041.9394) none = some o ∧ o.epoch = 2451545 := by
  obtain ⟨pos, vel, h⟩ := (C44_accepted 1e8 0.5 1 0 0 0 132712440041.9394).2 ⟨by norm_num, by linarith [pi_gt_three], Or.inl (by norm_num)⟩
  have e : KeplerOrbit.fromTrueAnomaly 1e8 0.5 1 0 0 0 2451545 (some 132712440041.9394) none =
      some ⟨(1 / auKm : ℝ) • pos, (daySeconds / auKm : ℝ) • vel, 2451545, 132712440041.9394, none⟩ := by
    unfold KeplerOrbit.fromTrueAnomaly
    simp only
    rw [if_neg (by norm_num; exact Option.some_ne_none _), if_neg (by simp)]
    simp only [Option.getD_some, h]
  exact ⟨_, e, (C76_true_anomaly_state _ _ _ _ _ _ _ _ _ e).1⟩

end Skyfield
