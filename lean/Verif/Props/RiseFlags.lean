import Verif.Props.RiseSet

/-
C66 again: what the flag of a reported rising or setting says, under any sky.
-/
namespace Skyfield
open Real

/-- **C66.** Under any sky, an event is flagged as no real crossing exactly if the hour angle that was aimed at is a culmination
(a whole number of half turns) and the final correction ran into one of its two limits. -/
theorem C66_flag (sky : ℝ → SkyPlace) (want : SkyPlace → Option ℝ) (c : HorizonChoice) (t0 t1 t : ℝ) (flag : Bool)
    (hne : t1 ≠ t0) (h : settleEvent sky want c t0 t1 = some (t, flag)) :
    ∃ d, want (sky t0) = some d ∧
      (flag = false ↔ (∃ k : ℤ, d = k * π) ∧ (t = t0 - (t1 - t0) ∨ t = t0 + 2 * (t1 - t0))) := by
  obtain ⟨u, hu0, hu1, hu⟩ := C66_last_step sky want c t0 t1 t flag h
  unfold settleEvent at h
  simp only [Option.bind_eq_bind, Option.pure_def, Option.bind_eq_some_iff, Option.some.injEq, Prod.mk.injEq] at h
  obtain ⟨_, -, _, -, d, hd, v, -, ht, hf⟩ := h
  have hs : t1 - t0 ≠ 0 := sub_ne_zero.2 hne
  have huv : v = u := by
    have : v * (t1 - t0) = u * (t1 - t0) := by linarith
    exact mul_right_cancel₀ hs this
  subst huv
  refine ⟨d, hd, ?_⟩
  have e1 : (t = t0 - (t1 - t0)) ↔ v = -1 := by
    rw [hu]
    constructor
    · intro e
      exact mul_right_cancel₀ hs (by linarith)
    · rintro rfl; ring
  have e2 : (t = t0 + 2 * (t1 - t0)) ↔ v = 2 := by
    rw [hu]
    constructor
    · intro e
      exact mul_right_cancel₀ hs (by linarith)
    · rintro rfl; ring
  have e3 : (∃ k : ℤ, d = k * π) ↔ pyMod d π = 0 := by
    constructor
    · rintro ⟨k, hk⟩
      exact pyMod_unique' d k pi_pos le_rfl pi_pos (by rw [hk]; ring)
    · intro h0
      refine ⟨⌊d / π⌋, ?_⟩
      unfold pyMod at h0
      linarith
  rw [e1, e2, e3, ← hf]
  simp only [Bool.or_eq_false_iff, decide_eq_false_iff_not, not_not, Bool.and_eq_false_iff, not_lt]
  constructor
  · rintro ⟨h1, h2 | h2⟩
    · exact ⟨h1, Or.inl (le_antisymm h2 hu0)⟩
    · exact ⟨h1, Or.inr (le_antisymm hu1 h2)⟩
  · rintro ⟨h1, rfl | rfl⟩
    · exact ⟨h1, Or.inl le_rfl⟩
    · exact ⟨h1, Or.inr le_rfl⟩

/-- The hour angle of a track that meets the horizon is not a culmination. -/
theorem settingHourAngle_proper {lat dec H s : ℝ} (hlat : |lat| < π / 2) (hdec : |dec| < π / 2)
    (hmeet : |sin H - sin lat * sin dec| < cos lat * cos dec) (hs : settingHourAngle lat dec H = some s) : 0 < s ∧ s < π := by
  have hden : 0 < cos lat * cos dec := lt_of_le_of_lt (abs_nonneg _) hmeet
  unfold settingHourAngle at hs
  simp only at hs
  rw [if_neg hden.ne'] at hs
  injection hs with hs
  obtain ⟨h1, h2⟩ := abs_lt.1 hmeet
  have q1 : (sin H - sin lat * sin dec) / (cos lat * cos dec) < 1 := (div_lt_one hden).2 h2
  have q0 : -1 < (sin H - sin lat * sin dec) / (cos lat * cos dec) := by rw [lt_div_iff₀ hden]; linarith
  rw [max_eq_left q0.le, min_eq_left q1.le] at hs
  rw [← hs]
  exact ⟨arccos_pos.2 q1, arccos_lt_pi.2 q0⟩

/-- **C66.** Under any sky, a rising or setting is flagged as real whenever the circle that the target's declination traces meets
the horizon at two points: `sin H` lies strictly between the sines of the lowest and highest altitude. -/
theorem C66_flag_true (sky : ℝ → SkyPlace) (lat : ℝ) (c : HorizonChoice) (t0 t1 t H : ℝ) (flag : Bool) (hne : t1 ≠ t0)
    (hlat : |lat| < π / 2) (hdec : |(sky t0).dec| < π / 2) (hH : horizonRadians c (sky t0).distance = some H)
    (hmeet : |sin H - sin lat * sin (sky t0).dec| < cos lat * cos (sky t0).dec)
    (h : settleEvent sky (wantSetting lat c) c t0 t1 = some (t, flag) ∨
      settleEvent sky (wantRising lat c) c t0 t1 = some (t, flag)) : flag = true := by
  by_contra hf
  have hf : flag = false := by simpa using hf
  have key : ∀ s, 0 < s → s < π → ∀ k : ℤ, s ≠ k * π := by
    intro s h0 h1 k hk
    rw [hk] at h0 h1
    have a : (0 : ℝ) < k := by
      by_contra hk0
      nlinarith [pi_pos, not_lt.1 hk0]
    have b : (k : ℝ) < 1 := by
      by_contra hk1
      nlinarith [pi_pos, not_lt.1 hk1]
    have a' : (0 : ℤ) < k := by exact_mod_cast a
    have b' : k < (1 : ℤ) := by exact_mod_cast b
    omega
  rcases h with h | h <;> obtain ⟨d, hd, hiff⟩ := C66_flag sky _ c t0 t1 t flag hne h
  · obtain ⟨⟨k, hk⟩, -⟩ := hiff.1 hf
    unfold wantSetting at hd
    rw [hH, Option.bind_some] at hd
    obtain ⟨h0, h1⟩ := settingHourAngle_proper hlat hdec hmeet hd
    exact key d h0 h1 k hk
  · obtain ⟨⟨k, hk⟩, -⟩ := hiff.1 hf
    unfold wantRising at hd
    rw [hH, Option.bind_some] at hd
    unfold risingHourAngle at hd
    obtain ⟨s, hs, rfl⟩ := Option.map_eq_some_iff.1 hd
    obtain ⟨h0, h1⟩ := settingHourAngle_proper hlat hdec hmeet hs
    exact key s h0 h1 (-k) (by push_cast; linarith)

/-- A planet whose distance and declination change: an event settled in one step, flagged as real although the correction runs
into its limit. -/
example : ∃ sky : ℝ → SkyPlace, settleEvent sky (wantSetting 0 (.degrees 0)) (.degrees 0) 0 1 = some (2, true) ∧
    |sin 0 - sin 0 * sin (sky 0).dec| < cos 0 * cos (sky 0).dec := by
  refine ⟨fun t => ⟨t, 0, 1 + t, -1, 0⟩, ?_, by simp⟩
  have hd : pyMod (π / 2) π = π / 2 := pyMod_of_mem (by linarith [pi_pos]) (by linarith [pi_pos])
  have hs : settingHourAngle 0 0 0 = some (π / 2) := by simp [settingHourAngle]
  have hq : quadraticRoot 0 0 (-1) 1 = none := by simp [quadraticRoot]
  unfold settleEvent wantSetting
  simp [horizonRadians, clippedOffset, intersectionOf, hs, hq, hd, pi_ne_zero]

end Skyfield
