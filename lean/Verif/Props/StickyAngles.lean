import Verif.Props.MovingTargets

/-
C111: what the direct searches do when the hour angles are only nearly steady, as rounded ones are.
-/
namespace Skyfield
open Real

/-- A target that turns once a day and transits at time 0.4, except that its hour angle sticks for an instant before it reaches zero. -/
private noncomputable def sticky (η t : ℝ) : SkyPlace :=
  open Classical in
  { ha := if |t - 0.4| ≤ η / 10 then -(η / 10) else 2 * π * (t - 0.4), dec := 0, distance := 1, altitude := 0, rate := 0 }

private theorem sticky_far {η t : ℝ} (h : η / 10 < |t - 0.4|) : (sticky η t).ha = 2 * π * (t - 0.4) := by
  unfold sticky
  exact if_neg (not_le.2 h)

private theorem sticky_near {η t : ℝ} (h : |t - 0.4| ≤ η / 10) : (sticky η t).ha = -(η / 10) := by
  unfold sticky
  exact if_pos h

private theorem day_samples : findSamples 0 0.8 = some [0, 0.8] := by
  have hc : ⌈((0.8 : ℝ) - 0) / 0.8⌉ = 1 := by rw [Int.ceil_eq_iff]; norm_num
  unfold findSamples
  simp only [hc]
  rw [if_neg (by norm_num), show ((1 : ℤ) + 1).toNat = 2 from rfl]
  norm_num [npLinspace, List.range_succ]

private theorem sticky_guess {η : ℝ} (h0 : 0 < η) (h1 : η ≤ 1) : findGuesses (sticky η) wantTransit [0, 0.8] = [(0, 0.4)] := by
  have hp := pi_pos
  have a0 : (sticky η 0).ha = -(0.8 * π) := by
    rw [sticky_far (by rw [abs_of_neg (by norm_num)]; linarith)]; ring
  have a1 : (sticky η 0.8).ha = 0.8 * π := by
    rw [sticky_far (by rw [abs_of_pos (by norm_num)]; linarith)]; ring
  have m0 : pyMod (0 - -(0.8 * π)) tau = 0.8 * π := by
    rw [pyMod_of_mem (by linarith) (by unfold tau; linarith)]; ring
  have m1 : pyMod (0 - 0.8 * π) tau = 1.2 * π := by
    rw [show 0 - 0.8 * π = 1.2 * π + 2 * π * ((-1 : ℤ) : ℝ) by push_cast; ring, pyMod_add_turns,
      pyMod_of_mem (by linarith) (by unfold tau; linarith)]
  have hg : guessBetween (sticky η) wantTransit 0 0.8 = some (0, 0.4) := by
    unfold guessBetween haDifference wantTransit
    simp only [Option.map_some]
    unfold risingCandidate
    rw [a0, a1]
    simp only [m0, m1]
    rw [if_pos (by linarith)]
    simp only [Option.map_some, Option.some.injEq, Prod.mk.injEq, true_and]
    unfold tau
    field_simp
    norm_num
  unfold findGuesses adjacent
  simp [hg]

/-- **C111.** Steadiness cannot be had from hour angles that are only nearly steady: however small `η` is, there is a target whose hour
angle is always within `η` of one that grows by a turn a day, which transits once between the times 0 and 0.8, and for which
`find_transits` gives nan — because the code guards its divisions only against a step that is exactly zero.  (The rate is measured over
the step that was just made; if the hour angle does not change over that step, as a rounded one may not, the next step is infinite.) -/
theorem C111_rounded_angles_fail (η : ℝ) (h0 : 0 < η) (h1 : η ≤ 1) :
    ∃ sky : ℝ → SkyPlace, (∀ t, |(sky t).ha - 2 * π * (t - 0.4)| ≤ η) ∧ findTransits sky 0 0.8 = some [none] := by
  have hp := pi_gt_three
  have hp' := pi_lt_d2
  refine ⟨sticky η, fun t => ?_, ?_⟩
  · by_cases h : |t - 0.4| ≤ η / 10
    · rw [sticky_near h]
      have h2 := abs_le.1 h
      rw [abs_le]
      constructor <;> nlinarith
    · rw [sticky_far (not_le.1 h)]
      simp [h0.le]
  · have hr : refineEvent (sticky η) wantTransit 0 0.4 = none := by
      have a0 : (sticky η 0).ha = -(0.8 * π) := by
        rw [sticky_far (by rw [abs_of_neg (by norm_num)]; linarith)]; ring
      have a1 : (sticky η 0.4).ha = -(η / 10) := sticky_near (by norm_num; linarith)
      have r0 : haPerDay (sticky η) (fun r => pyMod r tau) 0 0.4 = some ((0.8 * π - η / 10) / 0.4) := by
        unfold haPerDay
        rw [if_neg (by norm_num), a0, a1]
        simp only
        rw [pyMod_of_mem (by linarith) (by unfold tau; linarith)]
        congr 1
        ring
      have hρ : 1 ≤ (0.8 * π - η / 10) / 0.4 := by
        rw [le_div_iff₀ (by norm_num)]; linarith
      set ρ := (0.8 * π - η / 10) / 0.4
      have b0 : timeBump (sticky η) wantTransit ρ 0.4 = some (η / 10 / ρ) := by
        unfold timeBump haDifference wantTransit
        rw [if_neg (by linarith), a1]
        simp only [Option.map_some]
        have hn : normpi (0 - -(η / 10)) = η / 10 := normpi_turns 0 (by push_cast; ring) (by linarith) (by linarith)
        rw [hn, if_neg (by positivity)]
      have hb : 0 < η / 10 / ρ := by positivity
      have hb' : η / 10 / ρ ≤ η / 10 := div_le_self (by positivity) hρ
      have a2 : (sticky η (0.4 + η / 10 / ρ)).ha = -(η / 10) :=
        sticky_near (by rw [add_sub_cancel_left, abs_of_pos hb]; exact hb')
      have r1 : haPerDay (sticky η) normpi 0.4 (0.4 + η / 10 / ρ) = some 0 := by
        unfold haPerDay
        rw [if_neg (by rw [add_sub_cancel_left]; exact hb.ne'), a1, a2]
        have hn : normpi (-(η / 10) - -(η / 10)) = 0 := normpi_turns 0 (by push_cast; ring) (by linarith) (by linarith)
        rw [hn, zero_div]
      unfold refineEvent
      simp only [r0, b0, r1, Option.bind_eq_bind, Option.bind_some]
      unfold timeBump
      rw [if_pos rfl]
      rfl
    unfold findTransits findApproaches
    rw [day_samples]
    simp only [Option.map_some, sticky_guess h0 h1, List.map_cons, List.map_nil, hr, Option.map_none]

/-- The least error that doubles allow is one such `η`. -/
example : (0 : ℝ) < 2 ^ (-50 : ℤ) ∧ (2 : ℝ) ^ (-50 : ℤ) ≤ 1 := by norm_num

end Skyfield
