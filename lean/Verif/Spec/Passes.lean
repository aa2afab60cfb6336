import Verif.Spec.Hills

/-
Specification for C116: the passes of a satellite whose altitude goes up and down.
-/
namespace Spec

/-- The satellite climbs through the limit. -/
def ClimbsThrough (limit : ℝ) (altitude : ℝ → ℝ) (low high : ℤ → ℝ) (r : ℝ) : Prop := ∃ k, low k < r ∧ r < high k ∧ altitude r = limit

/-- The satellite sinks through the limit. -/
def SinksThrough (limit : ℝ) (altitude : ℝ → ℝ) (low high : ℤ → ℝ) (s : ℝ) : Prop := ∃ k, high k < s ∧ s < low (k + 1) ∧ altitude s = limit

/-- The passes between `t0` and `t1` are clear ones: the satellite is down at the start and at the end; every culmination that reaches the limit is at least `margin` from both,
and the satellite is up for at least `late` before and after it; and half-way between one such culmination and the next it is down, also `late` before and after. -/
structure ClearPasses (t0 t1 margin late limit : ℝ) (altitude : ℝ → ℝ) (high : ℤ → ℝ) : Prop where
  startsDown : altitude t0 < limit
  endsDown : altitude t1 < limit
  clear : ∀ k, t0 - late ≤ high k → high k ≤ t1 + late → limit ≤ altitude (high k) →
    t0 + margin ≤ high k ∧ high k ≤ t1 - margin ∧ limit ≤ altitude (high k - late) ∧ limit ≤ altitude (high k + late)
  between : ∀ j k, j < k → t0 ≤ high j → high k ≤ t1 → limit ≤ altitude (high j) → limit ≤ altitude (high k) →
    (∀ i, j < i → i < k → altitude (high i) < limit) → ∀ u, |u - (high j + high k) / 2| ≤ late → altitude u < limit

end Spec
