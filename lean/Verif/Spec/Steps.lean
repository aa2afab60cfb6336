import Mathlib.Topology.MetricSpace.Basic
import Mathlib.Topology.Instances.Real.Lemmas

/-
Independent specification of how far a function of time may jump.
-/
namespace Spec

/-- At `x` the function jumps by no more than `η`: for every larger bound, its values near `x` are within that bound of its value at `x`.
With `η = 0` this is continuity at `x`. -/
def StepAtMost (η : ℝ) (f : ℝ → ℝ) (x : ℝ) : Prop := ∀ ε > η, ∃ δ > 0, ∀ y, |y - x| < δ → |f y - f x| < ε

end Spec
