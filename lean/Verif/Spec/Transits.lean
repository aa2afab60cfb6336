import Mathlib.Analysis.SpecialFunctions.Trigonometric.Basic

/-
What it is for a target to turn about the sky, and to stand at the meridian.
-/
namespace Spec
open Real

/-- The hour angle `h`, in radians and up to whole turns, grows from `lo` to `hi` by between `slow` and `fast` radians a day, but for
jumps of at most `jitter`. -/
def Turning (slow fast jitter lo hi : ℝ) (h : ℝ → ℝ) : Prop :=
  ∀ s t, lo ≤ s → s ≤ t → t ≤ hi → ∃ n : ℤ, slow * (t - s) - jitter ≤ h t - h s - 2 * π * n ∧
    h t - h s - 2 * π * n ≤ fast * (t - s) + jitter

/-- The hour angle `x` is past `base` by at least `a` and at most `b`, up to whole turns. -/
def PastBy (base a b x : ℝ) : Prop := ∃ n : ℤ, a ≤ x - base - 2 * π * n ∧ x - base - 2 * π * n ≤ b

/-- West of the meridian: the hour angle is, up to whole turns, from 0 up to but not including half a turn. -/
def WestOfMeridian (x : ℝ) : Prop := ∃ n : ℤ, 0 ≤ x - 2 * π * n ∧ x - 2 * π * n < π

end Spec
