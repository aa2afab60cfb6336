import Mathlib.Data.Real.Basic
import Mathlib.Order.Monotone.Defs
import Mathlib.Order.Interval.Set.Defs

/-
Specification for C116: functions of time that go up and down, and what it means for a search to find their tops.
-/
namespace Spec
open Set

/-- From `lo` to `hi` the function rises and falls in turn, and each rise and each fall lasts at least `d`: it rises from its `k`-th low to its
`k`-th high and falls from there to the next low.  (Lows and highs outside of `lo` and `hi` do not matter.) -/
structure Undulates (lo hi d : ℝ) (f : ℝ → ℝ) (low high : ℤ → ℝ) : Prop where
  rise : ∀ k, low k + d ≤ high k
  fall : ∀ k, high k + d ≤ low (k + 1)
  up : ∀ k, StrictMonoOn f (Icc (low k) (high k) ∩ Icc lo hi)
  down : ∀ k, StrictAntiOn f (Icc (high k) (low (k + 1)) ∩ Icc lo hi)

/-- `found`, a list of moments and values, gives the highs of `f` between `t0` and `t1`, each to within `late`, and `margin` says how far from
both ends a high has to be to be sure to be found. -/
structure FindsHighs (lo hi t0 t1 margin late : ℝ) (f : ℝ → ℝ) (low high : ℤ → ℝ) (found : List (ℝ × ℝ)) : Prop where
  /-- Every high is found, once. -/
  each : ∀ k, t0 + margin ≤ high k → high k ≤ t1 - margin → ∃! e, e ∈ found ∧ |e.1 - high k| ≤ late
  /-- Nothing else is, and the value reported is at least every value of that hill not within `late` of its top, and at most the top's. -/
  only : ∀ e ∈ found, t0 ≤ e.1 ∧ e.1 ≤ t1 ∧ ∃ k, |e.1 - high k| ≤ late ∧ e.2 ≤ f (high k) ∧
    ∀ x, lo ≤ x → x ≤ hi → low k ≤ x → x ≤ low (k + 1) → late ≤ |x - high k| → f x ≤ e.2
  inOrder : found.Pairwise fun a b => a.1 < b.1

end Spec
