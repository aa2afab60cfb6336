import Mathlib.Analysis.SpecialFunctions.Trigonometric.Basic
import Mathlib.Topology.ContinuousOn

/-
What it is for an angle to grow, for a moment to be a boundary, and for a list of events to report a set of moments.
-/
namespace Spec
open Real

/-- The angle `L`, in radians and counted on through whole turns, grows without jumps from `lo` to `hi`. -/
structure Growing (lo hi : ℝ) (L : ℝ → ℝ) : Prop where
  continuous : ContinuousOn L (Set.Icc lo hi)
  increasing : ∀ s t, lo ≤ s → s < t → t ≤ hi → L s < L t

/-- In any stretch shorter than `d`, `L` gains less than `g`. -/
def GainsLess (lo hi d g : ℝ) (L : ℝ → ℝ) : Prop := ∀ s t, lo ≤ s → s ≤ t → t ≤ hi → t - s < d → L t - L s < g

/-- `events`, dates with values, report the moments that satisfy `moment`: each once, none early, none later than `late`, nothing else, in
order of time. -/
structure Reports {V : Type*} (moment : ℝ → Prop) (late : ℝ) (events : List (ℝ × V)) : Prop where
  each : ∀ c, moment c → ∃! e, e ∈ events ∧ c ≤ e.1 ∧ e.1 ≤ c + late
  only : ∀ e ∈ events, ∃! c, moment c ∧ c ≤ e.1 ∧ e.1 ≤ c + late
  inOrder : events.Pairwise fun e e' => e.1 < e'.1

/-- `N` numbers the spells: it never decreases, and the spell `n` begins at `c`. -/
def Begins (N : ℝ → ℤ) (n : ℤ) (c : ℝ) : Prop := IsGLB {t | n ≤ N t} c

end Spec
