import Mathlib.Data.Real.Basic
import Mathlib.Data.List.Forall2

/-
What it is for two lists of events to tell of the same.
-/
namespace Spec

/-- The two lists have the same events in the same order, with the same values and with dates that differ by `late` at most. -/
def SameEvents {V : Type*} (late : ℝ) (events events' : List (ℝ × V)) : Prop :=
  List.Forall₂ (fun e e' => |e.1 - e'.1| ≤ late ∧ e.2 = e'.2) events events'

end Spec
