import Mathlib.Data.Real.Basic

/-
What it is for a condition to hold for a while and then not hold for a while, and for a list of events to tell when.
-/
namespace Spec

/-- From `lo` to `hi`, within any stretch shorter than `long`, `S` (a condition, or one of several) does not change and change back, but for flickering within `tiny` of the
ends of the stretch: it comes and goes in spells that last `long` or more, and may flicker for `tiny` when it changes. -/
def Settles {V : Type*} (long tiny lo hi : ℝ) (S : ℝ → V) : Prop :=
  ∀ s u w, lo ≤ s → s < u → u < w → w ≤ hi → w - s < long → S s = S w → S u = S s ∨ u - s ≤ tiny ∨ w - u ≤ tiny

/-- What the latest of the events up to the moment `u` says, when the events are in order of time; `v` if there are none. -/
noncomputable def latest {V : Type*} (v : V) : List (ℝ × V) → ℝ → V
  | [], _ => v
  | e :: events, u => if e.1 ≤ u then latest e.2 events u else v

/-- `events` tell when `S` holds (or what it is) from `lo` to `hi`: at every moment, `S` is what the latest event says, or what it was at first, except from `before` ahead
of an event to `after` behind it, and within `after` of the ends of the span. -/
def Tells {V : Type*} (before after lo hi : ℝ) (S : ℝ → V) (events : List (ℝ × V)) : Prop :=
  ∀ u, lo + after ≤ u → u ≤ hi - after → (∀ e ∈ events, u < e.1 - before ∨ e.1 + after < u) → S u = latest (S lo) events u

end Spec
