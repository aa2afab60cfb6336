import Verif.Spec.Transits

/-
What it is for a list of events to be the passages of an angle from each of `k` equal parts of the turn to the next.
-/
namespace Spec
open Real

/-- `F n` names the part of the turn from `n` times its `k`-th part to `n + 1` times it: two have the same name just if they are the same, up to whole turns. -/
def Names {V : Type*} (k : ℕ) (F : ℤ → V) : Prop := ∀ m n, F m = F n ↔ (k : ℤ) ∣ m - n

/-- From `lo` to `hi`, `f` names the part of the turn that the angle `L` is in; at the border of two parts it may name either. -/
def InParts {V : Type*} (k : ℕ) (F : ℤ → V) (lo hi : ℝ) (L : ℝ → ℝ) (f : ℝ → V) : Prop :=
  ∀ t, lo ≤ t → t ≤ hi → ∃ n : ℤ, 2 * π / k * n ≤ L t ∧ L t ≤ 2 * π / k * (n + 1) ∧ f t = F n

/-- `events` are the passages of the angle `L`, from `lo` to `hi`, into each of the `k` parts of the turn.  Those reported have happened: the angle is past the beginning of
the part named by no more than `past`.  Those that happen are reported: wherever the angle is at the beginning of a part, to within `near`, but not within `after` of the
ends of the span, there is an event that says so, between `before` sooner and `after` later.  And they are reported in turn: each names the part that follows the last. -/
structure ReportsPassages {V : Type*} (k : ℕ) (F : ℤ → V) (past near before after lo hi : ℝ) (L : ℝ → ℝ) (events : List (ℝ × V)) : Prop where
  happened : ∀ e ∈ events, lo < e.1 ∧ e.1 ≤ hi ∧ ∃ n : ℤ, e.2 = F n ∧ PastBy (2 * π / k * n) 0 past (L e.1)
  reported : ∀ T (n : ℤ), lo + after ≤ T → T ≤ hi - after → PastBy (2 * π / k * n) (-near) near (L T) →
    ∃ t, (t, F n) ∈ events ∧ T - before ≤ t ∧ t ≤ T + after
  inTurn : ∀ x ∈ events.zip events.tail, x.1.1 < x.2.1 ∧ ∃ n : ℤ, x.1.2 = F n ∧ x.2.2 = F (n + 1)

end Spec
