import Mathlib.Data.Rat.Floor
import Mathlib.Algebra.Order.Field.Power

/-
Independent specification of IEEE 754 binary64 arithmetic, as far as rounding goes: the numbers
with a 53-bit significand, and what it means that every operation returns a number nearest to the
exact result.  Overflow, underflow, infinities and NaN are left out: the exponent is unbounded.
-/
namespace Spec

/-- A binary floating point number: a significand of at most 53 bits, times a power of two. -/
def IsFloat (y : ℚ) : Prop := ∃ m e : ℤ, |m| < 2 ^ 53 ∧ y = m * 2 ^ e

/-- `fl x` is a floating point number, and none is nearer to `x`.  Ties may go either way, so
IEEE's "round to nearest, ties to even" is one such `fl`. -/
structure RoundsToNearest (fl : ℚ → ℚ) : Prop where
  float : ∀ x, IsFloat (fl x)
  nearest : ∀ x y, IsFloat y → |fl x - x| ≤ |y - x|

end Spec
