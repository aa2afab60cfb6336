import Mathlib.Algebra.Field.Rat
import Mathlib.Algebra.Order.Ring.Unbundled.Rat
import Mathlib.Algebra.Order.Group.Unbundled.Abs
import Mathlib.Tactic.Ring

/-
Reading a decimal numeral, and what it means to have six significant digits.  Independent of how numbers are printed.
-/
namespace Spec

/-- A power of ten given by its sign and digits. -/
def tenTo (neg : Bool) (exponent : ℕ) : ℚ := if neg then 1 / 10 ^ exponent else 10 ^ exponent

/-- The value of a numeral: an optional minus sign, digits, optionally a point and digits, optionally `e`, a sign, and digits. -/
def readDecimal (s : List Char) : Option ℚ :=
  let neg := s.head? = some '-'
  let s := if neg then s.tail else s
  let whole := s.takeWhile Char.isDigit
  let s := s.dropWhile Char.isDigit
  let fraction := if s.head? = some '.' then s.tail.takeWhile Char.isDigit else []
  let s := if s.head? = some '.' then s.tail.dropWhile Char.isDigit else s
  let v : ℚ := (Nat.ofDigitChars 10 (whole ++ fraction) 0 : ℚ) / 10 ^ fraction.length
  let v := if neg then -v else v
  match s with
  | [] => if whole = [] then none else some v
  | 'e' :: sign :: digits =>
    if whole = [] ∨ digits = [] ∨ ¬ digits.all Char.isDigit then none
    else if sign = '+' then some (v * tenTo false (Nat.ofDigitChars 10 digits 0))
    else if sign = '-' then some (v * tenTo true (Nat.ofDigitChars 10 digits 0))
    else none
  | _ => none

/-- A number that can be written with at most six significant digits. -/
def SixDigitNumber (z : ℚ) : Prop := ∃ m k : ℤ, |m| < 10 ^ 6 ∧ z = m * 10 ^ k

/-- No number of six significant digits is nearer to `x` than `y`, which is one. -/
def NearestSixDigits (x y : ℚ) : Prop := SixDigitNumber y ∧ ∀ z, SixDigitNumber z → |y - x| ≤ |z - x|

end Spec
