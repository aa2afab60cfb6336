import Verif.Model.Units
import Mathlib.Data.Int.Log
import Mathlib.Algebra.Order.Floor.Semiring
import Mathlib.Data.Rat.Floor

/-
How a `Distance` and a `Velocity` print: skyfield/units.py:121-126, 176-182.  A float is a rational number with a sign of its own
(`-0.0`); arrays, infinities and nan are not modelled.
-/
namespace Skyfield

/-- The integer nearest to a non-negative number, ties to the even one. Used at skyfield/units.py:121-123. -/
def roundEven (x : ℚ) : ℕ :=
  let f := ⌊x⌋.toNat
  let r := x - f
  if r < 1 / 2 then f else if 1 / 2 < r then f + 1 else if f % 2 = 0 then f else f + 1

/-- The six digits to which Python rounds a positive float, as an integer, and the place of the decimal point: the number is about
`0.digits` times ten to that power.  Python's `format`: part of the trusted base. Used at skyfield/units.py:121-123. -/
def sixDigits (x : ℚ) : ℕ × ℤ :=
  let e := Int.log 10 x
  let n := roundEven (x / 10 ^ (e - 5))
  if n = 1000000 then (100000, e + 2) else (n, e + 1)

/-- Trailing zeros removed. Used at skyfield/units.py:121-123. -/
def stripZeros (digits : List Char) : List Char := (digits.reverse.dropWhile (· = '0')).reverse

/-- Digits laid out without exponent, with at least one digit on each side of the point.
Used at skyfield/units.py:121-123. -/
def layoutFixed (digits : List Char) (point : ℤ) : List Char :=
  if point ≤ 0 then '0' :: '.' :: (List.replicate (-point).toNat '0' ++ digits)
  else if (digits.length : ℤ) ≤ point then digits ++ List.replicate (point.toNat - digits.length) '0' ++ ['.', '0']
  else digits.take point.toNat ++ '.' :: digits.drop point.toNat

/-- Digits laid out with an exponent of at least two digits. Used at skyfield/units.py:121-123. -/
def layoutExponent (digits : List Char) (point : ℤ) : List Char :=
  let mantissa := match digits with
    | [] => []
    | [d] => [d]
    | d :: ds => d :: '.' :: ds
  let e := point - 1
  mantissa ++ 'e' :: (if e < 0 then '-' else '+') :: zeroPad 2 |e|

/-- `'{0:.6}'.format(x)` for a finite float.  Python's `format`: part of the trusted base.
Used at skyfield/units.py:121-123. -/
def formatSix (x : SignedNum ℚ) : List Char :=
  let (digits, point) := if x.mag = 0 then (['0'], (1 : ℤ)) else
    let (n, point) := sixDigits x.mag
    (stripZeros (Nat.toDigits 10 n), point)
  (if x.neg then ['-'] else []) ++
    if point ≤ -4 ∨ 5 < point then layoutExponent digits point else layoutFixed digits point

/-- `Distance.__str__` for a single number of au — skyfield/units.py:121-123. -/
def distanceStr (au : SignedNum ℚ) : List Char := formatSix au ++ " au".toList

/-- `Distance.__repr__` — skyfield/units.py:125-126. -/
def distanceRepr (au : SignedNum ℚ) : List Char := "<Distance ".toList ++ distanceStr au ++ ">".toList

/-- `Velocity.__str__` for a single number of au per day — skyfield/units.py:176-179. -/
def velocityStr (auPerDay : SignedNum ℚ) : List Char := formatSix auPerDay ++ " au/day".toList

/-- `Velocity.__repr__` — skyfield/units.py:181-182. -/
def velocityRepr (auPerDay : SignedNum ℚ) : List Char := "<Velocity ".toList ++ velocityStr auPerDay ++ ">".toList

end Skyfield
