import Mathlib.Algebra.Order.Floor.Ring
import Mathlib.Algebra.Order.Field.Basic

/-
Python/NumPy numeric primitives, over any ordered field with a floor function (`K = ℚ` or `ℝ`).
Floating-point rounding is not modelled: `K` is exact.
-/
namespace Skyfield

variable {K : Type*} [Field K] [LinearOrder K] [FloorRing K]

/-- Python/NumPy `a // b` for numbers: the floor of the exact quotient. Used at skyfield/almanac.py:81. -/
def pyFloorDiv (a b : K) : K := (⌊a / b⌋ : ℤ)

/-- Python/NumPy `a % b`: what `//` leaves over. Used at skyfield/almanac.py:81. -/
def pyMod (a b : K) : K := a - b * (⌊a / b⌋ : ℤ)

/-- Python/NumPy `divmod(a, b)`. Used at skyfield/timelib.py:685-694. -/
def pyDivmod (a b : K) : K × K := (pyFloorDiv a b, pyMod a b)

/-- NumPy `.astype(int)` on a float: truncation towards zero. Used at skyfield/almanac.py:81. -/
def astypeInt (a : K) : ℤ := if 0 ≤ a then ⌊a⌋ else ⌈a⌉

/-- The inner loop of `numpy.interp(x, xp, fp)`: `p` is the table point at or before the search
position, `rest` the following ones.  NumPy clamps on the left to the first value and on the
right to the last value and interpolates linearly in between. Used at skyfield/curvelib.py:20-29. -/
def interpGo (p : K × K) (rest : List (K × K)) (x : K) : K :=
  match rest with
  | [] => p.2
  | q :: rest =>
    if x < q.1 then
      if x ≤ p.1 then p.2 else p.2 + (q.2 - p.2) / (q.1 - p.1) * (x - p.1)
    else interpGo q rest x

/-- `numpy.interp(x, xp, fp)` with default `left`/`right`; NumPy raises `ValueError` on an empty
table, modelled as `none`.  External library: this definition is part of the trusted base.
Used at skyfield/curvelib.py:20-29. -/
def interp (x : K) (xp fp : List K) : Option K :=
  match xp.zip fp with
  | [] => none
  | p :: rest => some (interpGo p rest x)

end Skyfield
