import Verif.Model.Units
import Verif.Model.FloatTime

/-
The sexagesimal code of `Model/Units.lean` again, with the rounding of every floating point operation written out: `fl x` is the float
that the processor returns when the exact result of an operation is `x`.
-/
namespace Skyfield

variable (fl : ℚ → ℚ)

/-- The integer that `_sexagesimalize_to_int` splits — skyfield/units.py:499-500: `power * 3600` is a Python integer, which is converted
to a float when it is multiplied by the value; `// 1.0` is an exact floor. -/
def printedUnitsF (value : ℚ) (places : ℕ) : ℤ := ⌊fl (fl (fl (10 ^ places * 3600) * value) + 1 / 2)⌋

/-- `_sexagesimalize_to_int(value, places)` on a float — skyfield/units.py:484-505.  Apart from the first step it computes with
integers. -/
def sexagesimalizeToIntF (value : ℚ) (places : ℕ) : ℤ × ℤ × ℤ × ℤ × ℤ :=
  let power : ℤ := 10 ^ places
  let n := printedUnitsF fl value places
  let sign := Int.sign n
  let fraction := |n| % power
  let n := |n| / power
  let seconds := n % 60
  let n := n / 60
  let minutes := n % 60
  let n := n / 60
  (sign, n, minutes, seconds, fraction)

/-- `_sfmt(fmt, value, places)` on a float other than `nan` — skyfield/units.py:507-513. -/
def sfmtF (f : SexaFormat) (value : ℚ) (places : ℕ) : List Char :=
  let (sgn, h, m, s, fraction) := sexagesimalizeToIntF fl value places
  f.sign (sgn < 0) ++ zeroPad 2 h ++ f.marks.1 ++ zeroPad 2 m ++ f.marks.2.1 ++ zeroPad 2 s ++ ['.'] ++
    zeroPad places fraction ++ f.marks.2.2

/-- `_sexagesimalize_to_float(value)` on a float — skyfield/units.py:460-482. -/
def sexagesimalizeToFloatF (value : SignedNum ℚ) : Sexagesimal ℚ :=
  let sign := value.sign
  let n := value.mag
  let (minutes, seconds) := divmodF fl (fl (n * 3600)) 60
  let (units, minutes) := divmodF fl minutes 60
  ⟨sign, units, minutes, seconds⟩

/-- The loop of `_unsexagesimalize` on floats (or integers below 2⁵³) — skyfield/units.py:540-547.  The summands have the same sign bit, so
the sum has it too. -/
def unsexagesimalizeGoF (value : SignedNum ℚ) (factor : ℚ) : List (SignedNum ℚ) → SignedNum ℚ
  | [] => value
  | c :: cs =>
    let factor := fl (factor * 60)
    unsexagesimalizeGoF ⟨value.neg, |fl (value.val + fl ((copysign c value).val / factor))|⟩ factor cs

/-- `_unsexagesimalize(value)` of a tuple of floats — skyfield/units.py:521-548. -/
def unsexagesimalizeF : List (SignedNum ℚ) → Option (SignedNum ℚ)
  | [] => none
  | v :: cs => some (unsexagesimalizeGoF fl v 1 cs)

/-- `wms(whole, minutes, seconds)` on floats — skyfield/units.py:515-519. -/
def wmsF (whole minutes seconds : SignedNum ℚ) : ℚ :=
  fl (fl (whole.val + fl ((copysign minutes whole).val / 60)) + fl ((copysign seconds whole).val / 3600))

/-- `tau` as a float — skyfield/constants.py:14. -/
def tauF : ℚ := fl 6.283185307179586476925287

/-- `degrees / 360.0 * tau` — skyfield/units.py:283 and 298. -/
def degreesToRadiansF (d : ℚ) : ℚ := fl (fl (d / 360) * tauF fl)

/-- `hours / 24.0 * tau` — skyfield/units.py:286. -/
def hoursToRadiansF (h : ℚ) : ℚ := fl (fl (h / 24) * tauF fl)

/-- `Angle.hours` — skyfield/units.py:311-314. -/
def radiansToHoursF (r : ℚ) : ℚ := fl (fl (r * 24) / tauF fl)

/-- `Angle.degrees` — skyfield/units.py:316-319. -/
def radiansToDegreesF (r : ℚ) : ℚ := fl (fl (r * 360) / tauF fl)

end Skyfield
