import Verif.Model.Calendar
import Mathlib.Data.Int.Init

/-
Model of the calendar arithmetic of `skyfield/timelib.py` on machine numbers.  `_to_array` (functions.py:166-180) hands
an array that the user passes to `ts.utc()`, `ts.tt()`, … on unchanged, with the integer type it has, and turns a plain
number into `float64`; so `julian_day()` computes in that type.  An operation on two arrays of one integer type gives
an array of that type, and a Python integer that fits the type adapts to it (NumPy 1 and 2 alike); an exact result that
does not fit wraps around without an error.
-/
namespace Skyfield

/-- A two's complement integer of `n` bits (`int16`, `int32`, `int64`): what an exact result becomes.
Used at skyfield/timelib.py:976-998. -/
def wrapSigned (n : ℕ) (x : ℤ) : ℤ := (x + 2 ^ (n - 1)) % 2 ^ n - 2 ^ (n - 1)

/-- An unsigned integer of `n` bits (`uint8`, …). Used at skyfield/timelib.py:976-998. -/
def wrapUnsigned (n : ℕ) (x : ℤ) : ℤ := x % 2 ^ n

/-- `julian_day(year, month, day, julian_before)` — skyfield/timelib.py:976-998, each operation followed by what the
type makes of its exact result: `year` for the type of years and days, `month` for the type of months.  (Floor division
and remainder by a positive number within the type do not overflow; a comparison is exact.) -/
def julianDayIn (ovY ovM : ℤ → ℤ) (year month day : ℤ) (julianBefore : Option ℤ) : ℤ :=
  let month := ovM (month - 1)
  let y := month / 12
  let month := month % 12
  let year := ovY (year + y)
  let month := ovM (month + 1)
  let janfeb : ℤ := if month ≤ 2 then 1 else 0
  let g := ovY (ovY (year + 4716) - janfeb)
  let f := ovM (month + 9) % 12
  let e := ovY (ovY (ovY (1461 * g) / 4 + day) - 1402)
  let J := ovY (e + ovM (ovM (153 * f) + 2) / 5)
  ovY (J + ovY (ovY (38 - ovY (ovY (g + 184) / 100 * 3) / 4) * cutoffMask julianBefore J))

/-- `compute_calendar_date(jd_integer, julian_before)` — skyfield/timelib.py:1014-1033, on an array of one type. -/
def computeCalendarDateIn (ov : ℤ → ℤ) (jd : ℤ) (julianBefore : Option ℤ) : Date :=
  let useGregorian := cutoffMask julianBefore jd
  let f := ov (jd + 1401)
  let f := ov (f + ov (useGregorian * ov (ov (ov (ov (4 * jd) + 274277) / 146097 * 3) / 4 - 38)))
  let e := ov (ov (4 * f) + 3)
  let g := e % 1461 / 4
  let h := ov (ov (5 * g) + 2)
  let day := ov (h % 153 / 5 + 1)
  let month := ov (ov (h / 153 + 2) % 12 + 1)
  let year := ov (ov (e / 1461 - 4716) + ov (12 + 2 - month) / 12)
  ⟨year, month, day⟩

end Skyfield
