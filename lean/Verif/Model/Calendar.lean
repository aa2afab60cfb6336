/-
Model of the calendar arithmetic of `skyfield/timelib.py`.

Python's `//` and `%` on integers round towards minus infinity.  All divisors here are positive
literals, for which Lean's `Int` division `/` and remainder `%` are the same functions.
-/
namespace Skyfield

/-- A calendar date `(year, month, day)` as the code's functions take and return it.
Used at skyfield/timelib.py:1014-1033. -/
structure Date where
  year : Int
  month : Int
  day : Int
deriving DecidableEq, Repr

/-- The 0/1 mask `1 if (julian_before is None) else (J >= julian_before)` of `julian_day`
(skyfield/timelib.py:996) and `(julian_before is None) or (jd_integer >= julian_before)` of
`compute_calendar_date` (skyfield/timelib.py:1022), used as an integer factor. -/
def cutoffMask (julianBefore : Option Int) (J : Int) : Int :=
  match julianBefore with
  | none => 1
  | some c => if J ≥ c then 1 else 0

/-- `julian_day(year, month, day, julian_before)` — skyfield/timelib.py:976-998.
`julian_before=None` is `none`.  Model restricted to integer arguments
(the code also accepts a float `day`; that case is modelled in `Model/Utc.lean`). -/
def julianDay (year month day : Int) (julianBefore : Option Int) : Int :=
  let y := (month - 1) / 12
  let month := (month - 1) % 12
  let year := year + y
  let month := month + 1
  let janfeb : Int := if month ≤ 2 then 1 else 0
  let g := year + 4716 - janfeb
  let f := (month + 9) % 12
  let e := 1461 * g / 4 + day - 1402
  let J := e + (153 * f + 2) / 5
  J + (38 - (g + 184) / 100 * 3 / 4) * cutoffMask julianBefore J

/-- `compute_calendar_date(jd_integer, julian_before)` — skyfield/timelib.py:1014-1033. -/
def computeCalendarDate (jd : Int) (julianBefore : Option Int) : Date :=
  let useGregorian := cutoffMask julianBefore jd
  let f := jd + 1401
  let f := f + useGregorian * ((4 * jd + 274277) / 146097 * 3 / 4 - 38)
  let e := 4 * f + 3
  let g := e % 1461 / 4
  let h := 5 * g + 2
  let day := h % 153 / 5 + 1
  let month := (h / 153 + 2) % 12 + 1
  let year := e / 1461 - 4716 + (12 + 2 - month) / 12
  ⟨year, month, day⟩

/-- `GREGORIAN_START` — skyfield/timelib.py:29. -/
def gregorianStart : Int := 2299161

/-- `GREGORIAN_START_ENGLAND` — skyfield/timelib.py:30. -/
def gregorianStartEngland : Int := 2361222

end Skyfield
