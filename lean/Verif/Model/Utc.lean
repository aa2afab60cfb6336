import Verif.Model.Basic
import Verif.Model.Calendar

/-
Model of `Timescale` and `Time` (skyfield/timelib.py): leap second tables, construction of times
from UTC, and reading UTC back.  `K` is ℚ or ℝ (exact arithmetic in place of floats).
Arrays of times are modelled elementwise.
-/
namespace Skyfield

variable {K : Type*} [Field K] [LinearOrder K] [FloorRing K]

/-- `DAY_S` — skyfield/constants.py:7. -/
def dayS : K := 86400

/-- `tt_minus_tai = array(32.184 / DAY_S)` — skyfield/timelib.py:75. -/
def ttMinusTai : K := 32184 / 1000 / dayS

/-- `Timescale` — skyfield/timelib.py:77-127: the parts that the time conversions use.
`leapDates`, `leapOffsets` are the arrays *after* the legacy-table adjustment of lines 119-122. -/
structure Timescale (K : Type*) where
  deltaT : K → K
  leapDates : List K
  leapOffsets : List K
  cutoff : Option ℤ

/-- `_leap_utc = (leap_dates[:,None] * DAY_S + [[-1,0]]).flatten()` — skyfield/timelib.py:125. -/
def Timescale.leapUtc (ts : Timescale K) : List K :=
  ts.leapDates.flatMap fun d => [d * dayS + -1, d * dayS + 0]

/-- `_leap_offsets = (leap_offsets[:,None] + [[-1,0]]).flatten()` — skyfield/timelib.py:126. -/
def Timescale.leapOffs (ts : Timescale K) : List K :=
  ts.leapOffsets.flatMap fun o => [o + -1, o + 0]

/-- `_leap_tai = _leap_utc + _leap_offsets` — skyfield/timelib.py:127 (elementwise). -/
def Timescale.leapTai (ts : Timescale K) : List K :=
  List.zipWith (· + ·) ts.leapUtc ts.leapOffs

/-- `julian_day()` applied to a possibly fractional `day` — skyfield/timelib.py:976-998. -/
def julianDayFrac (year month : ℤ) (day : K) (julianBefore : Option ℤ) : K :=
  let y := (month - 1) / 12
  let month := (month - 1) % 12
  let year := year + y
  let month := month + 1
  let janfeb : ℤ := if month ≤ 2 then 1 else 0
  let g := year + 4716 - janfeb
  let f := (month + 9) % 12
  let e : K := ((1461 * g / 4 : ℤ) : K) + day - 1402
  let J : K := e + ((153 * f + 2) / 5 : ℤ)
  let mask : K := match julianBefore with
    | none => 1
    | some c => if J ≥ (c : K) then 1 else 0
  J + ((38 - (g + 184) / 100 * 3 / 4 : ℤ) : K) * mask

/-- `Time` — skyfield/timelib.py:412-438.  `taiFraction?`, `tdbFraction?`, `ut1Fraction?` and
`taiSeconds?` are the attributes that some constructors store in advance (`reify` would otherwise
compute them on first use). -/
structure Time (K : Type*) where
  ts : Timescale K
  whole : K
  ttFraction : K
  taiFraction? : Option K := none
  taiSeconds? : Option (K × K) := none
  tdbFraction? : Option K := none
  ut1Fraction? : Option K := none

/-- `Time.tai_fraction` — skyfield/timelib.py:829-831. -/
def Time.taiFraction (t : Time K) : K :=
  match t.taiFraction? with
  | some f => f
  | none => t.ttFraction - ttMinusTai

/-- `Time._tai_seconds` — skyfield/timelib.py:696-702. -/
def Time.taiSeconds (t : Time K) : K × K :=
  match t.taiSeconds? with
  | some s => s
  | none =>
    let (seconds, fr) := pyDivmod (t.whole * dayS) 1
    let (seconds2, fr) := pyDivmod (fr + t.taiFraction * dayS) 1
    (seconds + seconds2, fr)

/-- `Timescale._utc(tup)` — skyfield/timelib.py:181-203 (`none` stands for the exception NumPy
raises on an empty leap second table). -/
def Timescale.utc (ts : Timescale K) (year month : ℤ) (day hour minute second : K) :
    Option (Time K) :=
  let seconds : K := (julianDayFrac year month day ts.cutoff - 1/2) * dayS
  let (seconds, sfr) := pyDivmod seconds 1
  match interp seconds ts.leapUtc ts.leapOffs with
  | none => none
  | some offset =>
    let seconds := seconds + offset
    let more := hour * 3600 + minute * 60 + second
    let (seconds2, sfr) := pyDivmod (sfr + more) 1
    let seconds := seconds + seconds2
    let (whole, fraction) := pyDivmod seconds dayS
    let fraction := fraction + sfr
    let fraction := fraction / dayS
    some { ts := ts, whole := whole, ttFraction := fraction + ttMinusTai,
           taiFraction? := some fraction, taiSeconds? := some (seconds, sfr) }

/-- Result of `Time._utc_seconds`. Used at skyfield/timelib.py:685-694. -/
structure UtcSeconds (K : Type*) where
  seconds : K
  fr : K
  isLeapSecond : Bool

/-- `Time._utc_seconds(offset)` — skyfield/timelib.py:685-694. -/
def Time.utcSeconds (t : Time K) (offset : K) : Option (UtcSeconds K) :=
  let (seconds, fr) := t.taiSeconds
  let (seconds2, fr) := pyDivmod (fr + offset) 1
  let seconds := seconds + seconds2
  match interp seconds t.ts.leapTai t.ts.leapOffs with
  | none => none
  | some taiMinusUtc =>
    let (taiMinusUtc, leap) := pyDivmod taiMinusUtc 1
    some ⟨seconds - taiMinusUtc, fr, decide (leap > 0)⟩

/-- Result of `Time._utc_tuple`: calendar fields, with the integer Julian day of the date.
Used at skyfield/timelib.py:660-683. -/
structure UtcTuple (K : Type*) where
  year : ℤ
  month : ℤ
  day : ℤ
  hour : ℤ
  minute : ℤ
  second : K
  jd : ℤ

/-- `Time._utc_tuple(offset, return_jd=True)` — skyfield/timelib.py:660-683. -/
def Time.utcTuple (t : Time K) (offset : K) : Option (UtcTuple K) :=
  match t.utcSeconds offset with
  | none => none
  | some u =>
    let leap : ℤ := if u.isLeapSecond then 1 else 0
    let second := astypeInt u.seconds
    let second := second - leap
    let jd := (second + 43200) / 86400
    let second := (second + 43200) % 86400
    let date := computeCalendarDate jd t.ts.cutoff
    let minute := second / 60
    let second := second % 60
    let hour := minute / 60
    let minute := minute % 60
    let second := second + leap
    some ⟨date.year, date.month, date.day, hour, minute, (second : K) + u.fr, jd⟩

/-- `Time.toordinal()` — skyfield/timelib.py:504-514. -/
def Time.toordinal (t : Time K) : Option K :=
  match t.utcSeconds 0 with
  | none => none
  | some u => some ((u.seconds - 148731076800 + u.fr) / dayS)

/-- A Python `datetime` in UTC as built by `utc_datetime_and_leap_second`, with the flag.
Used at skyfield/timelib.py:526-570. -/
structure DatetimeLeap where
  year : ℤ
  month : ℤ
  day : ℤ
  hour : ℤ
  minute : ℤ
  second : ℤ
  micro : ℤ
  leapSecond : ℤ
deriving DecidableEq

/-- `Time.utc_datetime_and_leap_second()` — skyfield/timelib.py:526-570.  The `datetime(*args)`
constructor's own range check (years 1..9999) is not modelled. -/
def Time.utcDatetimeAndLeapSecond (t : Time K) : Option DatetimeLeap :=
  match t.utcTuple (1/2 / 1000000) with
  | none => none
  | some u =>
    let micro := astypeInt (u.second * 1000000)
    let second := micro / 1000000
    let micro := micro % 1000000
    let leapSecond := second / 60
    let second := second - leapSecond
    some ⟨u.year, u.month, u.day, u.hour, u.minute, second, micro, leapSecond⟩

/-- The numeric arguments of the format string in `utc_iso(places)` —
skyfield/timelib.py:572-602.  `%02d`/`%0nd` truncate their float argument towards zero; with
`places = 0` there is no fraction field (here 0). -/
structure IsoFields where
  year : ℤ
  month : ℤ
  day : ℤ
  hour : ℤ
  minute : ℤ
  second : ℤ
  fraction : ℤ
deriving DecidableEq

/-- `Time.utc_iso(places=…)` up to string formatting — skyfield/timelib.py:572-602. -/
def Time.utcIso (t : Time K) (places : ℕ) : Option IsoFields :=
  if places ≠ 0 then
    let powerOfTen : K := 10 ^ places
    let offset := 1/2 / powerOfTen
    match t.utcTuple offset with
    | none => none
    | some u =>
      let (second, fraction) := pyDivmod u.second 1
      let fraction := fraction * powerOfTen
      some ⟨u.year, u.month, u.day, u.hour, u.minute, astypeInt second, astypeInt fraction⟩
  else
    match t.utcTuple (1/2) with
    | none => none
    | some u => some ⟨u.year, u.month, u.day, u.hour, u.minute, astypeInt u.second, 0⟩

/-- `Timescale.from_datetime` on an aware UTC datetime — skyfield/timelib.py:133-142, 181-203 and
1201-1208.  (Conversion of other time zones to UTC is `datetime`'s own and is not modelled.) -/
def Timescale.fromDatetime (ts : Timescale K) (year month day hour minute second micro : ℤ) :
    Option (Time K) :=
  ts.utc year month day hour minute ((second : K) + micro / 1000000)

/-- `Time._leap_seconds` — skyfield/timelib.py:704-708. -/
def Time.leapSeconds (t : Time K) : Option K :=
  interp t.taiSeconds.1 t.ts.leapTai t.ts.leapOffs

/-- What the theorems assume of a leap second table: `leap_dates` are the midnights that start the
days `L` (in increasing order, at least one), and `leap_offsets` step by one second from `b + 1`.
The tables that `load.timescale()` builds have this form with `b = 10`
(see `C30_…` in `Props/TimescaleData.lean`). Used at skyfield/timelib.py:108-127. -/
structure IsLeapTable (ts : Timescale K) (L : List ℤ) (b : ℤ) : Prop where
  dates : ts.leapDates = L.map fun n : ℤ => (n : K) - 1/2
  offsets : ts.leapOffsets = (List.range L.length).map fun i : ℕ => ((b + 1 + i : ℤ) : K)
  sorted : L.Pairwise (· < ·)
  nonempty : L ≠ []

end Skyfield

namespace Skyfield
variable {K : Type*} [Field K] [LinearOrder K] [FloorRing K]

/-- `Time.tai` — skyfield/timelib.py:867-869 — in seconds since Julian date 0.0. -/
def Time.taiInstant (t : Time K) : K := (t.whole + t.taiFraction) * 86400

/-- The stored whole/fractional TAI seconds, if any, agree with `t.tai`.  Holds for every time the
API builds: trivially when nothing is stored, and by `C05_utc_instant` for `Timescale.utc`.
Used at skyfield/timelib.py:202, 697-703. -/
def Time.Coherent (t : Time K) : Prop :=
  (∃ n : ℤ, t.taiSeconds.1 = n) ∧ 0 ≤ t.taiSeconds.2 ∧ t.taiSeconds.2 < 1 ∧
    t.taiSeconds.1 + t.taiSeconds.2 = t.taiInstant

end Skyfield

namespace Skyfield
variable {K : Type*} [Field K] [LinearOrder K] [FloorRing K]

/-- The arguments of the format string in `utc_jpl()` — skyfield/timelib.py:604-626.
`bc` selects `'B.C.'` over `'A.D.'`. -/
structure JplFields where
  bc : Bool
  year : ℤ
  month : ℤ
  day : ℤ
  hour : ℤ
  minute : ℤ
  second : ℤ
  fraction : ℤ
deriving DecidableEq

/-- `Time.utc_jpl()` up to string formatting — skyfield/timelib.py:604-626.  The month is
shown by its name `MONTH_NAMES[month]` (index 1-12). -/
def Time.utcJpl (t : Time K) : Option JplFields :=
  match t.utcTuple (5 / 100000) with
  | none => none
  | some u =>
    let (second, fraction) := pyDivmod u.second 1
    let fraction := fraction * 10000
    let bc := decide (u.year < 1)
    let year := |u.year - (if bc then 1 else 0)|
    some ⟨bc, year, u.month, u.day, u.hour, u.minute, astypeInt second, astypeInt fraction⟩

/-- What the finest time unit in a `strftime` format is; decided by the regular expressions at
skyfield/timelib.py:1196-1198 (`%f`; `%S %T %X %c`; `%M %R`; anything else). -/
inductive StrftimeUnit
  | micro | second | minute | other
deriving DecidableEq

/-- `_strftime_offset_seconds` — skyfield/timelib.py:1218-1230. -/
def StrftimeUnit.offset : StrftimeUnit → K
  | .micro => 1 / 10 ^ 16
  | .second => 1 / 2
  | .minute => 30
  | .other => 0

/-- The `struct_time` fields handed to `time.strftime` (plus microseconds). Used at skyfield/timelib.py:628-658. -/
structure StrftimeFields where
  year : ℤ
  month : ℤ
  day : ℤ
  hour : ℤ
  minute : ℤ
  second : ℤ
  usec : ℤ
  weekday : ℤ
  yday : ℤ
deriving DecidableEq

/-- `Time.utc_strftime` up to the call of `time.strftime` — skyfield/timelib.py:628-658 and
1232-1256. -/
def Time.utcStrftime (t : Time K) (u : StrftimeUnit) : Option StrftimeFields :=
  match t.utcTuple u.offset with
  | none => none
  | some r =>
    let startOfYear := julianDay r.year 1 1 t.ts.cutoff
    let weekday := r.jd % 7
    let yday := r.jd + 1 - startOfYear
    if u = .micro then
      let second := astypeInt (r.second * 1000000)
      some ⟨r.year, r.month, r.day, r.hour, r.minute, second / 1000000, second % 1000000,
        weekday, yday⟩
    else
      some ⟨r.year, r.month, r.day, r.hour, r.minute, astypeInt r.second, 0, weekday, yday⟩

/-- `Time.dut1` — skyfield/timelib.py:846-848. -/
def Time.dut1 (t : Time K) : Option K :=
  match t.leapSeconds with
  | none => none
  | some l => some (32184 / 1000 + l - t.ts.deltaT (t.whole + t.ttFraction))

/-- The tuple returned by `calendar_tuple`. Used at skyfield/timelib.py:1037-1048. -/
structure CalendarTuple (K : Type*) where
  year : ℤ
  month : ℤ
  day : ℤ
  hour : ℤ
  minute : ℤ
  second : K

/-- `calendar_tuple(jd_float, fraction, julian_before)` — skyfield/timelib.py:1037-1048. -/
def calendarTuple (jd fraction : K) (julianBefore : Option ℤ) : CalendarTuple K :=
  let (whole1, fraction1) := pyDivmod jd 1
  let (whole2, fraction) := pyDivmod (fraction1 + fraction + 1/2) 1
  let whole := astypeInt (whole1 + whole2)
  let date := computeCalendarDate whole julianBefore
  let second := fraction * 86400
  let (minute, second) := pyDivmod second 60
  let minute := astypeInt minute
  let hour := minute / 60
  let minute := minute % 60
  ⟨date.year, date.month, date.day, hour, minute, second⟩

/-- `Timescale._jd` — skyfield/timelib.py:205-210 (calendar fields to whole + fraction). -/
def Timescale.jdOf (ts : Timescale K) (year month : ℤ) (day hour minute second : K) : K × K :=
  (julianDayFrac year month day ts.cutoff - 1/2, (second + minute * 60 + hour * 3600) / dayS)

/-- `Timescale._strftime` (used by `tt_strftime`, `tai_strftime`, …) up to the call of
`time.strftime` — skyfield/timelib.py:215-261; `yday` is computed always here, while the code
computes it only when the format has a `%j`, and otherwise passes 0: see `Timescale.strftimeText`. -/
def Timescale.strftime (ts : Timescale K) (u : StrftimeUnit) (jd fraction : K) : StrftimeFields :=
  let fraction := fraction + u.offset / dayS
  let c := calendarTuple jd fraction ts.cutoff
  let weekday := astypeInt (fraction + 1/2 + jd) % 7
  let startOfYear := julianDay c.year 1 1 ts.cutoff
  let yday := astypeInt (jd + fraction + 3/2 - (startOfYear : K))
  if u = .micro then
    let second := astypeInt (c.second * 1000000)
    ⟨c.year, c.month, c.day, c.hour, c.minute, second / 1000000, second % 1000000, weekday, yday⟩
  else
    ⟨c.year, c.month, c.day, c.hour, c.minute, astypeInt c.second, 0, weekday, yday⟩

end Skyfield
