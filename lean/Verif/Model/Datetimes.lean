import Verif.Model.Utc
import Verif.Spec.Datetimes

/-
Model of the `datetime` side of `Timescale` and `Time` (skyfield/timelib.py): times from aware
datetimes in any zone, and datetimes from times.  Python's own `datetime` arithmetic is not in
/repo; its documented behaviour is modelled by `wallMicros`, `ofWallMicros` and `astimezone`.
-/
namespace Skyfield
open Spec

variable {K : Type*} [Field K] [LinearOrder K] [FloorRing K]

/-- The exceptions these functions raise. Used at skyfield/timelib.py:1201-1208. -/
inductive DatetimeError
  /-- `ValueError(_naive_complaint)` — skyfield/timelib.py:1204. -/
  | naive
  /-- `OverflowError` of Python's `datetime` arithmetic: a date outside years 1 to 9999. -/
  | overflow
  /-- The `ValueError` of Python's `datetime()` constructor, unchanged. -/
  | badDate
  /-- … "does not support negative years like the year {}" — skyfield/timelib.py:1260-1262. -/
  | negativeYear (year : ℤ)
  /-- … "does not support Julian leap days like {} February 29 that are missing from the
  Gregorian calendar" — skyfield/timelib.py:1263-1266. -/
  | julianLeapDay (year : ℤ)
  /-- `IndexError`, from `year[0]` of an empty list — skyfield/timelib.py:173. -/
  | index
  /-- `ValueError: not enough values to unpack` — skyfield/timelib.py:184 given an empty tuple. -/
  | unpack
  /-- The exception NumPy raises on an empty leap second table. -/
  | emptyTable
deriving DecidableEq

/-- The clock reading of a `datetime`, in microseconds since 0001-01-01 00:00 (Python's
`datetime` is proleptic Gregorian). Used at skyfield/timelib.py:1201-1208. -/
def wallMicros (dt : PyDatetime) : ℤ :=
  (julianDay dt.year dt.month dt.day none - 1721426) * 86400000000 + dt.hour * 3600000000 +
    dt.minute * 60000000 + dt.second * 1000000 + dt.micro

/-- The `datetime` whose clock shows `u` microseconds since 0001-01-01 00:00; `OverflowError`
outside years 1 to 9999. Used at skyfield/timelib.py:1201-1208. -/
def ofWallMicros (u : ℤ) (tz : Option TzOffset) : Except DatetimeError PyDatetime :=
  if 0 ≤ u ∧ u < datetimeSpan then
    let date := computeCalendarDate (1721426 + u / 86400000000) none
    let r := u % 86400000000
    .ok ⟨date.year, date.month, date.day, r / 3600000000, r % 3600000000 / 60000000,
      r % 60000000 / 1000000, r % 1000000, tz⟩
  else .error .overflow

/-- A time zone: whether it is the object `skyfield.api.utc`; its offset from UTC as a function of
UTC (what `tz.fromutc` applies), in microseconds; and whether it has a pytz `normalize` method.
Used at skyfield/timelib.py:50-66. -/
structure Zone where
  isUtc : Bool
  offset : ℤ → ℤ
  normalizes : Bool

/-- The object `utc` — skyfield/timelib.py:50-66. -/
def utcZone : Zone := ⟨true, fun _ => 0, false⟩

/-- Python's `datetime.astimezone`: subtract the offset, then `tz.fromutc`. Used at skyfield/timelib.py:1201-1208. -/
def astimezone (dt : PyDatetime) (own : TzOffset) (z : Zone) : Except DatetimeError PyDatetime :=
  match ofWallMicros (wallMicros dt - own.offset) (some ⟨true, 0⟩) with
  | .error e => .error e
  | .ok u => ofWallMicros (wallMicros u + z.offset (wallMicros u))
      (some ⟨z.isUtc, z.offset (wallMicros u)⟩)

/-- `_datetime_to_utc_tuple(dt)` — skyfield/timelib.py:1201-1208.  The last two fields stand for
`dt.second + dt.microsecond / 1e6`. -/
def datetimeToUtcTuple (dt : PyDatetime) : Except DatetimeError PyDatetime :=
  match dt.tz with
  | none => .error .naive
  | some tz =>
    if tz.isUtc = false then astimezone dt tz utcZone
    else .ok dt

/-- `Timescale._utc` on the tuple of `datetimeToUtcTuple` — skyfield/timelib.py:181-203. -/
def Timescale.utcOfTuple (ts : Timescale K) (u : PyDatetime) : Except DatetimeError (Time K) :=
  match ts.fromDatetime u.year u.month u.day u.hour u.minute u.second u.micro with
  | none => .error .emptyTable
  | some t => .ok t

/-- `Timescale.from_datetime(datetime)` — skyfield/timelib.py:133-142. -/
def Timescale.ofDatetime (ts : Timescale K) (dt : PyDatetime) : Except DatetimeError (Time K) :=
  match datetimeToUtcTuple dt with
  | .error e => .error e
  | .ok u => ts.utcOfTuple u

/-- `Timescale.from_datetimes(datetime_list)` — skyfield/timelib.py:144-155.  The array of times
is modelled as the list of its elements; `zip(*tuples)` of no tuples has nothing to unpack. -/
def Timescale.ofDatetimes (ts : Timescale K) (dts : List PyDatetime) :
    Except DatetimeError (List (Time K)) :=
  match dts.mapM datetimeToUtcTuple with
  | .error e => .error e
  | .ok [] => .error .unpack
  | .ok us => us.mapM ts.utcOfTuple

/-- What may be passed to `ts.utc()`: a datetime, a date, a list of datetimes, or numbers.
Used at skyfield/timelib.py:157-179. -/
inductive UtcArgs (K : Type*)
  | datetime (dt : PyDatetime)
  | date (year month day : ℤ)
  | datetimes (dts : List PyDatetime)
  | numbers (year month : ℤ) (day hour minute second : K)

/-- `Timescale.utc(year, …)` — skyfield/timelib.py:157-179.  `_time_zero` is
`time(tzinfo=utc)` (skyfield/timelib.py:71).  Lists of numbers (elementwise `numbers`) and
lists of anything else are not modelled. -/
def Timescale.utcCall (ts : Timescale K) : UtcArgs K → Except DatetimeError (List (Time K))
  | .datetime dt => (ts.ofDatetime dt).map fun t => [t]
  | .date y m d => (ts.ofDatetime ⟨y, m, d, 0, 0, 0, 0, some ⟨true, 0⟩⟩).map fun t => [t]
  | .datetimes [] => .error .index
  | .datetimes (d :: ds) => ts.ofDatetimes (d :: ds)
  | .numbers y m d hh mi s =>
    match ts.utc y m d hh mi s with
    | none => .error .emptyTable
    | some t => .ok [t]

/-- `_upgrade_datetime_exception(args, e)` — skyfield/timelib.py:1258-1266. -/
def upgradeDatetimeException (f : DatetimeLeap) : DatetimeError :=
  if f.year < 0 then .negativeYear f.year
  else if f.month = 2 ∧ f.day = 29 then .julianLeapDay f.year
  else .badDate

/-- `Time.utc_datetime_and_leap_second()` with the range checks of the `datetime(*args)`
constructor — skyfield/timelib.py:526-570 (the fields are those of
`Time.utcDatetimeAndLeapSecond`; hour, minute, second and microsecond are always in range). -/
def Time.utcDatetime (t : Time K) : Except DatetimeError (PyDatetime × ℤ) :=
  match t.utcDatetimeAndLeapSecond with
  | none => .error .emptyTable
  | some f =>
    if 1 ≤ f.year ∧ f.year ≤ 9999 ∧ ValidDate gregorianLeap f.year f.month f.day then
      .ok (⟨f.year, f.month, f.day, f.hour, f.minute, f.second, f.micro, some ⟨true, 0⟩⟩,
        f.leapSecond)
    else .error (upgradeDatetimeException f)

/-- pytz's `tz.normalize(dt)`: work the local time out again from UTC. Used at skyfield/timelib.py:469-502. -/
def Zone.normalize (z : Zone) (dt : PyDatetime) : Except DatetimeError PyDatetime :=
  match dt.tz with
  | none => .error .naive
  | some tz => astimezone dt tz z

/-- `Time.astimezone_and_leap_second(tz)` — skyfield/timelib.py:469-502 (`astimezone(tz)`, lines
459-467, is its first component). -/
def Time.astimezoneAndLeapSecond (t : Time K) (z : Zone) : Except DatetimeError (PyDatetime × ℤ) :=
  match t.utcDatetime with
  | .error e => .error e
  | .ok (dt, leap) =>
    match astimezone dt ⟨true, 0⟩ z with
    | .error e => .error e
    | .ok d =>
      if z.normalizes then
        match z.normalize d with
        | .error e => .error e
        | .ok d => .ok (d, leap)
      else .ok (d, leap)

end Skyfield
