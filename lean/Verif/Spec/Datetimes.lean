import Verif.Spec.Calendar

/-
Independent specification of Python's aware `datetime`: wall clock fields in the proleptic
Gregorian calendar (years 1 to 9999) with an offset from UTC.  Microseconds are counted from
0001-01-01 00:00.
-/
namespace Spec

/-- What `dt.tzinfo` is good for: whether it is the very object `skyfield.api.utc`, and
`dt.utcoffset()` in microseconds. -/
structure TzOffset where
  isUtc : Bool
  offset : Int
deriving DecidableEq

/-- A Python `datetime`; `tz = none` is a naive one. -/
structure PyDatetime where
  year : Int
  month : Int
  day : Int
  hour : Int
  minute : Int
  second : Int
  micro : Int
  tz : Option TzOffset
deriving DecidableEq

/-- The microseconds in the years 1 to 9999. -/
def datetimeSpan : Int := 3652059 * 86400000000

/-- The wall clock of `dt` shows `u` microseconds since 0001-01-01 00:00 (day 1721426). -/
def ShowsClock (dt : PyDatetime) (u : Int) : Prop :=
  1 ≤ dt.year ∧ dt.year ≤ 9999 ∧ 0 ≤ dt.hour ∧ dt.hour ≤ 23 ∧ 0 ≤ dt.minute ∧ dt.minute ≤ 59 ∧
    0 ≤ dt.second ∧ dt.second ≤ 59 ∧ 0 ≤ dt.micro ∧ dt.micro ≤ 999999 ∧
    ∃ D, CivilDate none dt.year dt.month dt.day D ∧
      u = (D - 1721426) * 86400000000 + dt.hour * 3600000000 + dt.minute * 60000000 +
        dt.second * 1000000 + dt.micro

/-- `dt` is an aware datetime, and the moment it names is `v` microseconds after 0001-01-01 00:00
by the UTC clock: its own clock, less its offset, shows that. -/
def NamesUtc (dt : PyDatetime) (v : Int) : Prop :=
  ∃ tz, dt.tz = some tz ∧ (tz.isUtc = true → tz.offset = 0) ∧ ShowsClock dt (v + tz.offset)

end Spec
