import Verif.Model.TimeArith
import Mathlib.Data.Rat.Floor

/-
The same code as `Model/Utc.lean` and `Model/TimeArith.lean`, but with the rounding of every
floating point operation written out: `fl x` is the float that the processor returns when the exact
result of an operation is `x`.  The numbers a `Time` stores are rationals here, so that exact and
rounded values can be compared.
-/
namespace Skyfield

variable (fl : ℚ → ℚ)

/-- `divmod(x, b)` on floats: Python and NumPy take the quotient from `fmod`, which is exact, so
it is the exact floor (for quotients below `2^53`); the remainder is `fmod(x, b)`, or that plus `b`
rounded when it was negative. Used at skyfield/timelib.py:181-203. -/
def divmodF (x b : ℚ) : ℚ × ℚ := (((⌊x / b⌋ : ℤ) : ℚ), fl (x - b * ((⌊x / b⌋ : ℤ) : ℚ)))

/-- `tt_minus_tai = array(32.184 / DAY_S)` — skyfield/timelib.py:75. -/
def ttMinusTaiF : ℚ := fl (fl (32184 / 1000) / 86400)

/-- `numpy.interp` on floats: the exact value, rounded once.  (Simplification: NumPy rounds the
slope, the product and the sum; for the leap second tables all of them are exact.)
Used at skyfield/timelib.py:181-203. -/
def interpF (x : ℚ) (xp fp : List ℚ) : Option ℚ := (interp x xp fp).map fl

/-- `Timescale._utc(tup)` — skyfield/timelib.py:181-203, on integer dates (which `julian_day`
computes in integers). -/
def Timescale.utcF (ts : Timescale ℚ) (year month day : ℤ) (hour minute second : ℚ) :
    Option (Time ℚ) :=
  let seconds := fl (fl ((julianDay year month day ts.cutoff : ℚ) - 1/2) * 86400)
  let (seconds, sfr) := divmodF fl seconds 1
  match interpF fl seconds ts.leapUtc ts.leapOffs with
  | none => none
  | some offset =>
    let seconds := fl (seconds + offset)
    let more := fl (fl (fl (hour * 3600) + fl (minute * 60)) + second)
    let (seconds2, sfr) := divmodF fl (fl (sfr + more)) 1
    let seconds := fl (seconds + seconds2)
    let (whole, fraction) := divmodF fl seconds 86400
    let fraction := fl (fraction + sfr)
    let fraction := fl (fraction / 86400)
    some { ts := ts, whole := whole, ttFraction := fl (fraction + ttMinusTaiF fl),
           taiFraction? := some fraction, taiSeconds? := some (seconds, sfr) }

/-- `Time.tai_fraction` — skyfield/timelib.py:829-831. -/
def Time.taiFractionF (t : Time ℚ) : ℚ :=
  match t.taiFraction? with
  | some f => f
  | none => fl (t.ttFraction - ttMinusTaiF fl)

/-- `Time._tai_seconds` — skyfield/timelib.py:696-702. -/
def Time.taiSecondsF (t : Time ℚ) : ℚ × ℚ :=
  match t.taiSeconds? with
  | some s => s
  | none =>
    let (seconds, fr) := divmodF fl (fl (t.whole * 86400)) 1
    let (seconds2, fr) := divmodF fl (fl (fr + fl (t.taiFractionF fl * 86400))) 1
    (fl (seconds + seconds2), fr)

/-- `Time._utc_seconds(offset)` — skyfield/timelib.py:685-694. -/
def Time.utcSecondsF (t : Time ℚ) (offset : ℚ) : Option (UtcSeconds ℚ) :=
  let (seconds, fr) := t.taiSecondsF fl
  let (seconds2, fr) := divmodF fl (fl (fr + offset)) 1
  let seconds := fl (seconds + seconds2)
  match interpF fl seconds t.ts.leapTai t.ts.leapOffs with
  | none => none
  | some taiMinusUtc =>
    let (taiMinusUtc, leap) := divmodF fl taiMinusUtc 1
    some ⟨fl (seconds - taiMinusUtc), fr, decide (leap > 0)⟩

/-- `Time._utc_tuple(offset, return_jd=True)` — skyfield/timelib.py:660-683; `t.utc` is this with
`offset = 0` — skyfield/timelib.py:822-827. -/
def Time.utcTupleF (t : Time ℚ) (offset : ℚ) : Option (UtcTuple ℚ) :=
  match t.utcSecondsF fl offset with
  | none => none
  | some u =>
    let leap : ℤ := if u.isLeapSecond then 1 else 0
    let second := astypeInt u.seconds
    let second := second - leap
    let jd := (second + 43200) / 86400
    let second := (second + 43200) % 86400
    let date := computeCalendarDate jd t.ts.cutoff
    let minute := second / 60
    let second := second % 60
    let hour := minute / 60
    let minute := minute % 60
    let second := second + leap
    some ⟨date.year, date.month, date.day, hour, minute, fl ((second : ℚ) + u.fr), jd⟩

/-- `Timescale._jd` — skyfield/timelib.py:205-210, on integer dates. -/
def Timescale.jdOfF (ts : Timescale ℚ) (year month day : ℤ) (hour minute second : ℚ) : ℚ × ℚ :=
  (fl ((julianDay year month day ts.cutoff : ℚ) - 1/2),
   fl (fl (fl (second + fl (minute * 60)) + fl (hour * 3600)) / 86400))

/-- `Timescale.tt` with calendar fields — skyfield/timelib.py:301-313. -/
def Timescale.ttF (ts : Timescale ℚ) (year month day : ℤ) (hour minute second : ℚ) : Time ℚ :=
  let (whole, fraction) := ts.jdOfF fl year month day hour minute second
  { ts := ts, whole := whole, ttFraction := fraction }

/-- `Time.tt` — skyfield/timelib.py:871-873. -/
def Time.ttF (t : Time ℚ) : ℚ := fl (t.whole + t.ttFraction)

/-- `Time.__sub__` with another `Time` — skyfield/timelib.py:934-938. -/
def Time.diffF (t other : Time ℚ) : ℚ :=
  fl (fl (t.whole - other.whole) + fl (t.ttFraction - other.ttFraction))

/-- `Time.__eq__` with another `Time` — skyfield/timelib.py:914-917. -/
def Time.eqF (t other : Time ℚ) : Bool := t.diffF fl other = 0

/-- `Time.__lt__` — skyfield/timelib.py:919-921. -/
def Time.ltF (t other : Time ℚ) : Bool :=
  fl (fl (t.ttFraction - other.ttFraction) + fl (t.whole - other.whole)) < 0

/-- `Time.__hash__` — skyfield/timelib.py:949-954 — for any hash function on numbers. -/
def Time.hashF {H : Type*} (hashNum : ℚ → H) (t : Time ℚ) : H := hashNum (t.ttF fl)

/-- `Time.__add__` with a number — skyfield/timelib.py:923-932. -/
def Time.addNumF (t : Time ℚ) (x : ℚ) : Time ℚ :=
  let (w, f) := divmodF fl x 1
  { ts := t.ts, whole := fl (t.whole + w), ttFraction := fl (t.ttFraction + f) }

/-- `Time.__add__` with a `timedelta` — skyfield/timelib.py:923-932 (`DAY_US` is line 28). -/
def Time.addDeltaF (t : Time ℚ) (d : TimeDelta) : Time ℚ :=
  let w : ℚ := d.days
  let f : ℚ := fl (fl (d.seconds / 86400) + fl (d.microseconds / 86400000000))
  { ts := t.ts, whole := fl (t.whole + w), ttFraction := fl (t.ttFraction + f) }

/-- `calendar_tuple(jd_float, fraction, julian_before)` — skyfield/timelib.py:1037-1048; the last
field here is the integer `whole`, the day number whose date is reported. -/
def calendarTupleF (jd fraction : ℚ) (julianBefore : Option ℤ) : CalendarTuple ℚ × ℤ :=
  let (whole1, fraction1) := divmodF fl jd 1
  let (whole2, fraction) := divmodF fl (fl (fl (fraction1 + fraction) + 1/2)) 1
  let whole := astypeInt (fl (whole1 + whole2))
  let date := computeCalendarDate whole julianBefore
  let second := fl (fraction * 86400)
  let (minute, second) := divmodF fl second 60
  let minute := astypeInt minute
  let hour := minute / 60
  let minute := minute % 60
  (⟨date.year, date.month, date.day, hour, minute, second⟩, whole)

/-- `_strftime_offset_seconds` — skyfield/timelib.py:1218-1230: the float written `1e-16` is not
exactly 10⁻¹⁶; the others are exact. -/
def StrftimeUnit.offsetF (u : StrftimeUnit) : ℚ := fl u.offset

/-- `Timescale._strftime` (used by `tt_strftime`, `tai_strftime`, …) up to the call of
`time.strftime` — skyfield/timelib.py:215-261; `yday` is computed always here, while the code
computes it only when the format uses it (and otherwise passes 0, which is not shown). -/
def Timescale.strftimeF (ts : Timescale ℚ) (u : StrftimeUnit) (jd fraction : ℚ) : StrftimeFields :=
  let fraction := fl (fraction + fl (u.offsetF fl / 86400))
  let c := (calendarTupleF fl jd fraction ts.cutoff).1
  let weekday := astypeInt (fl (fl (fraction + 1/2) + jd)) % 7
  let startOfYear := julianDay c.year 1 1 ts.cutoff
  let yday := astypeInt (fl (fl (fl (jd + fraction) + 3/2) - (startOfYear : ℚ)))
  if u = .micro then
    let second := astypeInt (fl (c.second * 1000000))
    ⟨c.year, c.month, c.day, c.hour, c.minute, second / 1000000, second % 1000000, weekday, yday⟩
  else
    ⟨c.year, c.month, c.day, c.hour, c.minute, astypeInt c.second, 0, weekday, yday⟩

end Skyfield
