import Verif.Model.Utc
import Verif.Model.TimeArith
import Verif.Model.PolarMotion

/-
Model of one `Timescale` in use: a program sets its two public settings, `julian_calendar_cutoff` and the polar motion
table, whenever it likes, and makes and reads times in between.  A `Time` keeps a reference to its timescale
(`self.ts`), so it sees later settings; but an attribute marked `@reify` is computed on the first read and then kept.
Of the attributes and methods that depend on the two settings only `.utc` is marked so.
-/
namespace Skyfield

variable {K : Type} [Field K] [LinearOrder K] [FloorRing K]

/-- A `Time` object: what its constructor stored (timelib.py:412-438), and the entry `utc` of its `__dict__`, which
`reify` fills on the first read of `.utc` — skyfield/timelib.py:822-827, skyfield/descriptorlib.py:3-14. -/
structure TimeObject (K : Type) where
  time : Time K
  utc : Option (UtcTuple K)

/-- A timescale with its settings — skyfield/timelib.py:97, 111 (`polar_motion_table`, `julian_calendar_cutoff`) — and
the times that have been made with it, in order. -/
structure TimescaleState (K : Type) where
  ts : Timescale K
  polar : Option (PolarTable K)
  times : List (TimeObject K)

/-- One thing a program does with a timescale and its times; times are named by the order in which they were made.
Used at skyfield/timelib.py:97-330 and 696-974. -/
inductive TimescaleUse (K : Type)
  /-- `ts.julian_calendar_cutoff = c` -/
  | setCutoff (c : Option ℤ)
  /-- `iers.install_polar_motion_table(ts, rows)` -/
  | installPolar (rows : List (FinalsRow K))
  /-- `ts.utc(y, m, d, h, mi, s)` -/
  | makeUtc (y m : ℤ) (d h mi s : K)
  /-- `ts.tt(y, m, d, h, mi, s)` -/
  | makeTt (y m : ℤ) (d h mi s : K)
  /-- `ts.tt_jd(jd, fraction)` -/
  | makeTtJd (jd : K) (fraction : Option K)
  /-- `t + x` for a number of days `x` -/
  | add (i : ℕ) (x : K)
  /-- `t.utc` -/
  | readUtc (i : ℕ)
  /-- `t.utc_iso(places=p)` -/
  | readIso (i p : ℕ)
  /-- `t.utc_strftime(format)` -/
  | readUtcStrftime (i : ℕ) (u : StrftimeUnit)
  /-- `t.tt_calendar()` -/
  | readTtCalendar (i : ℕ)
  /-- `t.tt_strftime(format)` -/
  | readTtStrftime (i : ℕ) (u : StrftimeUnit)
  /-- `t.tt` -/
  | readTt (i : ℕ)
  /-- `t.polar_motion_angles()` -/
  | readPolar (i : ℕ)

/-- What the program gets back. Used at skyfield/timelib.py:97-330 and 696-974. -/
inductive TimescaleAnswer (K : Type)
  /-- nothing: a setting was changed or a time was made -/
  | done
  /-- an exception: an empty leap second or polar motion table, or no such time -/
  | raised
  | utc (u : UtcTuple K)
  | iso (f : IsoFields)
  | text (f : StrftimeFields)
  | calendar (c : CalendarTuple K)
  | number (x : K)
  | angles (a : K × K × K)

/-- The time as its methods see it now: `self.ts` is the timescale itself, not a copy — skyfield/timelib.py:426-427. -/
def TimeObject.now (o : TimeObject K) (s : TimescaleState K) : Time K := { o.time with ts := s.ts }

/-- A constructor appends its time, with nothing cached yet. Used at skyfield/timelib.py:97-330. -/
def TimescaleState.push (s : TimescaleState K) (t : Time K) : TimescaleState K :=
  { s with times := s.times ++ [⟨t, none⟩] }

/-- A method that may raise. Used at skyfield/timelib.py:97-330 and 696-974. -/
def answerOf {A : Type} (f : A → TimescaleAnswer K) : Option A → TimescaleAnswer K
  | none => .raised
  | some a => f a

/-- `reify.__get__` for `.utc`: the stored value if there is one, else `_utc_tuple(0.0)`, which is stored —
skyfield/timelib.py:822-827, skyfield/descriptorlib.py:3-14. -/
def TimescaleState.utcAttr (s : TimescaleState K) (i : ℕ) (o : TimeObject K) :
    TimescaleState K × TimescaleAnswer K :=
  match o.utc with
  | some u => (s, .utc u)
  | none =>
    match (o.now s).utcTuple 0 with
    | none => (s, .raised)
    | some u => ({ s with times := s.times.set i { o with utc := some u } }, .utc u)

variable (polar : Option (PolarTable K) → K → K → Option (K × K × K)) (g : K → K → K)

/-- One step.  `polar` is `polar_motion_angles` given the table, TT and TDB (timelib.py:885-891; over ℝ it is
`polarMotionAngles`), `g` is `tdb_minus_tt`.  Lines: `_utc` and `_jd` 181-210, `_cal` 212-213, `_strftime` 215-240,
`tt_calendar`, `tt_strftime` 716-718, 734-736, `utc_iso` 572-602, `utc_strftime` 617-658, `__add__` 893-900;
`install_polar_motion_table` skyfield/data/iers.py:29-35. -/
def TimescaleState.step (s : TimescaleState K) : TimescaleUse K → TimescaleState K × TimescaleAnswer K
  | .setCutoff c => ({ s with ts := { s.ts with cutoff := c } }, .done)
  | .installPolar rows =>
    match installPolarMotionTable s.ts rows with
    | none => (s, .raised)
    | some p => ({ s with polar := some p }, .done)
  | .makeUtc y m d h mi sec =>
    match s.ts.utc y m d h mi sec with
    | none => (s, .raised)
    | some t => (s.push t, .done)
  | .makeTt y m d h mi sec => (s.push (s.ts.tt y m d h mi sec), .done)
  | .makeTtJd jd fraction => (s.push (s.ts.ttJd jd fraction), .done)
  | .add i x =>
    match s.times[i]? with
    | none => (s, .raised)
    | some o => (s.push ((o.now s).addNum x), .done)
  | .readUtc i =>
    match s.times[i]? with
    | none => (s, .raised)
    | some o => s.utcAttr i o
  | .readIso i p => (s, answerOf .iso (s.times[i]?.bind fun o => (o.now s).utcIso p))
  | .readUtcStrftime i u => (s, answerOf .text (s.times[i]?.bind fun o => (o.now s).utcStrftime u))
  | .readTtCalendar i =>
    (s, answerOf .calendar (s.times[i]?.map fun o => calendarTuple o.time.whole o.time.ttFraction s.ts.cutoff))
  | .readTtStrftime i u =>
    (s, answerOf .text (s.times[i]?.map fun o => s.ts.strftime u o.time.whole o.time.ttFraction))
  | .readTt i => (s, answerOf .number (s.times[i]?.map fun o => o.time.tt))
  | .readPolar i => (s, answerOf .angles (s.times[i]?.bind fun o => polar s.polar o.time.tt (o.time.tdb g)))

/-- A program: one use after the other. Used at skyfield/timelib.py:97-111. -/
def TimescaleState.run (s : TimescaleState K) (uses : List (TimescaleUse K)) : TimescaleState K :=
  uses.foldl (fun s u => (s.step polar g u).1) s

end Skyfield
