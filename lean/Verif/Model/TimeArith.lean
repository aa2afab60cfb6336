import Verif.Model.Utc

/-
Model of the time scale constructors, time scale attributes, arithmetic and comparison of
`Timescale` and `Time` (skyfield/timelib.py).  `g jd fraction` stands for
`tdb_minus_tt(jd, fraction)` in seconds; the real one is in `Model/Tdb.lean`.
-/
namespace Skyfield

variable {K : Type*} [Field K] [LinearOrder K] [FloorRing K]

/-- `_normalize_jd_and_fraction` — skyfield/timelib.py:1210-1216 (scalars). -/
def normalizeJd (jd : K) (fraction : Option K) : K × K :=
  match fraction with
  | none => pyDivmod jd 1
  | some f => (jd, f)

/-- `Timescale.tt_jd` — skyfield/timelib.py:315-318. -/
def Timescale.ttJd (ts : Timescale K) (jd : K) (fraction : Option K) : Time K :=
  let (jd, fraction) := normalizeJd jd fraction
  { ts := ts, whole := jd, ttFraction := fraction }

/-- `Timescale.tt` with calendar fields — skyfield/timelib.py:301-313. -/
def Timescale.tt (ts : Timescale K) (year month : ℤ) (day hour minute second : K) : Time K :=
  let (whole, fraction) := ts.jdOf year month day hour minute second
  { ts := ts, whole := whole, ttFraction := fraction }

/-- `Timescale.tai_jd` — skyfield/timelib.py:294-299. -/
def Timescale.taiJd (ts : Timescale K) (jd : K) (fraction : Option K) : Time K :=
  let (jd, fraction) := normalizeJd jd fraction
  { ts := ts, whole := jd, ttFraction := fraction + ttMinusTai, taiFraction? := some fraction }

/-- `Timescale.tai` with calendar fields — skyfield/timelib.py:278-292. -/
def Timescale.tai (ts : Timescale K) (year month : ℤ) (day hour minute second : K) : Time K :=
  let (whole, fraction) := ts.jdOf year month day hour minute second
  { ts := ts, whole := whole, ttFraction := fraction + ttMinusTai, taiFraction? := some fraction }

/-- `Timescale.J` — skyfield/timelib.py:320-329. -/
def Timescale.julianYear (ts : Timescale K) (year : K) : Time K :=
  { ts := ts, whole := year * (36525 / 100) + 1721045, ttFraction := 0 }

/-- `Timescale.tdb` with calendar fields — skyfield/timelib.py:331-344. -/
def Timescale.tdb (ts : Timescale K) (g : K → K → K) (year month : ℤ) (day hour minute second : K) :
    Time K :=
  let (whole, fraction) := ts.jdOf year month day hour minute second
  let jd := whole + fraction
  { ts := ts, whole := jd, ttFraction := - g jd 0 / dayS }

/-- `Timescale.tdb_jd` — skyfield/timelib.py:346-351. -/
def Timescale.tdbJd (ts : Timescale K) (g : K → K → K) (jd : K) (fraction : Option K) : Time K :=
  let (jd, fraction) := normalizeJd jd fraction
  { ts := ts, whole := jd, ttFraction := fraction - g jd fraction / dayS,
    tdbFraction? := some fraction }

/-- `Timescale.ut1_jd` — skyfield/timelib.py:367-387. -/
def Timescale.ut1Jd (ts : Timescale K) (jd : K) : Time K :=
  let ut1 := jd
  let ttApprox := ut1
  let deltaTApprox := ts.deltaT ttApprox
  let ttApprox := ut1 + deltaTApprox / dayS
  let deltaTApprox := ts.deltaT ttApprox
  let deltaTApprox := deltaTApprox / dayS
  { ts := ts, whole := ut1, ttFraction := deltaTApprox, ut1Fraction? := some (0 * ut1) }

/-- `Time.tt` — skyfield/timelib.py:871-873. -/
def Time.tt (t : Time K) : K := t.whole + t.ttFraction

/-- `Time.tai` — skyfield/timelib.py:867-869. -/
def Time.tai (t : Time K) : K := t.whole + t.taiFraction

/-- `Time.J` — skyfield/timelib.py:811-820. -/
def Time.J (t : Time K) : K := (t.whole - 1721045 + t.ttFraction) / (36525 / 100)

/-- `Time.tdb_fraction` — skyfield/timelib.py:833-836. -/
def Time.tdbFraction (g : K → K → K) (t : Time K) : K :=
  match t.tdbFraction? with
  | some f => f
  | none => t.ttFraction + g t.whole t.ttFraction / dayS

/-- `Time.tdb` — skyfield/timelib.py:875-877. -/
def Time.tdb (g : K → K → K) (t : Time K) : K := t.whole + t.tdbFraction g

/-- `Time.delta_t` — skyfield/timelib.py:842-844. -/
def Time.deltaT (t : Time K) : K := t.ts.deltaT t.tt

/-- `Time.ut1_fraction` — skyfield/timelib.py:838-840. -/
def Time.ut1Fraction (t : Time K) : K :=
  match t.ut1Fraction? with
  | some f => f
  | none => t.ttFraction - t.deltaT / dayS

/-- `Time.ut1` — skyfield/timelib.py:879-881. -/
def Time.ut1 (t : Time K) : K := t.whole + t.ut1Fraction

/-- A Python `timedelta` as its three stored fields. Used at skyfield/timelib.py:923-932. -/
structure TimeDelta where
  days : ℤ
  seconds : ℤ
  microseconds : ℤ

/-- `Time.__add__` with a number — skyfield/timelib.py:923-932. -/
def Time.addNum (t : Time K) (x : K) : Time K :=
  let (w, f) := pyDivmod x 1
  t.ts.ttJd (t.whole + w) (some (t.ttFraction + f))

/-- `Time.__add__` with a `timedelta` — skyfield/timelib.py:923-932 (`DAY_US` is line 28). -/
def Time.addDelta (t : Time K) (d : TimeDelta) : Time K :=
  let w : K := d.days
  let f : K := d.seconds / dayS + d.microseconds / 86400000000
  t.ts.ttJd (t.whole + w) (some (t.ttFraction + f))

/-- `Time.__sub__` with a number — skyfield/timelib.py:934-947. -/
def Time.subNum (t : Time K) (x : K) : Time K :=
  let (w, f) := pyDivmod x 1
  t.ts.ttJd (t.whole - w) (some (t.ttFraction - f))

/-- `Time.__sub__` with a `timedelta` — skyfield/timelib.py:934-947. -/
def Time.subDelta (t : Time K) (d : TimeDelta) : Time K :=
  let w : K := d.days
  let f : K := d.seconds / dayS + d.microseconds / 86400000000
  t.ts.ttJd (t.whole - w) (some (t.ttFraction - f))

/-- `Time.__sub__` with another `Time` — skyfield/timelib.py:934-938. -/
def Time.diff (t other : Time K) : K :=
  t.whole - other.whole + (t.ttFraction - other.ttFraction)

/-- `Time.__eq__` with another `Time` — skyfield/timelib.py:914-917. -/
def Time.eq (t other : Time K) : Bool := t.diff other = 0

/-- `Time.__lt__` — skyfield/timelib.py:919-921. -/
def Time.lt (t other : Time K) : Bool :=
  (t.ttFraction - other.ttFraction) + (t.whole - other.whole) < 0

/-- `Time.__hash__` — skyfield/timelib.py:949-954 — for any hash function on numbers. -/
def Time.hash {H : Type*} (hashNum : K → H) (t : Time K) : H := hashNum t.tt

/-- `numpy.linspace(a, b, num)` in exact arithmetic: `num` points, `a` first; `num = 1` gives just
`a`.  External library: part of the trusted base. Used at skyfield/timelib.py:393-410. -/
def npLinspace (a b : K) (num : ℕ) : List K :=
  (List.range num).map fun i : ℕ => a + i * ((b - a) / ((num : K) - 1))

/-- `Timescale.linspace` — skyfield/timelib.py:393-410, as the list of its elements. -/
def Timescale.linspace (ts : Timescale K) (t0 t1 : Time K) (num : ℕ) : List (Time K) :=
  List.zipWith (fun w f => { ts := ts, whole := w, ttFraction := f })
    (npLinspace t0.whole t1.whole num) (npLinspace t0.ttFraction t1.ttFraction num)

end Skyfield
