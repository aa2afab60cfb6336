import Verif.Model.Utc
import Verif.Model.TimeArith

/-
Epochs and identity of Earth satellites — skyfield/sgp4lib.py:85-150, skyfield/timelib.py:263-276.  Floating point numbers are
taken as exact.  Parsing of the TLE text (`Satrec.twoline2rv`) and of OMM fields belongs to the `sgp4` package and is not modelled.
-/
namespace Skyfield

variable {K : Type*} [Field K] [LinearOrder K] [FloorRing K]

/-- The full year of a two-digit epoch year — skyfield/sgp4lib.py:96-100. -/
def satEpochYear (twoDigitYear : ℤ) : ℤ :=
  if twoDigitYear < 57 then twoDigitYear + 2000 else twoDigitYear + 1900

/-- `EarthSatellite._setup`: the target code — skyfield/sgp4lib.py:106-111. -/
def satTarget (satnum : ℤ) : ℤ := -100000 - satnum

/-- The epoch set by `EarthSatellite.__init__` — skyfield/sgp4lib.py:96-102. -/
def satEpochTle (ts : Timescale K) (epochyr : ℤ) (epochdays : K) : Option (Time K) :=
  ts.utc (satEpochYear epochyr) 1 epochdays 0 0 0

/-- The epoch set by `EarthSatellite.from_satrec` — skyfield/sgp4lib.py:113-133. -/
def satEpochSatrec (ts : Timescale K) (jdsatepoch jdsatepochF : K) : Option (Time K) :=
  let (whole, fraction) := pyDivmod jdsatepoch 1
  let date := computeCalendarDate (astypeInt whole) none
  let day : K := date.day
  let day := day + 1 / 2
  ts.utc date.year date.month (day + fraction + jdsatepochF) 0 0 0

/-- `Timescale._utc_jd` — skyfield/timelib.py:263-276. -/
def Timescale.utcJd (ts : Timescale K) (whole fraction : K) : Option (Time K) :=
  let seconds := whole * dayS
  let (seconds2, fractionS) := pyDivmod (fraction * dayS) 1
  let seconds := seconds + seconds2
  match interp seconds ts.leapUtc ts.leapOffs with
  | none => none
  | some offset =>
    let seconds := seconds + offset
    let (whole, fraction) := pyDivmod seconds dayS
    let fraction := fraction + fractionS
    let fraction := fraction / dayS
    some (ts.taiJd whole (some fraction))

/-- The epoch set by `EarthSatellite.from_omm` — skyfield/sgp4lib.py:135-150. -/
def satEpochOmm (ts : Timescale K) (jdsatepoch jdsatepochF : K) : Option (Time K) := ts.utcJd jdsatepoch jdsatepochF

/-- The date handed to the SGP4 propagator, whole and fraction — skyfield/sgp4lib.py:178-179. -/
def sgp4Date (t : Time K) : Option (K × K) := do
  let leap ← t.leapSeconds
  return (t.whole, t.taiFraction - leap / dayS)

end Skyfield
