import Verif.Model.EarthRotation
import Verif.Model.Frames
import Verif.Model.Units

/-
The position, velocity and error message of an Earth satellite, and the two ways to its Earth-fixed coordinates —
skyfield/sgp4lib.py:169-213.  Exact real arithmetic.  The SGP4 propagator itself is not modelled: its answer is any number and
any two vectors.
-/
namespace Skyfield

/-- What the satellite code reads of a `Time`: what the rotations read, `t.whole` and `t.ut1_fraction`.
Used at skyfield/sgp4lib.py:204-213. -/
structure SatTime where
  sky : SkyTime
  whole : ℝ
  ut1Fraction : ℝ

/-- What the SGP4 propagator returns: an error number, kilometres, and kilometres per second, in its own frame.
Used at skyfield/sgp4lib.py:196, 207. -/
structure Sgp4Answer where
  error : ℕ
  position : Vec3
  velocity : Vec3

/-- The error message of one answer: `SGP4_ERRORS[error] if error else None` — skyfield/sgp4lib.py:183, 187.  A number that
the table does not have raises `KeyError`: `none`. -/
def sgp4Message (errors : ℕ → Option String) (error : ℕ) : Option (Option String) :=
  if error ≠ 0 then (errors error).map some else some none

/-- `r /= AU_KM` — skyfield/sgp4lib.py:196, 207. -/
noncomputable def Sgp4Answer.au (a : Sgp4Answer) : Vec3 := (1 / auKm : ℝ) • a.position

/-- `v /= AU_KM; v *= DAY_S` — skyfield/sgp4lib.py:197-198, 208-209. -/
noncomputable def Sgp4Answer.auPerDay (a : Sgp4Answer) : Vec3 := (daySeconds : ℝ) • ((1 / auKm : ℝ) • a.velocity)

/-- `EarthSatellite._at`: position, velocity and message — skyfield/sgp4lib.py:204-213. -/
noncomputable def earthSatelliteAt (errors : ℕ → Option String) (t : SatTime) (a : Sgp4Answer) :
    Option (Vec3 × Vec3 × Option String) :=
  (sgp4Message errors a.error).map fun message =>
    let rt := (temeRotation t.sky (thetaGMST1982 t.whole t.ut1Fraction).1).transpose
    (rt.mulVec a.au, rt.mulVec a.auPerDay, message)

/-- `EarthSatellite.ITRF_position_velocity_error` — skyfield/sgp4lib.py:190-202. -/
noncomputable def itrfPositionVelocityError (errors : ℕ → Option String) (t : SatTime) (a : Sgp4Answer) :
    Option (Vec3 × Vec3 × Option String) :=
  (sgp4Message errors a.error).map fun message =>
    let (r, v) := temeToItrf t.whole a.au a.auPerDay 0 0 t.ut1Fraction
    (r, v, message)

end Skyfield
