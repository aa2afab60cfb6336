import Verif.Model.Frames
import Verif.Model.EarthRotation
import Verif.Model.Places

/-
`altaz()` with the weather: skyfield/positionlib.py:883-908 and skyfield/toposlib.py:100-116.  Exact real arithmetic.
-/
namespace Skyfield

/-- A temperature or pressure argument: the string `'standard'`, or a number — skyfield/toposlib.py:106-108. -/
inductive Weather where
  | standard
  | number (x : ℝ)

/-- `GeographicPosition.refract`, in degrees, at an elevation in meters — skyfield/toposlib.py:100-116.  `none`: the loop is still
going after `fuel` rounds. -/
noncomputable def placeRefract (elevationM altitudeDegrees : ℝ) (temperature pressure : Weather) (fuel : ℕ) : Option ℝ :=
  let t := match temperature with
    | .standard => 10
    | .number x => x
  let p := match pressure with
    | .standard => standardPressure elevationM
    | .number x => x
  refract altitudeDegrees t p fuel

/-- What `altaz()` may do besides answering. Used at skyfield/positionlib.py:895-908. -/
inductive AltazOutcome where
  /-- Altitude in degrees, azimuth in radians, distance in au. -/
  | answer (altitudeDegrees azimuth distance : ℝ)
  /-- `ValueError(_altaz_message)`. -/
  | valueError
  /-- The loop of `refract` has not ended. -/
  | running

/-- `_to_altaz` after the rotation is chosen — skyfield/positionlib.py:895-908.  `elevation` is the elevation in meters of the
position's `center`, if that has a method `refract`.  Without weather the altitude is an `Angle` made from radians, read here in
degrees — skyfield/units.py:417-422; with weather it goes through the constant `RAD2DEG`. -/
noncomputable def toAltaz (rotation : Mat3) (elevation : Option ℝ) (temperature : Option Weather) (pressure : Weather)
    (fuel : ℕ) (r : Vec3) : AltazOutcome :=
  let (rAu, alt, az) := toSpherical (rotation.mulVec r)
  match temperature with
  | none => .answer (alt * 360 / tau) az rAu
  | some temperature =>
    match elevation with
    | none => .valueError
    | some e =>
      match placeRefract e (alt * Magnitude.rad2deg) temperature pressure fuel with
      | none => .running
      | some a => .answer a az rAu

/-- `altaz()` of a position `r` seen at time `t` from a place on Earth — skyfield/positionlib.py:883-908, with
`GeographicPosition.rotation_at`, skyfield/toposlib.py:118-120. -/
noncomputable def GeoPosition.altaz (p : GeoPosition) (t : SkyTime) (temperature : Option Weather) (pressure : Weather) (fuel : ℕ)
    (r : Vec3) : AltazOutcome :=
  toAltaz (horizonRotation p.latitude p.longitude t) (some (p.elevation * auM)) temperature pressure fuel r

end Skyfield
