import Verif.Model.Frames

/-
Model of the altitude of an Earth satellite, as `(satellite - topos).at(t).altaz()` computes it, and of the shortcut
that `EarthSatellite.find_events` takes: before each evaluation it overwrites the sidereal time with 0 and the
precession-nutation matrix with the identity, because they "cancel out anyway".
-/
namespace Skyfield

/-- What the rotations read of a `Time`, as values that `cheat` may overwrite: `t.gast`, `t.M`, and the polar motion.
Used at skyfield/timelib.py:748-767. -/
structure Sidereal where
  gast : ℝ
  m : Mat3
  polar : Option (ℝ × ℝ × ℝ)

/-- The values an honest `Time` has — skyfield/timelib.py:748-767. -/
noncomputable def SkyTime.sidereal (t : SkyTime) : Sidereal := ⟨t.gast, t.M, t.polar⟩

/-- `cheat(t)` — skyfield/sgp4lib.py:258-261. -/
def Sidereal.cheat (t : Sidereal) : Sidereal := { t with gast := 0, m := Mat3.one }

/-- `itrs.rotation_at` — skyfield/framelib.py:133-138. -/
noncomputable def Sidereal.itrs (t : Sidereal) : Mat3 :=
  let r := (rotZ (-t.gast * tau / 24)).mul t.m
  match t.polar with
  | some (sprime, x, y) => (SkyTime.polarMotionMatrix sprime x y).mul r
  | none => r

/-- `TEME.rotation_at` — skyfield/sgp4lib.py:315-319, given `theta_GMST1982`. -/
noncomputable def Sidereal.teme (t : Sidereal) (theta : ℝ) : Mat3 := (rotZ (theta - t.gast / 24 * tau)).mul t.m

/-- `EarthSatellite._at`: the position, from the SGP4 position in the TEME frame — skyfield/sgp4lib.py:204-213. -/
noncomputable def satelliteAt (t : Sidereal) (theta : ℝ) (sgp4 : Vec3) : Vec3 := (t.teme theta).transpose.mulVec sgp4

/-- `ITRSPosition._at`: the position — skyfield/toposlib.py:42-50. -/
noncomputable def placeAt (t : Sidereal) (place : Vec3) : Vec3 := t.itrs.transpose.mulVec place

/-- `at(t).altaz()` for the vector sum `satellite - topos`, whose center is the place: distance, altitude, azimuth in
radians — skyfield/vectorlib.py:153-165, skyfield/positionlib.py:883-908, skyfield/toposlib.py:118-120. -/
noncomputable def satelliteAltaz (t : Sidereal) (theta lat lon : ℝ) (place sgp4 : Vec3) : ℝ × ℝ × ℝ :=
  let rotation := (latlonRotation lat lon).mul t.itrs
  toSpherical (rotation.mulVec (-placeAt t place + satelliteAt t theta sgp4))

end Skyfield
