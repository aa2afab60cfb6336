import Verif.Model.Rotations
import Verif.Model.Spherical

/-
Positions and velocities in reference frames: skyfield/positionlib.py, framelib.py, toposlib.py, planetarylib.py.
Exact real arithmetic; au and days.
-/
namespace Skyfield

/-- `DAY_S` — skyfield/constants.py:7. -/
def dayS' : ℝ := 86400

/-- `ANGVEL`, in radians per second — skyfield/constants.py:21. -/
noncomputable def angvel : ℝ := 7.2921150e-5

/-- A frame object: its `rotation_at` and its `_dRdt_times_RT_at`, if it has one (`getattr(frame, ..., None)`) —
skyfield/positionlib.py:123, 451. -/
structure RefFrame where
  rotationAt : SkyTime → Mat3
  rateAt : Option (SkyTime → Mat3)

/-- `ICRF.frame_xyz` — skyfield/positionlib.py:433-441. -/
noncomputable def frameXyz (f : RefFrame) (t : SkyTime) (r : Vec3) : Vec3 := (f.rotationAt t).mulVec r

/-- `ICRF.frame_xyz_and_velocity` — skyfield/positionlib.py:443-460. -/
noncomputable def frameXyzAndVelocity (f : RefFrame) (t : SkyTime) (r v : Vec3) : Vec3 × Vec3 :=
  let m := f.rotationAt t
  let r := m.mulVec r
  let v := m.mulVec v
  match f.rateAt with
  | some rate => (r, v + (rate t).mulVec r)
  | none => (r, v)

/-- `ICRF.from_time_and_frame_vectors` — skyfield/positionlib.py:117-135. -/
noncomputable def fromFrameVectors (f : RefFrame) (t : SkyTime) (r v : Vec3) : Vec3 × Vec3 :=
  let v := match f.rateAt with
    | some rate => v - (rate t).mulVec r
    | none => v
  let rt := (f.rotationAt t).transpose
  (rt.mulVec r, rt.mulVec v)

/-- `ICRF.frame_latlon`: distance, latitude, longitude — skyfield/positionlib.py:462-475. -/
noncomputable def frameLatlon (f : RefFrame) (t : SkyTime) (r : Vec3) : ℝ × ℝ × ℝ :=
  toSpherical ((f.rotationAt t).mulVec r)

/-- `_itrs_angvel_matrix` — skyfield/framelib.py:90-94. -/
noncomputable def itrsAngvelMatrix : Mat3 :=
  ⟨⟨0, dayS' * angvel, 0⟩, ⟨-(dayS' * angvel), 0, 0⟩, ⟨0, 0, 0⟩⟩

/-- `tirs` — skyfield/framelib.py:96-117. -/
noncomputable def tirsFrame : RefFrame := ⟨tirsRotation, some fun _ => itrsAngvelMatrix⟩

/-- `itrs` — skyfield/framelib.py:119-146. -/
noncomputable def itrsFrame : RefFrame := ⟨itrsRotation, some fun _ => itrsAngvelMatrix⟩

/-- `ecliptic_frame` — skyfield/framelib.py:154-160. -/
noncomputable def eclipticFrame : RefFrame := ⟨eclipticRotation, none⟩

/-- `true_equator_and_equinox_of_date` — skyfield/framelib.py:65-88. -/
noncomputable def trueEquatorFrame : RefFrame := ⟨trueEquatorRotation, none⟩

/-- `_EARTH_ANGULAR_VELOCITY_VECTOR` — skyfield/toposlib.py:15. -/
noncomputable def earthAngularVelocity : Vec3 := ⟨0, 0, dayS' * angvel⟩

/-- A `GeographicPosition` as a frame: the altazimuth system — skyfield/toposlib.py:118-126. -/
noncomputable def horizonFrame (lat lon : ℝ) : RefFrame :=
  ⟨horizonRotation lat lon, some fun _ => angularVelocityMatrix ((latRotation lat).mulVec earthAngularVelocity)⟩

/-- `ITRSPosition._velocity_au_per_d` — skyfield/toposlib.py:31-32. -/
noncomputable def itrsVelocity (r : Vec3) : Vec3 := (angvel * dayS') • ⟨-r.y, r.x, 0 * r.z⟩

/-- `ITRSPosition._at`: GCRS position and velocity of a place on Earth — skyfield/toposlib.py:42-50. -/
noncomputable def itrsPlaceAt (r : Vec3) (t : SkyTime) : Vec3 × Vec3 :=
  let rt := (itrsRotation t).transpose
  (rt.mulVec r, rt.mulVec (itrsVelocity r))

/-- What a binary PCK segment gives: three angles and their rates in radians per second.
Used at skyfield/planetarylib.py:175-209. -/
structure PckAngles where
  ra : ℝ
  dec : ℝ
  w : ℝ
  raDot : ℝ
  decDot : ℝ
  wDot : ℝ

/-- Scalar times matrix. Used at skyfield/planetarylib.py:175-209. -/
def Mat3.scale (k : ℝ) (m : Mat3) : Mat3 := ⟨k • m.r1, k • m.r2, k • m.r3⟩

/-- `Frame.rotation_and_rate_at` — skyfield/planetarylib.py:175-209. -/
noncomputable def planetRotationAndRate (matrix : Option Mat3) (a : PckAngles) : Mat3 × Mat3 :=
  let r := (rotZ (-a.w)).mul ((rotX (-a.dec)).mul (rotZ (-a.ra)))
  let ca := Real.cos a.w
  let sa := Real.sin a.w
  let u := Real.cos a.dec
  let v := -Real.sin a.dec
  let domega0 := a.wDot + u * a.raDot
  let domega1 := ca * a.decDot - sa * v * a.raDot
  let domega2 := sa * a.decDot + ca * v * a.raDot
  let drdtrt : Mat3 := ⟨⟨0, domega0, domega2⟩, ⟨-domega0, 0, domega1⟩, ⟨-domega2, -domega1, 0⟩⟩
  let dRdt := drdtrt.mul r
  match matrix with
  | some m => (m.mul r, (m.mul dRdt).scale dayS')
  | none => (r, dRdt.scale dayS')

/-- `PlanetTopos._at`, for a place with coordinates `p` in the planet's frame — skyfield/planetarylib.py:241-247. -/
noncomputable def planetPlaceAt (matrix : Option Mat3) (p : Vec3) (a : PckAngles) : Vec3 × Vec3 :=
  let (r, dRdt) := planetRotationAndRate matrix a
  (r.transpose.mulVec p, dRdt.transpose.mulVec p)

/-- `PlanetTopos.from_latlon_distance` — skyfield/planetarylib.py:223-231. -/
noncomputable def planetPlace (lat lon distance : ℝ) : Vec3 :=
  (rotZ lon).mulVec ((rotY (-lat)).mulVec ⟨distance, 0, 0⟩)

/-- A planet `Frame` as a frame object: it has no `_dRdt_times_RT_at` — skyfield/planetarylib.py:159-209.  The angles of
the segment at the time are given by `angles`. -/
noncomputable def planetFrame (matrix : Option Mat3) (angles : SkyTime → PckAngles) : RefFrame :=
  ⟨fun t => planetRotation matrix (angles t).ra (angles t).dec (angles t).w, none⟩

/-- `_to_altaz` without refraction: distance, altitude, azimuth — skyfield/positionlib.py:883-896. -/
noncomputable def altaz (rotation : Mat3) (r : Vec3) : ℝ × ℝ × ℝ := toSpherical (rotation.mulVec r)

/-- `ICRF.from_altaz` — skyfield/positionlib.py:622-650; `einsum('ji...,j...->i...', R, p)` is the transpose times `p`. -/
noncomputable def fromAltaz (rotation : Mat3) (distance alt az : ℝ) : Vec3 :=
  rotation.transpose.mulVec (fromSpherical distance alt az)

/-- `ICRF.radec`: distance, declination, right ascension in radians — skyfield/positionlib.py:236-278; `epoch` is the time of
the equator and equinox, if one is given. -/
noncomputable def radec (epoch : Option SkyTime) (r : Vec3) : ℝ × ℝ × ℝ :=
  match epoch with
  | some t => toSpherical (t.M.mulVec r)
  | none => toSpherical r

/-- `ICRF.from_radec` (`position_of_radec`), from hours and degrees — skyfield/positionlib.py:34-58, 107-115. -/
noncomputable def fromRadec (raHours decDegrees distance : ℝ) (epoch : Option SkyTime) : Vec3 :=
  let theta := decDegrees / 360 * tau
  let phi := raHours / 24 * tau
  let p := fromSpherical distance theta phi
  match epoch with
  | some t => t.MT.mulVec p
  | none => p

end Skyfield
