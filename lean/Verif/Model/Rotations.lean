import Verif.Model.Linear
import Verif.Model.Units
import Mathlib.Analysis.SpecialFunctions.Trigonometric.Basic

/-
Rotation matrices: skyfield/functions.py, precessionlib.py, nutationlib.py, framelib.py, timelib.py, toposlib.py,
planetarylib.py, sgp4lib.py.  Exact real arithmetic; the constants `pi` and `tau` are the exact numbers.
-/
namespace Skyfield

/-- `rot_x` — skyfield/functions.py:132-137. -/
noncomputable def rotX (θ : ℝ) : Mat3 :=
  ⟨⟨1, 0, 0⟩, ⟨0, Real.cos θ, -Real.sin θ⟩, ⟨0, Real.sin θ, Real.cos θ⟩⟩

/-- `rot_y` — skyfield/functions.py:139-144. -/
noncomputable def rotY (θ : ℝ) : Mat3 :=
  ⟨⟨Real.cos θ, 0, Real.sin θ⟩, ⟨0, 1, 0⟩, ⟨-Real.sin θ, 0, Real.cos θ⟩⟩

/-- `rot_z` — skyfield/functions.py:146-151. -/
noncomputable def rotZ (θ : ℝ) : Mat3 :=
  ⟨⟨Real.cos θ, -Real.sin θ, 0⟩, ⟨Real.sin θ, Real.cos θ, 0⟩, ⟨0, 0, 1⟩⟩

/-- `angular_velocity_matrix` — skyfield/functions.py:161-164. -/
def angularVelocityMatrix (w : Vec3) : Mat3 := ⟨⟨0, -w.z, w.y⟩, ⟨w.z, 0, -w.x⟩, ⟨-w.y, w.x, 0⟩⟩

/-- `ASEC2RAD` — skyfield/constants.py:10. -/
noncomputable def asec2rad : ℝ := 4.848136811095359935899141e-6

/-- `T0` — skyfield/constants.py:29. -/
def t0 : ℝ := 2451545

/-- The three angles `psia`, `omegaa`, `chia` of `compute_precession`, in arcseconds — skyfield/precessionlib.py:14-45. -/
noncomputable def precessionAngles (jdTdb : ℝ) : ℝ × ℝ × ℝ :=
  let t := (jdTdb - t0) / 36525
  (((((-0.0000000951 * t + 0.000132851) * t - 0.00114045) * t - 1.0790069) * t + 5038.481507) * t,
   ((((0.0000003337 * t - 0.000000467) * t - 0.00772503) * t + 0.0512623) * t - 0.025754) * t + 84381.406,
   ((((-0.0000000560 * t + 0.000170663) * t - 0.00121197) * t - 2.3814292) * t + 10.556403) * t)

/-- The matrix assembled from the sines and cosines — skyfield/precessionlib.py:47-69. -/
noncomputable def precessionFrom (eps0 psia omegaa chia : ℝ) : Mat3 :=
  let sa := Real.sin eps0
  let ca := Real.cos eps0
  let sb := Real.sin (-psia)
  let cb := Real.cos (-psia)
  let sc := Real.sin (-omegaa)
  let cc := Real.cos (-omegaa)
  let sd := Real.sin chia
  let cd := Real.cos chia
  ⟨⟨cd * cb - sb * sd * cc, cd * sb * ca + sd * cc * cb * ca - sa * sd * sc,
    cd * sb * sa + sd * cc * cb * sa + ca * sd * sc⟩,
   ⟨-sd * cb - sb * cd * cc, -sd * sb * ca + cd * cc * cb * ca - sa * cd * sc,
    -sd * sb * sa + cd * cc * cb * sa + ca * cd * sc⟩,
   ⟨sb * sc, -sc * cb * ca - sa * cc, -sc * cb * sa + cc * ca⟩⟩

/-- `compute_precession` — skyfield/precessionlib.py:5-69. -/
noncomputable def computePrecession (jdTdb : ℝ) : Mat3 :=
  let (psia, omegaa, chia) := precessionAngles jdTdb
  precessionFrom (84381.406 * asec2rad) (psia * asec2rad) (omegaa * asec2rad) (chia * asec2rad)

/-- `build_nutation_matrix` — skyfield/nutationlib.py:44-69. -/
noncomputable def buildNutationMatrix (meanObliquity trueObliquity psi : ℝ) : Mat3 :=
  let cobm := Real.cos meanObliquity
  let sobm := Real.sin meanObliquity
  let cobt := Real.cos trueObliquity
  let sobt := Real.sin trueObliquity
  let cpsi := Real.cos psi
  let spsi := Real.sin psi
  ⟨⟨cpsi, -spsi * cobm, -spsi * sobm⟩,
   ⟨spsi * cobt, cpsi * cobm * cobt + sobm * sobt, cpsi * sobm * cobt - cobm * sobt⟩,
   ⟨spsi * sobt, cpsi * cobm * sobt - sobm * cobt, cpsi * sobm * sobt + cobm * cobt⟩⟩

/-- `mean_obliquity`, in arcseconds — skyfield/nutationlib.py:71-98. -/
noncomputable def meanObliquity (jdTdb : ℝ) : ℝ :=
  let t := (jdTdb - t0) / 36525
  ((((-0.0000000434 * t - 0.000000576) * t + 0.00200340) * t - 0.0001831) * t - 46.836769) * t + 84381.406

/-- `build_matrix`, which gives `ICRS_to_J2000` — skyfield/framelib.py:9-34. -/
noncomputable def icrsToJ2000 : Mat3 :=
  let xi0 := -0.0166170 * asec2rad
  let eta0 := -0.0068192 * asec2rad
  let da0 := -0.01460 * asec2rad
  let yx := -da0
  let zx := xi0
  let xy := da0
  let zy := eta0
  let xz := -xi0
  let yz := -eta0
  let xx := 1 - 0.5 * (yx * yx + zx * zx)
  let yy := 1 - 0.5 * (yx * yx + zy * zy)
  let zz := 1 - 0.5 * (zy * zy + zx * zx)
  ⟨⟨xx, xy, xz⟩, ⟨yx, yy, yz⟩, ⟨zx, zy, zz⟩⟩

/-- What the rotations read of a `Time`.  The nutation angles come from `iau2000a_radians` (not modelled: any numbers), the
sidereal time from `gast`, and `polar` from `polar_motion_angles` if a polar motion table is loaded.
Used at skyfield/timelib.py:804-807. -/
structure SkyTime where
  tdb : ℝ
  gast : ℝ
  dPsi : ℝ
  dEps : ℝ
  polar : Option (ℝ × ℝ × ℝ)

namespace SkyTime

/-- `Time._mean_obliquity_radians` — skyfield/timelib.py:804-807. -/
noncomputable def meanObliquityRadians (t : SkyTime) : ℝ := meanObliquity t.tdb * asec2rad

/-- `Time.nutation_matrix` — skyfield/timelib.py:901-906. -/
noncomputable def nutationMatrix (t : SkyTime) : Mat3 :=
  buildNutationMatrix t.meanObliquityRadians (t.meanObliquityRadians + t.dEps) t.dPsi

/-- `Time.precession_matrix` — skyfield/timelib.py:908-910. -/
noncomputable def precessionMatrix (t : SkyTime) : Mat3 := computePrecession t.tdb

/-- `Time.M` — skyfield/timelib.py:748-767. -/
noncomputable def M (t : SkyTime) : Mat3 := Mat3.mul3 t.nutationMatrix t.precessionMatrix icrsToJ2000

/-- `Time.MT` — skyfield/timelib.py:769-772. -/
noncomputable def MT (t : SkyTime) : Mat3 := t.M.transpose

/-- `Time.polar_motion_matrix` — skyfield/timelib.py:893-899. -/
noncomputable def polarMotionMatrix (sprime x y : ℝ) : Mat3 :=
  Mat3.mul3 (rotX (y * asec2rad)) (rotY (x * asec2rad)) (rotZ (-sprime * asec2rad))

end SkyTime

/-- The reference frames of framelib.py whose rotation depends on the date, by `rotation_at`. -/
noncomputable def meanEquatorRotation (t : SkyTime) : Mat3 :=
  -- skyfield/framelib.py:61-63
  t.precessionMatrix.mul icrsToJ2000

/-- `true_equator_and_equinox_of_date.rotation_at` — skyfield/framelib.py:86-88. -/
noncomputable def trueEquatorRotation (t : SkyTime) : Mat3 := t.M

/-- `tirs.rotation_at` — skyfield/framelib.py:107-109. -/
noncomputable def tirsRotation (t : SkyTime) : Mat3 := (rotZ (-t.gast * tau / 24)).mul t.M

/-- `itrs.rotation_at` — skyfield/framelib.py:133-138. -/
noncomputable def itrsRotation (t : SkyTime) : Mat3 :=
  let r := (rotZ (-t.gast * tau / 24)).mul t.M
  match t.polar with
  | some (sprime, x, y) => (SkyTime.polarMotionMatrix sprime x y).mul r
  | none => r

/-- `build_ecliptic_matrix` — skyfield/framelib.py:148-152. -/
noncomputable def eclipticRotation (t : SkyTime) : Mat3 :=
  (rotX (-(t.meanObliquityRadians + t.dEps))).mul t.M

/-- `Time.C` (CIRS) — skyfield/timelib.py:774-779, given the Earth rotation angle in turns. -/
noncomputable def cirsRotation (t : SkyTime) (era : ℝ) : Mat3 :=
  (rotZ (2 * Real.pi * (era - t.gast / 24))).mul t.M

/-- `TEME.rotation_at` — skyfield/sgp4lib.py:315-319, given `theta_GMST1982`. -/
noncomputable def temeRotation (t : SkyTime) (theta : ℝ) : Mat3 :=
  (rotZ (theta - t.gast / 24 * tau)).mul t.M

/-- `equatorial_B1950_frame` — skyfield/framelib.py:170-173, skyfield/data/spice.py:7-10. -/
noncomputable def b1950Matrix : Mat3 :=
  ⟨⟨0.99992570795236291, 0.011178938126427691, 0.0048590038414544293⟩,
   ⟨-0.011178938137770135, 0.9999375133499887, -2.715792625851078e-05⟩,
   ⟨-0.0048590038153592712, -2.7162594714247048e-05, 0.9999881946023742⟩⟩

/-- `ecliptic_J2000_frame` — skyfield/framelib.py:175-178, skyfield/data/spice.py. -/
noncomputable def eclipJ2000Matrix : Mat3 :=
  ⟨⟨1, 0, 0⟩, ⟨0, 0.91748206206918181, 0.39777715593191371⟩, ⟨0, -0.39777715593191371, 0.91748206206918181⟩⟩

/-- `galactic_frame` — skyfield/framelib.py:179-182, skyfield/data/spice.py. -/
noncomputable def galacticMatrix : Mat3 :=
  ⟨⟨-0.054875539395742523, -0.87343710472759606, -0.48383499177002515⟩,
   ⟨0.49410945362774389, -0.44482959429757496, 0.74698224869989183⟩,
   ⟨-0.86766613568337381, -0.19807638961301985, 0.45598379452141991⟩⟩

/-- `matrix[::-1]`: the rows in reverse order. Used at skyfield/toposlib.py:77. -/
def Mat3.flipRows (m : Mat3) : Mat3 := ⟨m.r3, m.r2, m.r1⟩

/-- `GeographicPosition._R_lat` — skyfield/toposlib.py:77. -/
noncomputable def latRotation (lat : ℝ) : Mat3 := (rotY lat).flipRows

/-- `GeographicPosition._R_latlon` — skyfield/toposlib.py:78. -/
noncomputable def latlonRotation (lat lon : ℝ) : Mat3 := (latRotation lat).mul (rotZ (-lon))

/-- `GeographicPosition.rotation_at` — skyfield/toposlib.py:118-120. -/
noncomputable def horizonRotation (lat lon : ℝ) (t : SkyTime) : Mat3 := (latlonRotation lat lon).mul (itrsRotation t)

/-- `Frame.rotation_at` — skyfield/planetarylib.py:167-173, given the three angles of the segment and the frame's own
matrix, if any. -/
noncomputable def planetRotation (matrix : Option Mat3) (ra dec w : ℝ) : Mat3 :=
  let r := (rotZ (-w)).mul ((rotX (-dec)).mul (rotZ (-ra)))
  match matrix with
  | some m => m.mul r
  | none => r

/-- The rotations of `_rotations[axis]` — skyfield/planetarylib.py:150. -/
inductive Axis | x | y | z

/-- The rotation about axis 1, 2 or 3. Used at skyfield/planetarylib.py:110-116. -/
noncomputable def axisRotation : Axis → ℝ → Mat3
  | .x => rotX
  | .y => rotY
  | .z => rotZ

/-- The loop over angles and axes in `build_frame` — skyfield/planetarylib.py:110-116.  A scale is a factor from the unit
of the file to radians. -/
noncomputable def anglesMatrix (scale : ℝ) (l : List (ℝ × Axis)) : Mat3 :=
  l.foldl (fun m p => (axisRotation p.2 (p.1 * scale)).mul m) Mat3.one

/-- `PlanetTopos.rotation_at` — skyfield/planetarylib.py:249-265: with `R[1] *= -1`. -/
noncomputable def planetHorizonRotation (lat lon : ℝ) (frame : Mat3) : Mat3 :=
  let r := Mat3.mul3 (rotY (tau / 4 - lat)) (rotZ (tau / 2 - lon)) frame
  ⟨r.r1, -r.r2, r.r3⟩

end Skyfield
