import Verif.Model.Spherical
import Mathlib.Analysis.SpecialFunctions.Log.Base

/-
Planetary magnitudes — skyfield/magnitudelib.py.  Exact real arithmetic.  `none` is a result that is not a finite number
(nan, or the -inf of a logarithm of zero).  Arrays are treated elementwise by the code, so one position is modelled.
-/
namespace Skyfield
namespace Magnitude

/-- `RAD2DEG` — skyfield/constants.py:12. -/
noncomputable def rad2deg : ℝ := 57.295779513082321

/-- `numpy.log10`. Used at skyfield/magnitudelib.py:119, 131, 145, 190, 266. -/
noncomputable def log10 (x : ℝ) : Option ℝ := open Classical in if 0 < x then some (Real.logb 10 x) else none

/-- `5 * log10(r * delta)` — skyfield/magnitudelib.py:119, 131, 145, 190, 266. -/
noncomputable def distanceFactor (r delta : ℝ) : Option ℝ := (log10 (r * delta)).map fun l => 5 * l

/-- `2.5 * log10(r * r) + 2.5 * log10(delta * delta)` — skyfield/magnitudelib.py:150-152, 212-214, 280-282. -/
noncomputable def distanceFactor2 (r delta : ℝ) : Option ℝ :=
  match log10 (r * r), log10 (delta * delta) with
  | some a, some b => some (2.5 * a + 2.5 * b)
  | _, _ => none

/-- `_mercury_magnitude` — skyfield/magnitudelib.py:118-128. -/
noncomputable def mercury (r delta phAng : ℝ) : Option ℝ :=
  (distanceFactor r delta).map fun d =>
    -0.613 + d + (6.3280e-02 * phAng - 1.6336e-03 * phAng ^ 2 + 3.3644e-05 * phAng ^ 3 - 3.4265e-07 * phAng ^ 4
      + 1.6893e-09 * phAng ^ 5 - 3.0334e-12 * phAng ^ 6)

/-- `_venus_magnitude` — skyfield/magnitudelib.py:130-142. -/
noncomputable def venus (r delta phAng : ℝ) : Option ℝ :=
  open Classical in
  let condition := phAng < 163.7
  let a0 : ℝ := if condition then 0 else 236.05828 + 4.384
  let a1 : ℝ := if condition then -1.044e-03 else -2.81914
  let a2 : ℝ := if condition then 3.687e-04 else 8.39034e-03
  let a3 : ℝ := if condition then -2.814e-06 else 0
  let a4 : ℝ := if condition then 8.938e-09 else 0
  (distanceFactor r delta).map fun d => -4.384 + d + ((((a4 * phAng + a3) * phAng + a2) * phAng + a1) * phAng + a0)

/-- `_earth_magnitude` — skyfield/magnitudelib.py:144-147. -/
noncomputable def earth (r delta phAng : ℝ) : Option ℝ :=
  (distanceFactor r delta).map fun d => -3.99 + d + (-1.060e-03 * phAng + 2.054e-04 * phAng ^ 2)

/-- `_mars_magnitude` — skyfield/magnitudelib.py:149-187. -/
noncomputable def mars (r delta phAng : ℝ) : Option ℝ :=
  open Classical in
  let condition := phAng ≤ 50.0
  let a : ℝ := if condition then 2.267e-02 else -0.02573
  let b : ℝ := if condition then -1.302e-04 else 0.0003445
  let start : ℝ := if condition then -1.601 else -0.367
  (distanceFactor2 r delta).map fun d => start + (d + (a * phAng + b * phAng ^ 2) + 0 + 0)

/-- `_jupiter_magnitude` — skyfield/magnitudelib.py:189-206. -/
noncomputable def jupiter (r delta phAng : ℝ) : Option ℝ :=
  open Classical in
  let x := phAng / 180.0
  let factor : Option ℝ :=
    if phAng ≤ 12.0 then some ((6.16e-04 * phAng - 3.7e-04) * phAng)
    else (log10 (((((-1.876 * x + 2.809) * x - 0.062) * x - 0.363) * x - 1.507) * x + 1.0)).map fun l => -2.5 * l
  match distanceFactor r delta, factor with
  | some d, some f => some (if phAng ≤ 12.0 then -9.395 + d + f else -9.428 + d + f)
  | _, _ => none

/-- `sub_lat_geoc` — skyfield/magnitudelib.py:219-222. -/
noncomputable def subLatGeoc (sunSubLat earthSubLat : ℝ) : ℝ :=
  open Classical in
  let product := sunSubLat * earthSubLat
  if 0 ≤ product then √product else 0

/-- `_saturn_magnitude` — skyfield/magnitudelib.py:208-259. -/
noncomputable def saturn (rings : Bool) (r delta phAng sunSubLat earthSubLat : ℝ) : Option ℝ :=
  open Classical in
  let s := subLatGeoc sunSubLat earthSubLat
  let base : Option ℝ :=
    if phAng ≤ 6.5 ∧ s ≤ 27.0 then
      if rings then
        some (-8.914 - 1.825 * Real.sin (s / rad2deg) + 0.026 * phAng
          - 0.378 * Real.sin (s / rad2deg) * Real.exp (-2.25 * phAng))
      else some (-8.95 - 3.7e-4 * phAng + 6.16e-4 * phAng ^ 2)
    else if phAng > 6.5 ∧ rings = false then
      some (-8.94 + 2.446e-4 * phAng + 2.672e-4 * phAng ^ 2 - 1.506e-6 * phAng ^ 3 + 4.767e-9 * phAng ^ 4)
    else none
  match base, distanceFactor2 r delta with
  | some b, some d => some (b + d)
  | _, _ => none

/-- `_uranus_magnitude` — skyfield/magnitudelib.py:264-277. -/
noncomputable def uranus (r delta phAng sunSubLat earthSubLat : ℝ) : Option ℝ :=
  open Classical in
  let subLat := (|sunSubLat| + |earthSubLat|) / 2.0
  (distanceFactor r delta).map fun d =>
    -7.110 + d + -0.00084 * subLat + if phAng > 3.1 then (1.045e-4 * phAng + 6.587e-3) * phAng else 0.0

/-- `numpy.clip`. Used at skyfield/magnitudelib.py:279-305. -/
noncomputable def clipTo (x lo hi : ℝ) : ℝ := min (max x lo) hi

/-- `_neptune_magnitude` — skyfield/magnitudelib.py:279-305. -/
noncomputable def neptune (r delta phAng year : ℝ) : Option ℝ :=
  open Classical in
  match distanceFactor2 r delta with
  | none => none
  | some d =>
    let apMag := clipTo (-6.89 - 0.0054 * (year - 1980.0)) (-7.00) (-6.89) + d
    if phAng > 1.9 then
      if year ≥ 2000.0 then some (apMag + 7.944e-3 * phAng + 9.617e-5 * phAng ^ 2) else none
    else some apMag

/-- Which formula — the values of `_FUNCTIONS`. Used at skyfield/magnitudelib.py:308-325. -/
inductive Planet | mercury | venus | earth | mars | jupiter | saturn | uranus | neptune
  deriving DecidableEq, Repr

/-- `_FUNCTIONS` — skyfield/magnitudelib.py:308-325. -/
def functions : List (ℤ × Planet) :=
  [(199, .mercury), (299, .venus), (399, .earth), (499, .mars), (599, .jupiter), (699, .saturn), (799, .uranus),
   (899, .neptune), (1, .mercury), (2, .venus), (4, .mars), (5, .jupiter), (6, .saturn), (7, .uranus), (8, .neptune)]

/-- `_SATURN_POLE` — skyfield/magnitudelib.py:31. -/
noncomputable def saturnPole : Vec3 := ⟨0.08547883, 0.07323576, 0.99364475⟩
/-- `_URANUS_POLE` — skyfield/magnitudelib.py:33. -/
noncomputable def uranusPole : Vec3 := ⟨-0.21199958, -0.94155916, -0.26176809⟩

end Magnitude

/-- What `planetary_magnitude` does. Used at skyfield/magnitudelib.py:36-116. -/
inductive MagnitudeResult
  | valueError
  | notANumber
  | value (m : ℝ)

namespace Magnitude

/-- `angle_between(pole, v) * RAD2DEG - 90.0` — skyfield/magnitudelib.py:90-96. -/
noncomputable def subLat (pole v : Vec3) : ℝ := angleBetween pole v * rad2deg - 90.0

end Magnitude

open Magnitude in
/-- `planetary_magnitude` — skyfield/magnitudelib.py:36-116.  The position is given by what is read of it: its target,
its center's barycentric vector, its own vector, and the Julian year of its time. -/
noncomputable def planetaryMagnitude (target : ℤ) (sunToObserver observerToPlanet : Vec3) (year : ℝ) : MagnitudeResult :=
  match functions.lookup target with
  | none => .valueError
  | some planet =>
    let sunToPlanet := sunToObserver + observerToPlanet
    let r := sunToPlanet.length
    let delta := observerToPlanet.length
    let phAng := angleBetween sunToPlanet observerToPlanet * rad2deg
    let m := match planet with
      | .saturn => saturn true r delta phAng (subLat saturnPole sunToPlanet) (subLat saturnPole observerToPlanet)
      | .uranus => uranus r delta phAng (subLat uranusPole sunToPlanet) (subLat uranusPole observerToPlanet)
      | .neptune => neptune r delta phAng year
      | .mercury => mercury r delta phAng
      | .venus => venus r delta phAng
      | .earth => earth r delta phAng
      | .mars => mars r delta phAng
      | .jupiter => jupiter r delta phAng
    match m with
    | none => .notANumber
    | some x => .value x

end Skyfield
