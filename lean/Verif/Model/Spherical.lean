import Verif.Model.Linear
import Verif.Model.Units
import Mathlib.Analysis.SpecialFunctions.Complex.Arg

/-
Spherical coordinates and angles — skyfield/functions.py.  Exact real arithmetic.
-/
namespace Skyfield

/-- `numpy.arctan2(y, x)`: the angle of the point (x, y), in (-π, π]; 0 at the origin.  (Signed zeros are not modelled.)
Used at skyfield/functions.py:75-91. -/
noncomputable def arctan2 (y x : ℝ) : ℝ := Complex.arg ⟨x, y⟩

/-- `numpy.hypot`. Used at skyfield/functions.py:75-91. -/
noncomputable def hypot (x y : ℝ) : ℝ := √(x * x + y * y)

/-- `to_spherical` — skyfield/functions.py:75-91. -/
noncomputable def toSpherical (v : Vec3) : ℝ × ℝ × ℝ :=
  (v.length, arctan2 v.z (hypot v.x v.y), pyMod (arctan2 v.y v.x) tau)

/-- `from_spherical` — skyfield/functions.py:112-125. -/
noncomputable def fromSpherical (r θ φ : ℝ) : Vec3 :=
  let rxy := r * Real.cos θ
  ⟨rxy * Real.cos φ, rxy * Real.sin φ, r * Real.sin θ⟩

/-- What `_to_spherical_and_rates` returns. Used at skyfield/functions.py:93-110. -/
structure SphericalRates where
  length : ℝ
  lat : ℝ
  lon : ℝ
  rangeRate : ℝ
  latRate : ℝ
  lonRate : ℝ

/-- `_to_spherical_and_rates` — skyfield/functions.py:93-110.  `tiny` is `_AVOID_DIVIDE_BY_ZERO`, about 2·10⁻³⁰⁸. -/
noncomputable def toSphericalAndRates (tiny : ℝ) (r v : Vec3) : SphericalRates :=
  let x2y2 := r.x * r.x + r.y * r.y + tiny
  { length := r.length
    lat := arctan2 r.z (hypot r.x r.y)
    lon := pyMod (arctan2 r.y r.x) tau
    rangeRate := r.dot v / r.length
    latRate := (x2y2 * v.z - r.z * (r.x * v.x + r.y * v.y)) / ((x2y2 + r.z * r.z) * √x2y2)
    lonRate := (r.x * v.y - v.x * r.y) / x2y2 }

/-- `angle_between` — skyfield/functions.py:59-73. -/
noncomputable def angleBetween (u v : Vec3) : ℝ :=
  let a := v.length • u
  let b := u.length • v
  2 * arctan2 (a - b).length (a + b).length

end Skyfield
