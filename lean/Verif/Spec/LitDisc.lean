import Mathlib.MeasureTheory.Measure.Lebesgue.Integral
import Verif.Model.Linear

/-
The disc of a spherical body as it is seen from far away, and the part of it that a distant Sun lights.
-/
namespace Skyfield
namespace Spec

/-- Three perpendicular directions of length one: `a` and `b` across the line of sight, `n` towards the observer. -/
structure DiscAxes (a b n : Vec3) : Prop where
  aa : a.dot a = 1
  bb : b.dot b = 1
  nn : n.dot n = 1
  ab : a.dot b = 0
  an : a.dot n = 0
  bn : b.dot n = 0

/-- The disc, in units of the radius of the body: the first coordinate runs along `b`, the second along `a`. -/
def disc : Set (ℝ × ℝ) := {q | q.1 ^ 2 + q.2 ^ 2 < 1}

/-- The point of the surface, taken from the middle of the body in units of its radius, that is seen at `q`. -/
noncomputable def surfacePoint (a b n : Vec3) (q : ℝ × ℝ) : Vec3 :=
  q.2 • a + q.1 • b + √(1 - q.1 ^ 2 - q.2 ^ 2) • n

/-- The part of the disc where the Sun, in the direction `s`, stands above the horizon of the point that is seen. -/
def litDisc (a b n s : Vec3) : Set (ℝ × ℝ) := {q ∈ disc | 0 < (surfacePoint a b n q).dot s}

end Spec
end Skyfield
