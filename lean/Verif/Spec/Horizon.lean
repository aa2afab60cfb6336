import Verif.Model.Geoid
import Mathlib.Analysis.Calculus.Deriv.Basic

/-
What the words up, north, east, and the ground mean at a place, independently of how the code turns its axes.
-/
namespace Spec
open Skyfield

/-- `v` is how fast the point `r s` moves as `s` passes `s₀`. -/
structure Moves (r : ℝ → Vec3) (s₀ : ℝ) (v : Vec3) : Prop where
  x : HasDerivAt (fun s => (r s).x) v.x s₀
  y : HasDerivAt (fun s => (r s).y) v.y s₀
  z : HasDerivAt (fun s => (r s).z) v.z s₀

/-- The compass at a place given by latitude, longitude and elevation: three unit vectors.  Raising the elevation moves the place
`up`, by as much as it is raised; raising the latitude alone moves it towards `north`; raising the longitude alone, towards
`east`. -/
structure CompassAt (place : ℝ → ℝ → ℝ → Vec3) (lat lon elevation : ℝ) (north east up : Vec3) : Prop where
  north_unit : north.length = 1
  east_unit : east.length = 1
  up_unit : up.length = 1
  up_moves : Moves (fun h => place lat lon h) elevation up
  north_moves : ∃ k : ℝ, 0 < k ∧ Moves (fun φ => place φ lon elevation) lat (k • north)
  east_moves : ∃ k : ℝ, 0 < k ∧ Moves (fun l => place lat l elevation) lon (k • east)

/-- The solid ellipsoid without its surface. -/
def InsideGround (g : Geoid) (p : Vec3) : Prop :=
  (p.x / g.radius) ^ 2 + (p.y / g.radius) ^ 2 + (p.z / g.polarRadius) ^ 2 < 1

/-- Looking from `p` along `d`, some point ahead is inside the ground. -/
def LooksIntoGround (g : Geoid) (p d : Vec3) : Prop := ∃ s : ℝ, 0 < s ∧ InsideGround g (p + s • d)

end Spec
