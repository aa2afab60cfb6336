import Verif.Props.Spherical

/-
Specification: motion of a body attracted by a fixed center with an inverse-square force.
-/
namespace Skyfield

/-- `r` and `v` are the position and velocity of a body moving under the attraction `-mu r / |r|³` of the origin. -/
structure TwoBody (mu : ℝ) (r v : ℝ → Vec3) : Prop where
  away : ∀ t, r t ≠ 0
  moves : ∀ t, MovesWith r t (v t)
  pull : ∀ t, MovesWith v t ((-(mu / (r t).length ^ 3)) • r t)

end Skyfield
