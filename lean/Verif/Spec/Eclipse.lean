import Verif.Model.Linear

/-
Specification: the shadow of a ball at the origin (the Earth) in the light of another ball (the Sun).
-/
namespace Skyfield
namespace Spec

/-- The ball of radius `a` about the origin stands between `p` and `q`: it meets the segment between them. -/
def Hides (a : ℝ) (p q : Vec3) : Prop := ∃ u : ℝ, 0 ≤ u ∧ u ≤ 1 ∧ (p + u • (q - p)).length ≤ a

/-- From `p`, no point of the Sun (center `sun`, radius `r`) can be seen past the Earth (radius `a`). -/
def InUmbra (a r : ℝ) (sun p : Vec3) : Prop := ∀ q : Vec3, (q - sun).length ≤ r → Hides a p q

/-- From `p`, some point of the Sun is hidden by the Earth. -/
def InPenumbra (a r : ℝ) (sun p : Vec3) : Prop := ∃ q : Vec3, (q - sun).length ≤ r ∧ Hides a p q

end Spec
end Skyfield
