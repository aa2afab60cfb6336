import Verif.Model.Broadcast
import Verif.Model.Linear

/-
Arrays of vectors, as the documentation describes them: `x`, `y`, `z` along the first axis, and the members of the array along the
others.
-/
namespace Spec
open Skyfield

/-- The vector that is the member of the array at an index. -/
def vectorAt (a : Nd ℝ) (i : List ℕ) : Vec3 := ⟨a.entry (0 :: i), a.entry (1 :: i), a.entry (2 :: i)⟩

end Spec
