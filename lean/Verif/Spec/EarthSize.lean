import Mathlib.Data.Real.Basic

/-
The size of the Earth.
-/
namespace Spec

/-- The Earth's equatorial radius of 6378136.6 m, in astronomical units of 149597870700 m. -/
noncomputable def equatorAu : ℝ := 6378136.6 / 149597870700

end Spec
