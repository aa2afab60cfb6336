import Verif.Model.EarthRotation
import Verif.Model.Magnitude
import Mathlib.Analysis.Real.Pi.Bounds

/-
C20: the constants with which the code turns degrees and arcseconds into radians and back.
-/
namespace Skyfield
open Real

/-- **C20.** A whole turn given to the orbits, the sidereal rotation and the refraction as 360 degrees, or to the nutation and precession as
1296000 arcseconds, is a turn to within 10⁻¹⁶ radians, and a turn given to the magnitudes is 360 degrees to within 10⁻¹³ degrees: what is left is
the last digit of the written constants. -/
theorem C20_angle_constants :
    |360 * deg2rad - 2 * π| ≤ 1e-16 ∧ |1296000 * asec2rad - 2 * π| ≤ 1e-16 ∧ |2 * π * Magnitude.rad2deg - 360| ≤ 1e-13 := by
  have h1 := pi_gt_d20
  have h2 := pi_lt_d20
  unfold deg2rad asec2rad Magnitude.rad2deg
  refine ⟨?_, ?_, ?_⟩ <;> rw [abs_le] <;> constructor <;> linarith

end Skyfield
