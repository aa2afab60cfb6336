import Verif.Model.Linear
import Mathlib.Analysis.SpecialFunctions.Trigonometric.Basic

/-
How the fixed frames of astronomy are defined: by angles.  Independent of the matrices in the code.
-/
namespace Spec
open Skyfield Real

/-- An angle in arcseconds, an angle in degrees. -/
noncomputable def arcseconds (x : ℝ) : ℝ := x * π / 648000
noncomputable def degreesOf (x : ℝ) : ℝ := x * π / 180

/-- Coordinates in a frame whose axes have been turned by the angle `θ` about the first, second or third axis. -/
noncomputable def turnedX (θ : ℝ) : Mat3 := ⟨⟨1, 0, 0⟩, ⟨0, cos θ, sin θ⟩, ⟨0, -sin θ, cos θ⟩⟩
noncomputable def turnedY (θ : ℝ) : Mat3 := ⟨⟨cos θ, 0, -sin θ⟩, ⟨0, 1, 0⟩, ⟨sin θ, 0, cos θ⟩⟩
noncomputable def turnedZ (θ : ℝ) : Mat3 := ⟨⟨cos θ, sin θ, 0⟩, ⟨-sin θ, cos θ, 0⟩, ⟨0, 0, 1⟩⟩

/-- The nine entries of two matrices agree to within `ε`. -/
def EntriesWithin (ε : ℝ) (a b : Mat3) : Prop :=
  (|a.r1.x - b.r1.x| ≤ ε ∧ |a.r1.y - b.r1.y| ≤ ε ∧ |a.r1.z - b.r1.z| ≤ ε) ∧
  (|a.r2.x - b.r2.x| ≤ ε ∧ |a.r2.y - b.r2.y| ≤ ε ∧ |a.r2.z - b.r2.z| ≤ ε) ∧
  (|a.r3.x - b.r3.x| ≤ ε ∧ |a.r3.y - b.r3.y| ≤ ε ∧ |a.r3.z - b.r3.z| ≤ ε)

/-- The ecliptic of J2000 (IAU 1976): the equator turned about the equinox by the obliquity 23°26′21.448″. -/
noncomputable def eclipticOfJ2000 : Mat3 := turnedX (arcseconds 84381.448)

/-- The mean equator and equinox of B1950: the precession angles from J2000 back to B1950. -/
noncomputable def equatorOfB1950 : Mat3 :=
  (turnedZ (arcseconds 1152.84248596724)).mul ((turnedY (arcseconds (-1002.26108439117))).mul (turnedZ (arcseconds 1153.04066200330)))

/-- A point on the sky, from right ascension and declination. -/
noncomputable def skyPoint (ra dec : ℝ) : Vec3 := ⟨cos dec * cos ra, cos dec * sin ra, sin dec⟩

/-- The point a quarter of a circle away from the point at `ra`, `dec`, in the direction of the position angle `pa`, which is counted from
north towards east. -/
noncomputable def quarterCircleFrom (ra dec pa : ℝ) : Vec3 :=
  cos pa • (⟨-sin dec * cos ra, -sin dec * sin ra, cos dec⟩ : Vec3) + sin pa • (⟨-sin ra, cos ra, 0⟩ : Vec3)

/-- The galactic system (IAU 1958): its pole is at 12h49m, +27.4° of the FK4 catalogue's equinox B1950, which lies 0.525″ from the
equinox used here, and longitude begins on the circle that leaves the pole at the position angle 123°. -/
noncomputable def galacticPoleRa : ℝ := degreesOf 192.25 + arcseconds 0.525
noncomputable def galacticPoleDec : ℝ := degreesOf 27.4
noncomputable def galacticZero : ℝ := degreesOf 123

/-- The axes of J2000 as seen from the ICRF (IERS Conventions 2003): the three bias angles. -/
noncomputable def frameBias : Mat3 :=
  (turnedX (arcseconds 0.0068192)).mul ((turnedY (arcseconds (-0.0166170))).mul (turnedZ (arcseconds (-0.01460))))

end Spec
