import Verif.Model.KernelFile

/-
What a printed ephemeris report means to its reader, and what a segment of an ephemeris file describes.
-/
namespace Spec
open Skyfield

/-- Read a report from the top: a heading names the file of the segments below it, a line of dates gives theirs. -/
def readReport (file : String) (dates : ℚ × ℚ) : List ReportLine → List (String × (ℚ × ℚ) × ℤ × ℤ)
  | [] => []
  | .heading _ f :: lines => readReport f dates lines
  | .dates a b _ _ :: lines => readReport file (a, b) lines
  | .segment c t _ _ :: lines => (file, dates, c, t) :: readReport file dates lines

/-- The number of the day, from midnight to midnight, on which a Julian date falls. -/
def dayOf (jd : ℚ) : ℤ := ⌊jd + 1 / 2⌋

/-- The segment gives the position `p` and velocity `v` of a body at each date, in kilometers and kilometers per day; segments of type 3 hold
kilometers per second. -/
def DescribesBody {K V M : Type*} [Field K] [AddCommGroup V] [Module K V] (s : SpkSegment K V M) (covered : K → Prop) (p v : K → V) : Prop :=
  ∀ whole fraction : K, covered (whole + fraction) →
    (s.dataType = 2 → s.computeAndDifferentiate whole fraction = .ok (p (whole + fraction), v (whole + fraction))) ∧
    (s.dataType = 3 → ∃ perSecond : V, s.compute whole fraction = .ok (p (whole + fraction), perSecond) ∧
      v (whole + fraction) = (86400 : K) • perSecond)

end Spec
