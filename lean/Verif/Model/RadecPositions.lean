import Verif.Model.Frames
import Verif.Model.Positions

/-
Positions built from a right ascension and a declination — skyfield/positionlib.py:22-64, 107-115.  Exact real arithmetic.
An argument that is left out is `none`.
-/
namespace Skyfield

/-- `_GIGAPARSEC_AU` — skyfield/positionlib.py:22. -/
noncomputable def gigaparsecAu : ℝ := 206264806247096.38

section
variable {T L O : Type*} [DecidableEq O]

/-- `position_of_radec(ra_hours, dec_degrees, distance_au, epoch, t, center, target)` — skyfield/positionlib.py:34-58. -/
noncomputable def positionOfRadec (raHours decDegrees : ℝ) (distanceAu : Option ℝ) (epoch : Option SkyTime) (t : Option T)
    (center target : Option (Body O)) : Position Vec3 T L O :=
  buildPosition (fromRadec raHours decDegrees (distanceAu.getD gigaparsecAu) epoch) none t center target

/-- `position_from_radec(ra_hours, dec_degrees, distance, epoch, t, center, target)` — skyfield/positionlib.py:60-64. -/
noncomputable def positionFromRadec (raHours decDegrees : ℝ) (distance : Option ℝ) (epoch : Option SkyTime) (t : Option T)
    (center target : Option (Body O)) : Position Vec3 T L O :=
  positionOfRadec raHours decDegrees (some (distance.getD 1)) epoch t center target

/-- `ICRF.from_radec(ra_hours, dec_degrees, distance_au, epoch)`, on any of the classes — skyfield/positionlib.py:107-115. -/
noncomputable def classFromRadec (kind : PositionKind) (raHours decDegrees : ℝ) (distanceAu : Option ℝ) (epoch : Option SkyTime) :
    Position Vec3 T L O :=
  .new kind (fromRadec raHours decDegrees (distanceAu.getD gigaparsecAu) epoch) none none none none

end

end Skyfield
