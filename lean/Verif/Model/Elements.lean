import Verif.Model.Kepler
import Mathlib.Analysis.SpecialFunctions.Artanh

/-
Osculating orbital elements — skyfield/elementslib.py.  Exact real arithmetic, scalar branches (the array branches are in
`Model/ElementArrays.lean`).  An infinite distance or period is `none`.
-/
namespace Skyfield
open Real

/-- `osculating_elements_of`, choice of GM — skyfield/elementslib.py:33-46, with the check of lines 74-76.  `center` and
`target` are `none` when they are not integers, `table` is `GM_dict`; the result `none` is `ValueError`. -/
noncomputable def chooseGm (table : ℤ → Option ℝ) (given : Option ℝ) (center target : Option ℤ) : Option ℝ :=
  open Classical in
  let chosen : Option ℝ :=
    match given with
    | some gm => some gm
    | none =>
      match center with
      | none => none
      | some c =>
        let gm := (table c).getD 0
        let gm := if 0 ≤ c ∧ c ≤ 9 then gm else gm + ((target.bind table).getD 0)
        if gm = 0 then none else some gm
  chosen.bind fun gm => if gm ≤ 0 then none else some gm

/-- `eccentricity_vector` — skyfield/elementslib.py:311-314. -/
noncomputable def eccentricityVector (pos vel : Vec3) (mu : ℝ) : Vec3 :=
  let r := pos.length
  let v := vel.length
  (1 / mu) • ((v ^ 2 - mu / r) • pos - pos.dot vel • vel)

/-- `node_vector` — skyfield/elementslib.py:357-364. -/
noncomputable def nodeVector (h : Vec3) : Vec3 :=
  open Classical in
  let n : Vec3 := ⟨-h.y, h.x, 0⟩
  if n.length ≠ 0 then (1 / n.length) • n else n

/-- `inclination` — skyfield/elementslib.py:317-319. -/
noncomputable def inclinationOf (h : Vec3) : ℝ := angleBetween h ⟨0, 0, 1⟩

/-- `longitude_of_ascending_node` — skyfield/elementslib.py:322-326.  (With floats, the exactly retrograde equatorial orbit
reaches `arctan2(0.0, -0.0)`, which is π rather than 0; signed zeros are not modelled.) -/
noncomputable def longitudeOfAscendingNode (i : ℝ) (h : Vec3) : ℝ :=
  open Classical in
  if i ≠ 0 then pyMod (arctan2 h.x (-h.y)) tau else 0

/-- `argument_of_periapsis` — skyfield/elementslib.py:253-264. -/
noncomputable def argumentOfPeriapsis (n e pos vel : Vec3) : ℝ :=
  open Classical in
  if e.length < 1e-15 then 0
  else if n.length < 1e-15 then
    let angle := pyMod (arctan2 e.y e.x) tau
    if (pos.cross vel).z ≥ 0 then angle else pyMod (-angle) tau
  else
    let angle := angleBetween n e
    if e.z > 0 then angle else pyMod (-angle) tau

/-- `true_anomaly` — skyfield/elementslib.py:433-448. -/
noncomputable def trueAnomalyOf (e pos vel n : Vec3) : ℝ :=
  open Classical in
  let v :=
    if e.length > 1e-15 then
      let angle := angleBetween e pos
      if pos.dot vel > 0 then angle else pyMod (-angle) tau
    else if n.length < 1e-15 then
      let angle := arccos (pos.x / pos.length)
      if vel.x < 0 then angle else pyMod (-angle) tau
    else
      let angle := angleBetween n pos
      if pos.z ≥ 0 then angle else pyMod (-angle) tau
  if e.length < 1 - 1e-15 then v else normpi v

/-- `semi_latus_rectum` — skyfield/elementslib.py:381-382. -/
noncomputable def semiLatusRectum (h : Vec3) (mu : ℝ) : ℝ := h.length ^ 2 / mu

/-- `semi_major_axis` — skyfield/elementslib.py:385-389; `none` is infinity. -/
noncomputable def semiMajorAxis (p e : ℝ) : Option ℝ :=
  open Classical in if e ≠ 1 then some (p / (1 - e ^ 2)) else none

/-- `semi_minor_axis` — skyfield/elementslib.py:392-400. -/
noncomputable def semiMinorAxis (p e : ℝ) : ℝ :=
  open Classical in
  if e < 1 then p / √(1 - e ^ 2)
  else if e > 1 then p * √(e ^ 2 - 1) / (1 - e ^ 2)
  else 0

/-- `periapsis_distance` — skyfield/elementslib.py:367-371. -/
noncomputable def periapsisDistance (p e : ℝ) : ℝ :=
  open Classical in if e ≠ 1 then p * (1 - e) / (1 - e ^ 2) else p / 2

/-- `apoapsis_distance` — skyfield/elementslib.py:246-250; `none` is infinity. -/
noncomputable def apoapsisDistance (p e : ℝ) : Option ℝ :=
  open Classical in if e < 1 then some (p * (1 + e) / (1 - e ^ 2)) else none

/-- `period` — skyfield/elementslib.py:374-378, with an infinite axis passed through; `none` is infinity. -/
noncomputable def periodOf (a : Option ℝ) (mu : ℝ) : Option ℝ :=
  open Classical in
  match a with
  | none => none
  | some a => if a > 0 then some (tau * √(a ^ 3 / mu)) else none

/-- `mean_motion` — skyfield/elementslib.py:353-354; an infinite axis gives 0. -/
noncomputable def meanMotion (a : Option ℝ) (mu : ℝ) : ℝ :=
  match a with
  | none => 0
  | some a => √(mu / |a| ^ 3)

/-- `eccentric_anomaly` — skyfield/elementslib.py:283-290. -/
noncomputable def eccentricAnomalyOf (v e : ℝ) : ℝ :=
  open Classical in
  if e < 1 then 2 * arctan (√((1 - e) / (1 + e)) * tan (v / 2))
  else if e > 1 then normpi (2 * artanh (tan (v / 2) / √((e + 1) / (e - 1))))
  else 0

/-- `mean_anomaly` — skyfield/elementslib.py:329-338. -/
noncomputable def meanAnomalyOf (E e : ℝ) (shift : Bool) : ℝ :=
  open Classical in
  if e < 1 then pyMod (E - e * sin E) tau
  else if e > 1 then
    let M := e * sinh E - E
    if shift then normpi M else M
  else 0

/-- `time_since_periapsis` — skyfield/elementslib.py:412-424. -/
noncomputable def timeSincePeriapsis (M n v p mu : ℝ) : ℝ :=
  open Classical in
  if n ≥ 8.64e-15 then M / n
  else
    let D := tan (v / 2)
    √(2 * (p / 2) ^ 3 / mu) * (D + D ^ 3 / 3)

/-- `OsculatingElements` — skyfield/elementslib.py:58-208, with lengths in kilometers and times in days (the class
keeps velocities per second and multiplies rates by the length of the day, lines 82, 145-149 and 174-177).  Each attribute is the expression of the property
of the same name. -/
structure Osculating where
  pos : Vec3
  vel : Vec3
  mu : ℝ

namespace Osculating
variable (o : Osculating)

/-- skyfield/elementslib.py:84. -/
def hVec : Vec3 := o.pos.cross o.vel
/-- skyfield/elementslib.py:85. -/
noncomputable def eVec : Vec3 := eccentricityVector o.pos o.vel o.mu
/-- skyfield/elementslib.py:86. -/
noncomputable def nVec : Vec3 := nodeVector o.hVec
/-- skyfield/elementslib.py:112-114. -/
noncomputable def eccentricity : ℝ := o.eVec.length
/-- skyfield/elementslib.py:116-119. -/
noncomputable def inclination : ℝ := inclinationOf o.hVec
/-- skyfield/elementslib.py:121-124. -/
noncomputable def ascendingNode : ℝ := longitudeOfAscendingNode o.inclination o.hVec
/-- skyfield/elementslib.py:100-103. -/
noncomputable def periapsisArgument : ℝ := argumentOfPeriapsis o.nVec o.eVec o.pos o.vel
/-- skyfield/elementslib.py:194-197. -/
noncomputable def trueAnomaly : ℝ := trueAnomalyOf o.eVec o.pos o.vel o.nVec
/-- skyfield/elementslib.py:179-182. -/
noncomputable def latusRectum : ℝ := semiLatusRectum o.hVec o.mu
/-- skyfield/elementslib.py:184-187. -/
noncomputable def majorAxis : Option ℝ := semiMajorAxis o.latusRectum o.eccentricity
/-- skyfield/elementslib.py:189-192. -/
noncomputable def minorAxis : ℝ := semiMinorAxis o.latusRectum o.eccentricity
/-- skyfield/elementslib.py:151-154. -/
noncomputable def periapsis : ℝ := periapsisDistance o.latusRectum o.eccentricity
/-- skyfield/elementslib.py:88-91. -/
noncomputable def apoapsis : Option ℝ := apoapsisDistance o.latusRectum o.eccentricity
/-- skyfield/elementslib.py:174-177. -/
noncomputable def period : Option ℝ := periodOf o.majorAxis o.mu
/-- skyfield/elementslib.py:145-149. -/
noncomputable def motion : ℝ := meanMotion o.majorAxis o.mu
/-- skyfield/elementslib.py:105-110. -/
noncomputable def eccentricAnomaly : ℝ := eccentricAnomalyOf o.trueAnomaly o.eccentricity
/-- skyfield/elementslib.py:133-136. -/
noncomputable def meanAnomaly : ℝ := meanAnomalyOf o.eccentricAnomaly o.eccentricity true
/-- skyfield/elementslib.py:156-172: the time passed since periapsis, subtracted there from the time of the position. -/
noncomputable def sincePeriapsis : ℝ :=
  timeSincePeriapsis (meanAnomalyOf o.eccentricAnomaly o.eccentricity false) o.motion o.trueAnomaly o.latusRectum o.mu
/-- skyfield/elementslib.py:93-98. -/
noncomputable def latitudeArgument : ℝ := pyMod (o.periapsisArgument + o.trueAnomaly) tau
/-- skyfield/elementslib.py:126-131. -/
noncomputable def periapsisLongitude : ℝ := pyMod (o.ascendingNode + o.periapsisArgument) tau
/-- skyfield/elementslib.py:138-143. -/
noncomputable def meanLongitude : ℝ := pyMod (o.ascendingNode + o.periapsisArgument + o.meanAnomaly) tau
/-- skyfield/elementslib.py:199-205. -/
noncomputable def trueLongitude : ℝ := pyMod (o.ascendingNode + o.periapsisArgument + o.trueAnomaly) tau

end Osculating
end Skyfield
