import Verif.Model.Linear

/-
Geometry of lines, spheres and ellipsoids: skyfield/geometry.py, and the tests built on it in skyfield/positionlib.py.
Exact real arithmetic; `none` stands for `nan`.
-/
namespace Skyfield

/-- `sqrt_nan` — skyfield/functions.py:17-20. -/
noncomputable def sqrtNan (n : ℝ) : Option ℝ := if n < 0 then none else some (√|n|)

/-- `intersect_line_and_sphere` — skyfield/geometry.py:5-25.  `none` stands for the pair `(nan, nan)`; a zero endpoint makes
`endpoint / length_of(endpoint)` all `nan`. -/
noncomputable def intersectLineSphere (endpoint center : Vec3) (radius : ℝ) : Option (ℝ × ℝ) :=
  if endpoint.length = 0 then none
  else
    let u : Vec3 := ⟨endpoint.x / endpoint.length, endpoint.y / endpoint.length, endpoint.z / endpoint.length⟩
    let minusB := 2 * (u.x * center.x + u.y * center.y + u.z * center.z)
    let c := center.x * center.x + center.y * center.y + center.z * center.z - radius * radius
    let discriminant := minusB * minusB - 4 * c
    (sqrtNan discriminant).map fun dsqrt => ((minusB - dsqrt) / 2, (minusB + dsqrt) / 2)

/-- `_vector_projection` — skyfield/geometry.py:62-63. -/
noncomputable def vectorProjection (a b : Vec3) : Vec3 := (a.dot b / b.dot b) • b

/-- `line_and_ellipsoid_intersection` — skyfield/geometry.py:27-60.  `none` stands for `[nan nan nan]`.  The radii and the
direction are assumed non-zero by the theorems (the code then never divides by zero). -/
noncomputable def lineEllipsoidIntersection (lineStart lineDirection radii : Vec3) : Option Vec3 :=
  let start := lineStart / radii
  let direction := lineDirection / radii
  let closestPoint := start - vectorProjection start direction
  let startmag := start.length
  let pmag := closestPoint.length
  let isInsideSphere := decide (startmag < 1)
  let isBehindUs := decide ((closestPoint - start).dot direction < 0)
  let sign : Option ℝ := if isInsideSphere then some 1 else if isBehindUs then none else some (-1)
  let halfChordLength := sqrtNan (1 - pmag * pmag)
  let unitDirection : Vec3 := (1 / direction.length) • direction
  if startmag = 1 then some lineStart
  else
    match sign, halfChordLength with
    | some sign, some halfChord => some ((closestPoint + (sign * halfChord) • unitDirection) * radii)
    | _, _ => none

/-- `nan_to_num`. Used at skyfield/positionlib.py:570-592. -/
def nanToNum : Option ℝ → ℝ
  | some x => x
  | none => 0

/-- `ERAD` in meters — skyfield/constants.py:22. -/
noncomputable def erad : ℝ := 6378136.6

/-- Outcome of the tests: an answer, or `ValueError`. Used at skyfield/positionlib.py:570-592. -/
inductive SightAnswer
  | yes
  | no
  | valueError
  deriving DecidableEq

/-- An answer from a proposition. Used at skyfield/positionlib.py:570-592. -/
noncomputable def SightAnswer.ofProp (p : Prop) : SightAnswer := by
  classical
  exact if p then .yes else .no

/-- `ICRF.is_sunlit` — skyfield/positionlib.py:570-592.  `geocentric` is `self.center == 399`, `xyz` the position in meters,
`observerGcrs` the geocentric position of the center in meters, if known, and `sun` the geocentric position of the Sun
in meters. -/
noncomputable def isSunlit (geocentric : Bool) (xyz : Vec3) (observerGcrs : Option Vec3) (sun : Vec3) : SightAnswer :=
  let earth : Option Vec3 :=
    if geocentric then some (-xyz)
    else observerGcrs.map fun g => -xyz - g
  match earth with
  | none => .valueError
  | some earth =>
    let far := (intersectLineSphere (sun + earth) earth erad).map Prod.snd
    .ofProp (nanToNum far ≤ 0)

/-- `ICRF.is_behind_earth` — skyfield/positionlib.py:594-610. -/
noncomputable def isBehindEarth (xyz : Vec3) (observerGcrs : Option Vec3) : SightAnswer :=
  match observerGcrs with
  | none => .valueError
  | some g =>
    let earth := -g
    let p := intersectLineSphere xyz earth erad
    .ofProp (0 < nanToNum (p.map Prod.snd) ∧ nanToNum (p.map Prod.fst) < xyz.length)

end Skyfield
