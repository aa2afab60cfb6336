import Verif.Model.Masks
import Verif.Model.Elements

/-
The array branches of skyfield/elementslib.py: the elements of many states at once.  Exact real arithmetic; an infinite
distance or period is `none`.  An array of shape (3, n) is the list of its columns.
-/
namespace Skyfield
namespace ArrayBranch
open Real Classical

/-- Whether a proposition holds, as the entry of a mask. Used at skyfield/elementslib.py:358-359 and 363-364. -/
noncomputable def mask {α : Type*} (xs : List α) (p : α → Prop) : List Bool := xs.map fun x => decide (p x)
/-- `~m`. Used at skyfield/elementslib.py:265-280. -/
def maskNot (m : List Bool) : List Bool := m.map (!·)
/-- `m * n` for masks. Used at skyfield/elementslib.py:265-280. -/
def maskAnd (m n : List Bool) : List Bool := List.zipWith (· && ·) m n
/-- `zeros_like`. Used at skyfield/elementslib.py:325-326. -/
def zeros {α : Type*} (xs : List α) : List ℝ := xs.map fun _ => 0
/-- `repeat(inf, …)`. Used at skyfield/elementslib.py:388-389. -/
def infinities {α : Type*} (xs : List α) : List (Option ℝ) := xs.map fun _ => none
/-- `-angle % tau`. Used at skyfield/elementslib.py:265-280. -/
noncomputable def mirrored (angle : List ℝ) : List ℝ := angle.map fun a => pyMod (-a) tau
/-- `length_of`, `angle_between` and `dots` on arrays of vectors: elementwise.
Used at skyfield/elementslib.py:358-359 and 363-364. -/
noncomputable def lengths (vs : List Vec3) : List ℝ := vs.map Vec3.length
/-- `angle_between` on arrays. Used at skyfield/elementslib.py:317-319. -/
noncomputable def angles (us vs : List Vec3) : List ℝ := List.zipWith angleBetween us vs
/-- `dots` on arrays. Used at skyfield/elementslib.py:449-471. -/
noncomputable def dotsOf (us vs : List Vec3) : List ℝ := List.zipWith Vec3.dot us vs

/-- `eccentricity_vector` on arrays — skyfield/elementslib.py:311-314. -/
noncomputable def eccentricityVectors (pos vel : List Vec3) (mu : ℝ) : List Vec3 :=
  List.zipWith (fun p v => eccentricityVector p v mu) pos vel

/-- `node_vector`, array branch — skyfield/elementslib.py:358-359 and 363-364. -/
noncomputable def nodeVectors (h : List Vec3) : List Vec3 :=
  let n : List Vec3 := h.map fun h => ⟨-h.y, h.x, 0⟩
  opWhere (fun (v : Vec3) (l : ℝ) => (1 / l) • v) n (lengths n) n (mask (lengths n) (· ≠ 0))

/-- `inclination` — skyfield/elementslib.py:317-319. -/
noncomputable def inclinations (h : List Vec3) : List ℝ := angles h (h.map fun _ => ⟨0, 0, 1⟩)

/-- `longitude_of_ascending_node`, array branch — skyfield/elementslib.py:325-326. -/
noncomputable def ascendingNodes (i : List ℝ) (h : List Vec3) : List ℝ :=
  (opWhere (fun x y => arctan2 x (-y)) (h.map (·.x)) (h.map (·.y)) (zeros i) (mask i (· ≠ 0))).map fun a => pyMod a tau

/-- `argument_of_periapsis`, array branch — skyfield/elementslib.py:265-280. -/
noncomputable def periapsisArguments (n e pos vel : List Vec3) : List ℝ :=
  let w := zeros pos
  let equatorial := mask (lengths n) (· < 1e-15)
  let circular := mask (lengths e) (· < 1e-15)
  let inds := maskAnd (maskNot circular) equatorial
  let angle := List.zipWith (fun y x => pyMod (arctan2 y x) tau) (pick inds (e.map (·.y))) (pick inds (e.map (·.x)))
  let condition := mask (List.zipWith Vec3.cross (pick inds pos) (pick inds vel)) (·.z ≥ 0)
  let w := put w inds (npWhere condition angle (mirrored angle))
  let inds := maskAnd (maskNot circular) (maskNot equatorial)
  let angle := angles (pick inds n) (pick inds e)
  let condition := mask (pick inds (e.map (·.z))) (· > 0)
  put w inds (npWhere condition angle (mirrored angle))

/-- `true_anomaly`, array branch — skyfield/elementslib.py:449-471. -/
noncomputable def trueAnomalies (e pos vel n : List Vec3) : List ℝ :=
  let v := zeros pos
  let circular := mask (lengths e) (· < 1e-15)
  let equatorial := mask (lengths n) (· < 1e-15)
  let inds := maskNot circular
  let angle := angles (pick inds e) (pick inds pos)
  let condition := mask (dotsOf (pick inds pos) (pick inds vel)) (· > 0)
  let v := put v inds (npWhere condition angle (mirrored angle))
  let inds := maskAnd circular equatorial
  let angle := List.zipWith (fun x l => arccos (x / l)) (pick inds (pos.map (·.x))) (pick inds (lengths pos))
  let condition := mask (pick inds (vel.map (·.x))) (· < 0)
  let v := put v inds (npWhere condition angle (mirrored angle))
  let inds := maskAnd circular (maskNot equatorial)
  let angle := angles (pick inds n) (pick inds pos)
  let condition := mask (pick inds (pos.map (·.z))) (· ≥ 0)
  let v := put v inds (npWhere condition angle (mirrored angle))
  let inds := mask (lengths e) (· > 1 - 1e-15)
  put v inds ((pick inds v).map normpi)

/-- `semi_latus_rectum` — skyfield/elementslib.py:381-382. -/
noncomputable def latusRectums (h : List Vec3) (mu : ℝ) : List ℝ := (lengths h).map fun l => l ^ 2 / mu

/-- `semi_major_axis`, array branch — skyfield/elementslib.py:388-389. -/
noncomputable def majorAxes (p e : List ℝ) : List (Option ℝ) :=
  opWhere (fun a b => some (a / b)) p (e.map fun e => 1 - e ^ 2) (infinities p) (mask e (· ≠ 1))

/-- `semi_minor_axis`, array branch — skyfield/elementslib.py:400-409. -/
noncomputable def minorAxes (p e : List ℝ) : List ℝ :=
  let b := zeros e
  let inds := mask e (· < 1)
  let b := put b inds (List.zipWith (fun p e => p / √(1 - e ^ 2)) (pick inds p) (pick inds e))
  let inds := mask e (· > 1)
  put b inds (List.zipWith (fun p e => p * √(e ^ 2 - 1) / (1 - e ^ 2)) (pick inds p) (pick inds e))

/-- `periapsis_distance`, array branch — skyfield/elementslib.py:370-371. -/
noncomputable def periapsisDistances (p e : List ℝ) : List ℝ :=
  opWhere (· / ·) (List.zipWith (fun p e => p * (1 - e)) p e) (e.map fun e => 1 - e ^ 2) (p.map (· / 2)) (mask e (· ≠ 1))

/-- `apoapsis_distance`, array branch — skyfield/elementslib.py:249-250.  The limit is not that of the scalar branch. -/
noncomputable def apoapsisDistances (p e : List ℝ) : List (Option ℝ) :=
  opWhere (fun a b => some (a / b)) (List.zipWith (fun p e => p * (1 + e)) p e) (e.map fun e => 1 - e ^ 2) (infinities p)
    (mask e (· < 1 - 1e-15))

/-- `period`, array branch — skyfield/elementslib.py:377-378.  An infinite axis is positive and its square root infinite. -/
noncomputable def periods (a : List (Option ℝ)) (mu : ℝ) : List (Option ℝ) :=
  npWhere (mask a fun a => ∀ x ∈ a, 0 < x) (a.map fun a => a.map fun a => tau * √(a ^ 3 / mu)) (infinities a)

/-- `mean_motion` — skyfield/elementslib.py:353-354. -/
noncomputable def motions (a : List (Option ℝ)) (mu : ℝ) : List ℝ := a.map fun a => meanMotion a mu

/-- `eccentric_anomaly`, array branch — skyfield/elementslib.py:291-300. -/
noncomputable def eccentricAnomalies (v e : List ℝ) : List ℝ :=
  let E := zeros e
  let inds := mask e (· < 1)
  let E := put E inds (List.zipWith (fun e v => 2 * arctan (√((1 - e) / (1 + e)) * tan (v / 2))) (pick inds e) (pick inds v))
  let inds := mask e (· > 1)
  put E inds (List.zipWith (fun v e => normpi (2 * artanh (tan (v / 2) / √((e + 1) / (e - 1))))) (pick inds v) (pick inds e))

/-- `mean_anomaly`, array branch — skyfield/elementslib.py:338-350. -/
noncomputable def meanAnomalies (E e : List ℝ) (shift : Bool) : List ℝ :=
  let M := zeros e
  let inds := mask e (· < 1)
  let M := put M inds (List.zipWith (fun E e => pyMod (E - e * sin E) tau) (pick inds E) (pick inds e))
  let inds := mask e (· > 1)
  if shift then put M inds (List.zipWith (fun e E => normpi (e * sinh E - E)) (pick inds e) (pick inds E))
  else put M inds (List.zipWith (fun e E => e * sinh E - E) (pick inds e) (pick inds E))

/-- `time_since_periapsis`, array branch — skyfield/elementslib.py:424-430. -/
noncomputable def timesSincePeriapsis (M n v p : List ℝ) (mu : ℝ) : List ℝ :=
  let parabolic := mask n (· < 8.64e-15)
  let t := opWhere (· / ·) M n (zeros p) (maskNot parabolic)
  let D := (pick parabolic v).map fun v => tan (v / 2)
  put t parabolic (List.zipWith (fun p D => √(2 * (p / 2) ^ 3 / mu) * (D + D ^ 3 / 3)) (pick parabolic p) D)

end ArrayBranch

/-- `OsculatingElements` of arrays of positions and velocities — skyfield/elementslib.py:73-205. -/
structure OsculatingArray where
  pos : List Vec3
  vel : List Vec3
  mu : ℝ

namespace OsculatingArray
open ArrayBranch
variable (o : OsculatingArray)

/-- skyfield/elementslib.py:84. -/
def hVec : List Vec3 := List.zipWith Vec3.cross o.pos o.vel
/-- skyfield/elementslib.py:85. -/
noncomputable def eVec : List Vec3 := eccentricityVectors o.pos o.vel o.mu
/-- skyfield/elementslib.py:86. -/
noncomputable def nVec : List Vec3 := nodeVectors o.hVec
/-- skyfield/elementslib.py:112-114. -/
noncomputable def eccentricity : List ℝ := lengths o.eVec
/-- skyfield/elementslib.py:116-119. -/
noncomputable def inclination : List ℝ := inclinations o.hVec
/-- skyfield/elementslib.py:121-124. -/
noncomputable def ascendingNode : List ℝ := ascendingNodes o.inclination o.hVec
/-- skyfield/elementslib.py:100-103. -/
noncomputable def periapsisArgument : List ℝ := periapsisArguments o.nVec o.eVec o.pos o.vel
/-- skyfield/elementslib.py:194-197. -/
noncomputable def trueAnomaly : List ℝ := trueAnomalies o.eVec o.pos o.vel o.nVec
/-- skyfield/elementslib.py:179-182. -/
noncomputable def latusRectum : List ℝ := latusRectums o.hVec o.mu
/-- skyfield/elementslib.py:184-187. -/
noncomputable def majorAxis : List (Option ℝ) := majorAxes o.latusRectum o.eccentricity
/-- skyfield/elementslib.py:189-192. -/
noncomputable def minorAxis : List ℝ := minorAxes o.latusRectum o.eccentricity
/-- skyfield/elementslib.py:151-154. -/
noncomputable def periapsis : List ℝ := periapsisDistances o.latusRectum o.eccentricity
/-- skyfield/elementslib.py:88-91. -/
noncomputable def apoapsis : List (Option ℝ) := apoapsisDistances o.latusRectum o.eccentricity
/-- skyfield/elementslib.py:174-177. -/
noncomputable def period : List (Option ℝ) := periods o.majorAxis o.mu
/-- skyfield/elementslib.py:145-149. -/
noncomputable def motion : List ℝ := motions o.majorAxis o.mu
/-- skyfield/elementslib.py:105-110. -/
noncomputable def eccentricAnomaly : List ℝ := eccentricAnomalies o.trueAnomaly o.eccentricity
/-- skyfield/elementslib.py:133-136. -/
noncomputable def meanAnomaly : List ℝ := meanAnomalies o.eccentricAnomaly o.eccentricity true
/-- skyfield/elementslib.py:156-172. -/
noncomputable def sincePeriapsis : List ℝ :=
  timesSincePeriapsis (meanAnomalies o.eccentricAnomaly o.eccentricity false) o.motion o.trueAnomaly o.latusRectum o.mu
/-- skyfield/elementslib.py:93-98. -/
noncomputable def latitudeArgument : List ℝ := List.zipWith (fun w v => pyMod (w + v) tau) o.periapsisArgument o.trueAnomaly
/-- skyfield/elementslib.py:126-131. -/
noncomputable def periapsisLongitude : List ℝ := List.zipWith (fun Om w => pyMod (Om + w) tau) o.ascendingNode o.periapsisArgument
/-- skyfield/elementslib.py:138-143. -/
noncomputable def meanLongitude : List ℝ :=
  List.zipWith (fun a M => pyMod (a + M) tau) (List.zipWith (· + ·) o.ascendingNode o.periapsisArgument) o.meanAnomaly
/-- skyfield/elementslib.py:199-205. -/
noncomputable def trueLongitude : List ℝ :=
  List.zipWith (fun a v => pyMod (a + v) tau) (List.zipWith (· + ·) o.ascendingNode o.periapsisArgument) o.trueAnomaly

end OsculatingArray
end Skyfield
