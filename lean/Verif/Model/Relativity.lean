import Verif.Model.Spherical
import Verif.Model.Geometry

/-
Deflection and aberration of light, and apparent positions — skyfield/relativity.py, skyfield/positionlib.py:728-805,
skyfield/earthlib.py:66-108.  Exact real arithmetic; `nan` is `none`.
-/
namespace Skyfield

/-- `GS` — skyfield/constants.py:26. -/
noncomputable def gravSun : ℝ := 1.32712440017987e20
/-- `C_AUDAY` — skyfield/constants.py:32, with `DAY_S` of line 7. -/
noncomputable def cAuDay : ℝ := lightSpeed * daySeconds / auM

/-- `light_time_difference` — skyfield/relativity.py:104-123.  `tiny` is `_AVOID_DIVIDE_BY_ZERO`, about 2·10⁻³⁰⁸. -/
noncomputable def lightTimeDifference (tiny : ℝ) (position deflectorPosition : Vec3) : ℝ :=
  let dis := position.length
  let u1 := (1 / (dis + tiny)) • position
  u1.dot deflectorPosition / cAuDay

/-- `numpy.clip`. Used at skyfield/relativity.py:80-102. -/
noncomputable def clip (x lo hi : ℝ) : ℝ := min (max x lo) hi

/-- `_compute_deflector_position` — skyfield/relativity.py:80-102.  `deflector` gives the deflector's barycentric position
at a time in days; times are exact here (the code subtracts with `Time.__sub__`, modelled in TimeArith). -/
noncomputable def deflectorPosition (tiny : ℝ) (t : ℝ) (observer position : Vec3) (deflector : ℝ → Vec3) (tlt : ℝ) : Vec3 :=
  let gpv := deflector t - observer
  let dlt := lightTimeDifference tiny position gpv
  let tclose := t - clip dlt 0 tlt
  observer - deflector tclose

/-- `where(x, x, 1.0)`. Used at skyfield/relativity.py:125-162. -/
noncomputable def orOne (x : ℝ) : ℝ := open Classical in if x ≠ 0 then x else 1

/-- `_compute_deflection` — skyfield/relativity.py:125-162.  `none` is `nan`: it arises when the observer is at the deflector
(line 159 divides by zero and line 162 multiplies the infinity by zero), and when the deflector is exactly on the segment
between observer and object (line 162 divides zero by zero). -/
noncomputable def computeDeflection (position pe : Vec3) (rmass : ℝ) : Option Vec3 :=
  let pq := position + pe
  let pmag := position.length
  let qmag := pq.length
  let emag := pe.length
  let phat := (1 / orOne pmag) • position
  let qhat := (1 / orOne qmag) • pq
  let ehat := (1 / orOne emag) • pe
  let pdotq := phat.dot qhat
  let qdote := qhat.dot ehat
  let edotp := ehat.dot phat
  let flag : ℝ := open Classical in if |edotp| ≤ 0.99999999999 then 1 else 0
  let fac1 := 2 * gravSun / (lightSpeed * lightSpeed * emag * auM * rmass)
  let fac2 := 1 + qdote
  open Classical in
  if emag = 0 ∨ fac2 = 0 then none
  else some (pmag • ((1 / fac2) • ((flag * fac1) • (pdotq • ehat - edotp • qhat))))

/-- `add_aberration` — skyfield/relativity.py:164-187. -/
noncomputable def addAberration (tiny : ℝ) (position velocity : Vec3) (lightTime : ℝ) : Vec3 :=
  let p1mag := lightTime * cAuDay
  let vemag := velocity.length
  let beta := vemag / cAuDay
  let dot := position.dot velocity
  let cosd := dot / (p1mag * vemag + tiny)
  let gammai := √(1 - beta * beta)
  let p := beta * cosd
  let q := (1 + p / (1 + gammai)) * lightTime
  let r := 1 + p
  (1 / r) • (gammai • position + q • velocity)

/-- `earth_radius_au` — skyfield/earthlib.py:12: `ERAD / AU_M`. -/
noncomputable def earthRadiusAu : ℝ := erad / auM

/-- `compute_limb_angle` — skyfield/earthlib.py:66-108: limb angle in radians (the code converts to degrees) and nadir
angle; `none` is `nan`, from the division in line 96. -/
noncomputable def computeLimbAngle (position observer : Vec3) : Option (ℝ × ℝ) :=
  let disobj := √(position.dot position)
  let disobs := √(observer.dot observer)
  let aprad := Real.arcsin (min (earthRadiusAu / disobs) 1)
  let zdlim := Real.pi - aprad
  open Classical in
  if disobj * disobs = 0 then none
  else
    let coszd := clip (position.dot observer / (disobj * disobs)) (-1) 1
    let zdobj := Real.arccos coszd
    some (zdlim - zdobj, (Real.pi - zdobj) / aprad)

/-- What `apparent()` computes, or the exception. Used at skyfield/positionlib.py:772-788. -/
inductive ApparentResult
  | ok (position : Vec3)
  | nan
  | keyError (code : ℕ)
  | valueError (code : ℕ)

/-- One round of the loop over deflectors — skyfield/positionlib.py:772-788.  `masses` is `rmasses`, `ephemeris` gives the
barycentric position of each body it has. -/
noncomputable def applyDeflector (tiny : ℝ) (masses : ℕ → Option ℝ) (ephemeris : ℕ → Option (ℝ → Vec3)) (t : ℝ)
    (observer : Vec3) (tlt : ℝ) (code : ℕ) (target : Vec3) : ApparentResult :=
  match masses code with
  | none => .keyError code
  | some rmass =>
    let code := if code % 100 = 99 ∧ (ephemeris code).isNone then code / 100 else code
    match ephemeris code with
    | none => .valueError code
    | some deflector =>
      match computeDeflection target (deflectorPosition tiny t observer target deflector tlt) rmass with
      | none => .nan
      | some d => .ok (target + d)

/-- The loop — skyfield/positionlib.py:772-788.  (The code goes on after a `nan`; the final position is then `nan`, or
an exception of a later round is raised.) -/
noncomputable def applyDeflectors (tiny : ℝ) (masses : ℕ → Option ℝ) (ephemeris : ℕ → Option (ℝ → Vec3)) (t : ℝ)
    (observer : Vec3) (tlt : ℝ) : List ℕ → Vec3 → ApparentResult
  | [], target => .ok target
  | code :: rest, target =>
    match applyDeflector tiny masses ephemeris t observer tlt code target with
    | .ok target' => applyDeflectors tiny masses ephemeris t observer tlt rest target'
    | e => e

/-- The Earth's own deflection — skyfield/positionlib.py:790-795, with `rmasses[399]` of skyfield/relativity.py:13. -/
noncomputable def applyEarth (observerGcrs : Option Vec3) (target : Vec3) : ApparentResult :=
  match observerGcrs with
  | none => .ok target
  | some o =>
    match computeDeflection target o 332946.050895, computeLimbAngle target o with
    | none, _ => .nan
    | some _, none => .ok target
    | some d, some (_, nadir) => open Classical in if 0.8 ≤ nadir then .ok (target + d) else .ok target

/-- `Astrometric.apparent` — skyfield/positionlib.py:728-805: the position, for an observer at `observer` moving with
`velocity`. -/
noncomputable def apparentPosition (tiny : ℝ) (masses : ℕ → Option ℝ) (ephemeris : ℕ → Option (ℝ → Vec3)) (t : ℝ)
    (observer velocity : Vec3) (observerGcrs : Option Vec3) (lightTime : ℝ) (deflectors : List ℕ) (target : Vec3) :
    ApparentResult :=
  let tlt := target.length / cAuDay
  match applyDeflectors tiny masses ephemeris t observer tlt deflectors target with
  | .ok p =>
    match applyEarth observerGcrs p with
    | .ok p' => .ok (addAberration tiny p' velocity lightTime)
    | e => e
  | e => e

end Skyfield
