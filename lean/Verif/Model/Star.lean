import Verif.Model.Tdb
import Verif.Model.Relativity
import Verif.Model.Rotations

/-
Stars — skyfield/starlib.py.  Exact real arithmetic; `nan` is `none`.  One star and one time are modelled here; arrays of
stars and of times are modelled in StarArrays.
-/
namespace Skyfield

/-- `Star.__init__`: which right ascension and declination, in radians; `none` is `TypeError` — skyfield/starlib.py:47-61.
An `Angle` object is given by its radians. -/
noncomputable def starAngles (ra dec raHours decDegrees : Option ℝ) : Option (ℝ × ℝ) :=
  let ra? := match raHours with
    | some h => (angleInit none none none (some h) none false).radians
    | none => ra
  match ra? with
  | none => none
  | some r =>
    let dec? := match decDegrees with
      | some d => (angleInit none none (some d) none none false).radians
      | none => dec
    match dec? with
    | none => none
    | some d => some (r, d)

/-- What a `Star` object stores — skyfield/starlib.py:71-76.  `parallaxMas` is `none` for nan. -/
structure StarEntry where
  ra : ℝ
  dec : ℝ
  raMasPerYear : ℝ
  decMasPerYear : ℝ
  parallaxMas : Option ℝ
  radialKmPerS : ℝ
  epoch : ℝ

/-- The parallax that is used; `inArray` tells whether it is an element of an array — skyfield/starlib.py:140-146. -/
noncomputable def usedParallax (inArray : Bool) (parallax : Option ℝ) : Option ℝ :=
  open Classical in
  if inArray then
    let p := match parallax with
      | none => 0
      | some p => p
    some (if p ≤ 0 then 1.0e-6 else p)
  else
    match parallax with
    | none => none
    | some p => some (if p ≤ 0 then 1.0e-6 else p)

/-- The position in au and velocity in au per day, given the parallax — skyfield/starlib.py:152-183. -/
noncomputable def starVectorsFor (s : StarEntry) (parallax : ℝ) : Vec3 × Vec3 :=
  let dist := 1.0 / Real.sin (parallax * 1.0e-3 * asec2rad)
  let cra := Real.cos s.ra
  let sra := Real.sin s.ra
  let cdc := Real.cos s.dec
  let sdc := Real.sin s.dec
  let k := 1.0 / (1.0 - s.radialKmPerS / lightSpeed * 1000.0)
  let pmr := s.raMasPerYear / (parallax * 365.25) * k
  let pmd := s.decMasPerYear / (parallax * 365.25) * k
  let rvl := s.radialKmPerS * daySeconds / auKm * k
  (⟨dist * cdc * cra, dist * cdc * sra, dist * sdc⟩,
   ⟨-pmr * sra - pmd * sdc * cra + rvl * cdc * cra, pmr * cra - pmd * sdc * sra + rvl * cdc * sra,
    pmd * cdc + rvl * sdc⟩)

/-- `_compute_vectors`; `none` when every component is nan — skyfield/starlib.py:135-183. -/
noncomputable def starVectors (inArray : Bool) (s : StarEntry) : Option (Vec3 × Vec3) :=
  match usedParallax inArray s.parallaxMas with
  | none => none
  | some p => some (starVectorsFor s p)

/-- What `_observe_from_bcrs` returns. Used at skyfield/starlib.py:109-133. -/
structure StarSight where
  vector : Vec3
  velocity : Vec3
  lightTime : ℝ

/-- `_observe_from_bcrs` — skyfield/starlib.py:109-133.  `star` is the position and velocity, `observer` the observer's. -/
noncomputable def starObserve (tiny : ℝ) (star : Vec3 × Vec3) (epoch tdb : ℝ) (observer : Vec3 × Vec3) : StarSight :=
  let dt := lightTimeDifference tiny star.1 observer.1
  let position := star.1 + (tdb + dt - epoch) • star.2
  let vector := position - observer.1
  { vector := vector
    velocity := observer.2 - star.2
    lightTime := vector.length / cAuDay }

/-- What the argument `epoch` of `Star` may be: a time, or a Julian date. Used at skyfield/starlib.py:63-75. -/
inductive StarEpoch
  | time (t : Time ℝ)
  | date (jd : ℝ)

/-- The epoch that a `Star` keeps — skyfield/starlib.py:63-75. -/
noncomputable def StarEpoch.kept : StarEpoch → ℝ
  | .time t => t.tt
  | .date jd => jd

/-- The epoch that `from_dataframe` gives a star — skyfield/starlib.py:97. -/
noncomputable def dataframeEpoch (epochYear : ℝ) : ℝ := 1721045.0 + epochYear * 365.25

end Skyfield
