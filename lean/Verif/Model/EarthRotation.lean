import Verif.Model.Frames
import Mathlib.Analysis.SpecialFunctions.Exp

/-
Earth rotation, sidereal time, hour angle, the TEME frame and atmospheric refraction — skyfield/earthlib.py,
skyfield/timelib.py:850-863, skyfield/toposlib.py:88-116, skyfield/positionlib.py:300-312, skyfield/sgp4lib.py:325-373.
Exact real arithmetic.
-/
namespace Skyfield
open Real

/-- `earth_rotation_angle`, in turns — skyfield/earthlib.py:129-137. -/
noncomputable def earthRotationAngle (jd frac : ℝ) : ℝ :=
  let th := 0.7790572732640 + 0.00273781191135448 * (jd - t0 + frac)
  pyMod (pyMod th 1 + pyMod jd 1 + frac) 1

/-- `sidereal_time`, in hours — skyfield/earthlib.py:110-127. -/
noncomputable def siderealTime (whole ut1Fraction tdbFraction : ℝ) : ℝ :=
  let theta := earthRotationAngle whole ut1Fraction
  let t := (whole - t0 + tdbFraction) / 36525
  let st := 0.014506 + ((((-0.0000000368 * t - 0.000029956) * t - 0.00000044) * t + 1.3915817) * t + 4612.156534) * t
  pyMod (st / 54000 + theta * 24) 24

/-- `Time.gast`, in hours — skyfield/timelib.py:855-863, given the equation of the equinoxes in radians. -/
noncomputable def gastHours (gmst eqEq : ℝ) : ℝ := pyMod (gmst + eqEq / tau * 24) 24

/-- `lst_hours_at` — skyfield/toposlib.py:88-98. -/
noncomputable def lstHoursAt (gast longitudeHours whole tdbFraction : ℝ) : ℝ :=
  let sprime := -47.0e-6 * (whole - t0 + tdbFraction) / 36525
  pyMod (gast + longitudeHours + sprime / 54000) 24

/-- `ICRF.hadec`: hour angle and declination in radians, distance — skyfield/positionlib.py:300-312, for a center with a
longitude. -/
noncomputable def hadec (t : SkyTime) (lon : ℝ) (xyz : Vec3) : ℝ × ℝ × ℝ :=
  let r := (itrsRotation t).mulVec xyz
  let (au, dec, sublongitude) := toSpherical r
  let ha := lon - sublongitude
  let ha := ha + π
  let ha := pyMod ha tau
  let ha := ha - π
  (ha, dec, au)

/-- `theta_GMST1982`: the angle in radians and its rate in radians per day — skyfield/sgp4lib.py:325-342. -/
noncomputable def thetaGMST1982 (jd frac : ℝ) : ℝ × ℝ :=
  let t := (jd - t0 + frac) / 36525
  let g := 67310.54841 + (8640184.812866 + (0.093104 + (-6.2e-6) * t) * t) * t
  let dg := 8640184.812866 + (0.093104 * 2 + (-6.2e-6 * 3) * t) * t
  (pyMod (pyMod jd 1 + frac + pyMod (g / dayS') 1) 1 * tau, (1 + dg / (dayS' * 36525)) * tau)

/-- `TEME_to_ITRF` — skyfield/sgp4lib.py:352-373, for one vector. -/
noncomputable def temeToItrf (jd : ℝ) (r v : Vec3) (xp yp frac : ℝ) : Vec3 × Vec3 :=
  open Classical in
  let (theta, thetaDot) := thetaGMST1982 jd frac
  let angularVelocity : Vec3 := ⟨0 * thetaDot, 0 * thetaDot, -1 * thetaDot⟩
  let rot := rotZ (-theta)
  let rPEF := rot.mulVec r
  let vPEF := rot.mulVec v + angularVelocity.cross rPEF
  if xp = 0 ∧ yp = 0 then (rPEF, vPEF)
  else
    let w := (rotX yp).mul (rotY xp)
    (w.mulVec rPEF, w.mulVec vPEF)

/-! ### Refraction -/

/-- `DEG2RAD` — skyfield/constants.py:11. -/
noncomputable def deg2rad : ℝ := 0.017453292519943296

/-- `refraction` — skyfield/earthlib.py:139-148.  The temperature must not be -273 (division by zero). -/
noncomputable def refraction (alt temperature pressure : ℝ) : ℝ :=
  open Classical in
  let r := 0.016667 / tan ((alt + 7.31 / (alt + 4.4)) * deg2rad)
  let d := r * (0.28 * pressure / (temperature + 273))
  if -1 ≤ alt ∧ alt ≤ 89.9 then d else 0

/-- The loop of `refract` — skyfield/earthlib.py:150-159, for one number: repeat until the altitude moves by at most 3e-5
degrees.  `none`: still going after `fuel` rounds. -/
noncomputable def refractLoop (altDegrees temperature pressure : ℝ) : ℕ → ℝ → Option ℝ
  | 0, _ => none
  | fuel + 1, alt =>
    open Classical in
    let altNew := altDegrees + refraction alt temperature pressure
    if |altNew - alt| > 3.0e-5 then refractLoop altDegrees temperature pressure fuel altNew else some altNew

/-- `refract` — skyfield/earthlib.py:150-159. -/
noncomputable def refract (altDegrees temperature pressure : ℝ) (fuel : ℕ) : Option ℝ :=
  refractLoop altDegrees temperature pressure fuel altDegrees

/-- The pressure `'standard'` at an elevation in meters — skyfield/toposlib.py:114-115. -/
noncomputable def standardPressure (elevation : ℝ) : ℝ := 1010 * exp (-elevation / 9.1e3)

end Skyfield
