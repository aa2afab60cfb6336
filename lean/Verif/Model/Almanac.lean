import Verif.Model.Spherical
import Verif.Model.Relativity
import Verif.Model.Units

/-
Phases, almanac state functions, the direct search for risings and settings, and lunar eclipses —
skyfield/positionlib.py:535-568, skyfield/almanac.py, skyfield/almanac_east_asia.py, skyfield/eclipselib.py.

The positions that these routines start from (apparent ecliptic longitudes, altitudes, hour angles, geocentric vectors) are
arguments here.  Exact real arithmetic.
-/
namespace Skyfield
open Real

/-! ### Phase -/

/-- `ICRF.phase_angle` — skyfield/positionlib.py:551-554.  `u` is the target as seen by the observer, `s` the Sun and `c` the
observer, both from the solar system barycenter. -/
noncomputable def phaseAngle (u s c : Vec3) : ℝ := angleBetween u (u - s + c)

/-- `ICRF.fraction_illuminated` — skyfield/positionlib.py:567-568 (and almanac.py:34-41). -/
noncomputable def fractionIlluminated (u s c : Vec3) : ℝ := 1 / 2 * (1 + cos (phaseAngle u s c))

/-! ### State functions -/

/-- `seasons().season_at` — skyfield/almanac.py:81. -/
noncomputable def seasonAt (slon : ℝ) : ℤ := astypeInt (pyMod (pyFloorDiv slon (tau / 4)) 4)

/-- `moon_phase` — skyfield/almanac.py:106. -/
noncomputable def moonPhase (mlon slon : ℝ) : ℝ := pyMod (mlon - slon) tau

/-- `moon_phases().moon_phase_at` — skyfield/almanac.py:127. -/
noncomputable def moonPhaseAt (mlon slon : ℝ) : ℤ := astypeInt (pyMod (pyFloorDiv (mlon - slon) (tau / 4)) 4)

/-- `moon_nodes().moon_node_at` — skyfield/almanac.py:152. -/
def moonNodeAt (lat : ℝ) : Prop := lat > 0

/-- `oppositions_conjunctions().leading_or_trailing` — skyfield/almanac.py:177. -/
noncomputable def leadingOrTrailing (slon tlon : ℝ) : ℤ := astypeInt (pyMod ((slon - tlon) / π) 2)

/-- `meridian_transits().west_of_meridian_at` — skyfield/almanac.py:208. -/
def westOfMeridianAt (ra1 ra2 : ℝ) : Prop := pyMod (ra1 - ra2) tau < π

/-- `sunrise_sunset().is_sun_up_at` — skyfield/almanac.py:244. -/
def isSunUpAt (degrees : ℝ) : Prop := degrees ≥ -0.8333

/-- `dark_twilight_day().is_it_dark_twilight_day_at` — skyfield/almanac.py:277-282: five assignments in turn. -/
noncomputable def darkTwilightDayAt (degrees : ℝ) : ℕ :=
  open Classical in
  let r := 0
  let r := if degrees ≥ -18 then 1 else r
  let r := if degrees ≥ -12 then 2 else r
  let r := if degrees ≥ -6 then 3 else r
  let r := if degrees ≥ -0.8333 then 4 else r
  r

/-- `risings_and_settings().is_body_up_at` — skyfield/almanac.py:300, 305. -/
def isBodyUpAt (horizonDegrees radiusDegrees degrees : ℝ) : Prop :=
  let h := horizonDegrees - radiusDegrees
  degrees > h

/-- `solar_terms().solar_term_at` — skyfield/almanac_east_asia.py:143. -/
noncomputable def solarTermAt (slon : ℝ) : ℤ := astypeInt (pyMod (pyFloorDiv slon (tau / 24)) 24)

/-! ### Direct search for risings and settings -/

/-- `_setting_hour_angle` — skyfield/almanac.py:315-329; `none` is the nan or infinity of a division by zero. -/
noncomputable def settingHourAngle (lat dec altitude : ℝ) : Option ℝ :=
  open Classical in
  let numerator := sin altitude - sin lat * sin dec
  let denominator := cos lat * cos dec
  if denominator = 0 then none
  else some (arccos (min (max (numerator / denominator) (-1)) 1))

/-- `_rising_hour_angle` — skyfield/almanac.py:331-332. -/
noncomputable def risingHourAngle (lat dec altitude : ℝ) : Option ℝ := (settingHourAngle lat dec altitude).map (- ·)

/-- `_q` — skyfield/almanac.py:337-339; `none` is a division by zero. -/
noncomputable def quadraticRoot (a b c sign : ℝ) : Option ℝ :=
  open Classical in
  let discriminant := max (b * b - 4 * a * c) 0
  let denominator := b + sign * √discriminant
  if denominator = 0 then none else some (-2 * c / denominator)

/-- `_intersection` — skyfield/almanac.py:341-346. -/
noncomputable def intersectionOf (y0 y1 v0 _v1 : ℝ) : Option ℝ :=
  open Classical in
  let sign : ℝ := 1 - 2 * (if y0 > y1 then 1 else 0)
  quadraticRoot (y1 - y0 - v0) v0 y0 sign

/-- One candidate of `_find`: `some` fraction of the way from this sample to the next at which to look, if the pair of samples
is kept — skyfield/almanac.py:404-424.  `d0` and `d1` are `desired_ha_radians - ha.radians` before the reduction. -/
noncomputable def risingCandidate (d0 d1 tt0 tt1 : ℝ) : Option ℝ :=
  open Classical in
  let difference0 := pyMod d0 tau
  let difference1 := pyMod d1 tau
  if difference1 - difference0 > 0 then
    let a := difference0
    let b := tau - difference1
    some ((b * tt0 + a * tt1) / (a + b))
  else none

/-! ### Lunar eclipses -/

/-- The function `f` whose maxima `lunar_eclipses` looks for — skyfield/eclipselib.py:49-69: the angle at the Earth between the Moon and the Sun
as displaced by aberration.  `b`, `e`, `m`, `s`: the Earth-Moon barycenter, the Earth and the Moon from it, and the Sun, in
kilometers; `v` is the barycenter's velocity in km/day.  The names of the segments (45-48) are fixed here. -/
noncomputable def sunMoonAngle (tiny : ℝ) (b e m s v : Vec3) : ℝ :=
  let earthToSun := (1 / auKm : ℝ) • (s - b - e)
  let earthToMoon := m - e
  let velocity := (1 / auKm : ℝ) • v
  let lightTravelTime := earthToSun.length / cAuDay
  angleBetween (addAberration tiny earthToSun velocity lightTravelTime) earthToMoon

/-- One eclipse as `lunar_eclipses` reports it. Used at skyfield/eclipselib.py:80-134. -/
structure LunarEclipse where
  code : ℕ
  closestApproach : ℝ
  moonRadius : ℝ
  penumbraRadius : ℝ
  umbraRadius : ℝ
  umbralMagnitude : ℝ
  penumbralMagnitude : ℝ

/-- Equatorial radius of the Earth in kilometers, `ERAD / 1e3` — skyfield/constants.py:22. -/
noncomputable def earthRadiusKm : ℝ := 6378.1366

/-- The classification in `lunar_eclipses` of one maximum of the Sun-Moon angle — skyfield/eclipselib.py:80-134; the two
vectors are in kilometers.  `none`: not an eclipse, or (Moon inside the Earth's center distance of one lunar radius, or a zero
vector, which do not occur) a nan on the way. -/
noncomputable def lunarEclipse (earthToSun moonToEarth : Vec3) : Option LunarEclipse :=
  open Classical in
  let solarRadiusKm : ℝ := 696340
  let moonRadiusKm : ℝ := 1737.1
  if earthToSun.length = 0 ∨ moonToEarth.length < moonRadiusKm then none
  else
    let pi_m := earthRadiusKm / moonToEarth.length
    let pi_s := earthRadiusKm / earthToSun.length
    let s_s := solarRadiusKm / earthToSun.length
    let closest := angleBetween earthToSun moonToEarth
    let moonRadius := arcsin (moonRadiusKm / moonToEarth.length)
    let pi_1 := 1.01 * pi_m
    let penumbraRadius := pi_1 + pi_s + s_s
    let umbraRadius := pi_1 + pi_s - s_s
    if closest < penumbraRadius + moonRadius then
      let twice := 2 * moonRadius
      let partialPhase := closest < umbraRadius + moonRadius
      let totalPhase := closest < umbraRadius - moonRadius
      some
        { code := (if partialPhase then 1 else 0) + (if totalPhase then 1 else 0)
          closestApproach := closest
          moonRadius := moonRadius
          penumbraRadius := penumbraRadius
          umbraRadius := umbraRadius
          umbralMagnitude := (umbraRadius + moonRadius - closest) / twice
          penumbralMagnitude := (penumbraRadius + moonRadius - closest) / twice }
    else none

end Skyfield
