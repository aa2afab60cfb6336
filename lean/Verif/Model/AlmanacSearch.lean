import Verif.Model.EarthOfDate
import Verif.Model.Search
import Verif.Model.Almanac
import Verif.Model.SkyCoordinates

/-
The search functions of `almanac.py` and `almanac_east_asia.py` that compare ecliptic coordinates, as functions of the TT date the search hands
them.  `sun`, `moon` and `target` stand for `earth.at(t).observe(...).apparent()`, the apparent geocentric position at a TT date, in the GCRS;
what computes it is modelled elsewhere.  `none` would be an exception raised while the nutation angles are computed.  Exact real arithmetic.
-/
namespace Skyfield
open Real

/-- `seasons(ephemeris)` — skyfield/almanac.py:65-84. -/
noncomputable def seasons (ts : Timescale ℝ) (sun : ℝ → Vec3) : Searchable ℝ (Option ℤ) where
  call jd :=
    ((ts.ttJd jd none).sky .iau2000b).map fun s =>
      let (_, _, slon) := frameLatlon eclipticFrame s (sun jd)
      seasonAt slon
  stepDays := some 90
  roughPeriod := none

/-- `moon_phases(ephemeris)` — skyfield/almanac.py:108-130. -/
noncomputable def moonPhases (ts : Timescale ℝ) (moon sun : ℝ → Vec3) : Searchable ℝ (Option ℤ) where
  call jd :=
    ((ts.ttJd jd none).sky .iau2000b).map fun s =>
      let (_, _, mlon) := frameLatlon eclipticFrame s (moon jd)
      let (_, _, slon) := frameLatlon eclipticFrame s (sun jd)
      moonPhaseAt mlon slon
  stepDays := some 7
  roughPeriod := none

open Classical in
/-- `moon_nodes(ephemeris)` — skyfield/almanac.py:137-155. -/
noncomputable def moonNodes (ts : Timescale ℝ) (moon : ℝ → Vec3) : Searchable ℝ (Option Bool) where
  call jd :=
    (ts.ttJd jd none).sky.map fun s =>
      let (_, lat, _) := frameLatlon eclipticFrame s (moon jd)
      decide (moonNodeAt lat)
  stepDays := some 12
  roughPeriod := none

/-- `oppositions_conjunctions(ephemeris, target)` — skyfield/almanac.py:162-183.  `code` is `target.target`. -/
noncomputable def oppositionsConjunctions (ts : Timescale ℝ) (code : ℤ) (target sun : ℝ → Vec3) : Searchable ℝ (Option ℤ) where
  call jd :=
    (ts.ttJd jd none).sky.map fun s =>
      let (_, _, slon) := frameLatlon eclipticFrame s (sun jd)
      let (_, _, tlon) := frameLatlon eclipticFrame s (target jd)
      leadingOrTrailing slon tlon
  stepDays := some (if code = 301 then 14 else 40)
  roughPeriod := none

/-- `solar_terms(ephemeris)` — skyfield/almanac_east_asia.py:119-146.  `Time.ecliptic_latlon('date')` uses the position's own time. -/
noncomputable def solarTerms (ts : Timescale ℝ) (sun : ℝ → Vec3) : Searchable ℝ (Option ℤ) where
  call jd :=
    ((ts.ttJd jd none).sky .iau2000b).bind fun s =>
      match eclipticLatlon (some ⟨s, none⟩) (fun _ => s) (some .date) (sun jd) with
      | .error _ => none
      | .ok (_, _, slon) => some (solarTermAt slon)
  stepDays := some 14
  roughPeriod := none

open Classical in
/-- `sunrise_sunset(ephemeris, topos)` — skyfield/almanac.py:213-247.  `degrees` is the altitude `altaz()[0].degrees` at a TT date. -/
noncomputable def sunriseSunset (degrees : ℝ → ℝ) : Searchable ℝ Bool := ⟨fun jd => decide (isSunUpAt (degrees jd)), some 0.04, none⟩

/-- `dark_twilight_day(ephemeris, topos)` — skyfield/almanac.py:257-285.  `degrees` as above. -/
noncomputable def darkTwilightDay (degrees : ℝ → ℝ) : Searchable ℝ ℕ := ⟨fun jd => darkTwilightDayAt (degrees jd), some 0.04, none⟩

open Classical in
/-- `risings_and_settings(ephemeris, target, topos, horizon_degrees, radius_degrees)` — skyfield/almanac.py:287-308.  `degrees` as above. -/
noncomputable def risingsAndSettings (horizonDegrees radiusDegrees : ℝ) (degrees : ℝ → ℝ) : Searchable ℝ Bool :=
  ⟨fun jd => decide (isBodyUpAt horizonDegrees radiusDegrees (degrees jd)), some 0.25, none⟩

end Skyfield
