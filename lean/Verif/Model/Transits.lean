import Verif.Model.EarthOfDate
import Verif.Model.Search
import Verif.Model.Almanac

/-
The search function of `meridian_transits` — skyfield/almanac.py:187-211, as a function of the TT date the search hands it.  Exact real
arithmetic.
-/
namespace Skyfield

open Classical in
/-- `meridian_transits(ephemeris, target, topos)` — skyfield/almanac.py:187-211, for a place on the Earth and a time scale with no polar
motion table.  `apparent` is `topos_at(t).observe(target).apparent()`, the target's apparent position at a TT date, in the GCRS; what
computes it is modelled elsewhere.  `none` would be an exception raised while the nutation angles are computed. -/
noncomputable def meridianTransits (ts : Timescale ℝ) (topos : GeoPosition) (apparent : ℝ → Vec3) : Searchable ℝ (Option Bool) where
  call jd :=
    let t := ts.ttJd jd none
    (t.sky .iau2000b).map fun s =>
      let (_, _, ra1) := radec (some s) (topos.at s).1
      let (_, _, ra2) := radec (some s) (apparent jd)
      decide (westOfMeridianAt ra1 ra2)
  stepDays := some 0.4
  roughPeriod := none

end Skyfield
