import Verif.Model.NutationTables
import Verif.Model.Tdb

/-
Sidereal time of a `Time` — skyfield/timelib.py:785-863.  Exact real arithmetic, for one date.
-/
namespace Skyfield

/-- `Time.gmst` — skyfield/timelib.py:850-853. -/
noncomputable def Time.gmst (t : Time ℝ) : ℝ := siderealTime t.whole t.ut1Fraction (t.tdbFraction tdbMinusTt)

/-- The two nutation series: the one a `Time` uses for itself (skyfield/timelib.py:785-789), and the shorter one that the functions of `almanac.py` set on
the times they are given (skyfield/almanac.py:78, 123, 201, 243, 275, 304, 313). -/
inductive NutationSeries
  | iau2000a
  | iau2000b

/-- `Time._nutation_angles_radians` as a `Time` computes it for itself — skyfield/timelib.py:785-789, with the default
arguments of skyfield/nutationlib.py:26-27 — or as `iau2000b_radians(t)` has been assigned to it (skyfield/nutationlib.py:35-40). -/
noncomputable def Time.nutationAnglesRadians (t : Time ℝ) (series : NutationSeries := .iau2000a) : Option (ℝ × ℝ) :=
  match series with
  | .iau2000a => iau2000aRadians bundledMultipliers t.tt 5 687 687
  | .iau2000b => iau2000bRadians bundledMultipliers t.tt

/-- `Time.gast` — skyfield/timelib.py:855-863; `_mean_obliquity_radians` is lines 804-807. -/
noncomputable def Time.gast (t : Time ℝ) (series : NutationSeries := .iau2000a) : Option ℝ :=
  (t.nutationAnglesRadians series).map fun (dPsi, _) =>
    gastAt bundledMultipliers t.gmst dPsi (meanObliquity (t.tdb tdbMinusTt) * asec2rad) t.tt

end Skyfield
