import Verif.Model.SiderealTime
import Verif.Model.Places

/-
What the frames of date read of a `Time` — skyfield/timelib.py:748-910.  Exact real arithmetic, for one date.
-/
namespace Skyfield

/-- A `Time` of a time scale with no polar motion table (`ts.polar_motion_table is None`, which `rotation_at` of
skyfield/framelib.py:133-138 checks), as the frames of date read it: `tdb`, `gast` (skyfield/timelib.py:855-863) and
`_nutation_angles_radians` (skyfield/timelib.py:785-789), all computed by the `Time` for itself, unless a function of `almanac.py` has
assigned the nutation angles of the shorter series. -/
noncomputable def Time.sky (t : Time ℝ) (series : NutationSeries := .iau2000a) : Option SkyTime :=
  (t.nutationAnglesRadians series).bind fun (dPsi, dEps) => (t.gast series).map fun g => ⟨t.tdb tdbMinusTt, g, dPsi, dEps, none⟩

/-- `mean_equator_and_equinox_of_date` — skyfield/framelib.py:52-63. -/
noncomputable def meanEquatorFrame : RefFrame := ⟨meanEquatorRotation, none⟩

end Skyfield
