import Verif.Model.TimeArith
import Mathlib.Analysis.SpecialFunctions.Trigonometric.Basic
import Mathlib.Algebra.Order.Archimedean.Real.Basic

/-
Model of `tdb_minus_tt` (skyfield/timelib.py).  Decimal literals are exact reals.
-/
namespace Skyfield
open Real

/-- `t`, Julian centuries since J2000 — skyfield/timelib.py:1058; `T0 = 2451545.0` is
skyfield/constants.py. -/
noncomputable def tdbCenturies (jd fraction : ℝ) : ℝ := (jd - 2451545 + fraction) / 36525

/-- The series of `tdb_minus_tt` as a function of `t` — skyfield/timelib.py:1061-1067. -/
noncomputable def tdbSeries (t : ℝ) : ℝ :=
  0.001657 * sin (628.3076 * t + 6.2401)
    + 0.000022 * sin (575.3385 * t + 4.2970)
    + 0.000014 * sin (1256.6152 * t + 6.1969)
    + 0.000005 * sin (606.9777 * t + 4.0212)
    + 0.000005 * sin (52.9691 * t + 0.4444)
    + 0.000002 * sin (21.3299 * t + 5.5431)
    + 0.000010 * t * sin (628.3076 * t + 4.2490)

/-- `tdb_minus_tt(jd_tdb, fraction_tdb)` — skyfield/timelib.py:1050-1067. -/
noncomputable def tdbMinusTt (jd fraction : ℝ) : ℝ := tdbSeries (tdbCenturies jd fraction)

end Skyfield
