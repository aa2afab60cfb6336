import Verif.Model.Elements

/-
`osculating_elements_of` as a whole: the choice of GM, the reference frame, and the units — skyfield/elementslib.py:14-208.
Exact real arithmetic, one position.
-/
namespace Skyfield

/-- What `osculating_elements_of` reads of a position: `center` and `target` (`none` when not an integer), its vectors in au
and au per day, and the TDB of its time. Used at skyfield/elementslib.py:14-54. -/
structure OrbitalPosition where
  center : Option ℤ
  target : Option ℤ
  xyz : Vec3
  velocity : Vec3
  tdb : ℝ

/-- An `OsculatingElements` object: kilometers, kilometers per second and km³/s² — skyfield/elementslib.py:73-86 — and the TDB of
its time. -/
structure ElementsOf where
  orbit : Osculating
  tdb : ℝ

/-- `osculating_elements_of` — skyfield/elementslib.py:14-54.  `Distance.km` and `Velocity.km_per_s` are as in `units.py`; `none` is
`ValueError`. -/
noncomputable def osculatingElementsOf (table : ℤ → Option ℝ) (p : OrbitalPosition) (frame : Option Mat3) (given : Option ℝ) :
    Option ElementsOf :=
  (chooseGm table given p.center p.target).map fun gm =>
    let (r, v) := match frame with
      | some m => (m.mulVec p.xyz, m.mulVec p.velocity)
      | none => (p.xyz, p.velocity)
    ⟨⟨(auKm : ℝ) • r, (auKm / daySeconds : ℝ) • v, gm⟩, p.tdb⟩

namespace ElementsOf
variable (o : ElementsOf)

/-- `mean_motion_per_day` — skyfield/elementslib.py:145-149. -/
noncomputable def meanMotionPerDay : ℝ := o.orbit.motion * daySeconds

/-- `period_in_days` — skyfield/elementslib.py:174-177; `none` is infinity. -/
noncomputable def periodInDays : Option ℝ := o.orbit.period.map (· / daySeconds)

/-- `periapsis_time`, as TDB — skyfield/elementslib.py:156-172; `_mu_km_d` is of line 82. -/
noncomputable def periapsisTdb : ℝ :=
  o.tdb - timeSincePeriapsis (meanAnomalyOf o.orbit.eccentricAnomaly o.orbit.eccentricity false) o.meanMotionPerDay
    o.orbit.trueAnomaly o.orbit.latusRectum (o.orbit.mu * (daySeconds * daySeconds))

end ElementsOf
end Skyfield
