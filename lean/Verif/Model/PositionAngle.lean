import Verif.Model.Spherical

/-
Position angles — skyfield/trigonometry.py.  Exact real arithmetic; `numpy.tan` at exactly ±90° (a huge float in the code)
is not modelled: the theorems exclude a second position at a pole.
-/
namespace Skyfield

/-- What is read of an `Angle` object: its radians, whether it is signed, whether it prefers hours.
Used at skyfield/trigonometry.py:40-51. -/
structure SkyAngle where
  radians : ℝ
  signed : Bool
  hours : Bool

/-- Latitude and longitude out of a pair of angles — skyfield/trigonometry.py:40-51. -/
noncomputable def latLonOf (pair : SkyAngle × SkyAngle) : ℝ × ℝ :=
  let lat := if pair.2.signed then pair.2 else pair.1
  let lon := if pair.2.signed then pair.1 else pair.2
  (lat.radians, if lon.hours then lon.radians else -lon.radians)

/-- `position_angle_of` in radians — skyfield/trigonometry.py:7-56. -/
noncomputable def positionAngleOf (anglepair1 anglepair2 : SkyAngle × SkyAngle) : ℝ :=
  let (lat1, lon1) := latLonOf anglepair1
  let (lat2, lon2) := latLonOf anglepair2
  pyMod (arctan2 (Real.sin (lon2 - lon1))
    (Real.cos lat1 * Real.tan lat2 - Real.sin lat1 * Real.cos (lon2 - lon1))) tau

end Skyfield
