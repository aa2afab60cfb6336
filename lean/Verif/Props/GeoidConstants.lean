import Verif.Props.Geoid
import Verif.Model.Places

/-
C42: the two ellipsoids of the library are those of the published standards.
-/
namespace Skyfield
open Real

/-- **C42.** `wgs84` is the ellipsoid of the World Geodetic System 1984 (NGA.STND.0036, table 3.5): at sea level the equator is 6378137 meters from the
Earth's center and the poles are 6356752.3142 meters from it, and the square of the first eccentricity is 0.006694379990141; with lengths in au, as the code
has them, it is the same ellipsoid. -/
theorem C42_wgs84_published (lon : ℝ) :
    (wgs84.latlon 0 lon 0).length = 6378137 ∧ |(wgs84.latlon (π / 2) lon 0).z - 6356752.3142| ≤ 0.00005 ∧
    |wgs84.e2 - 0.006694379990141| ≤ 5e-16 ∧
    wgs84Au.radius * 149597870700 = 6378137 ∧ wgs84Au.inverseFlattening = wgs84.inverseFlattening := by
  obtain ⟨h1, h2, -⟩ := C42_semi_axes wgs84 (by norm_num [wgs84]) lon
  refine ⟨?_, ?_, ?_, ?_, rfl⟩
  · rw [h1]
    have hs : wgs84.radius * cos lon * (wgs84.radius * cos lon) + wgs84.radius * sin lon * (wgs84.radius * sin lon) + 0 * 0 = 6378137 ^ 2 := by
      have := sin_sq_add_cos_sq lon
      have hr : wgs84.radius = 6378137 := rfl
      rw [hr]
      linear_combination (6378137 ^ 2 : ℝ) * this
    simp only [Vec3.length, Vec3.dot]
    rw [hs]
    exact Real.sqrt_sq (by norm_num)
  · rw [h2]
    rw [abs_le]
    constructor <;> norm_num [Geoid.polarRadius, wgs84]
  · rw [abs_le]
    constructor <;> norm_num [Geoid.e2, wgs84]
  · norm_num [wgs84Au, auM]

/-- **C42.** `iers2010` is the ellipsoid of the IERS Conventions (2010), table 1.1: equatorial radius 6378136.6 meters, flattening 1/298.25642, so that
the poles are 6356751.86 meters from the Earth's center. -/
theorem C42_iers2010_published (lon : ℝ) :
    (iers2010.latlon 0 lon 0).length = 6378136.6 ∧ |(iers2010.latlon (π / 2) lon 0).z - 6356751.86| ≤ 0.005 ∧
    (6378136.6 - iers2010.polarRadius) / 6378136.6 = 1 / 298.25642 := by
  obtain ⟨h1, h2, -⟩ := C42_semi_axes iers2010 (by norm_num [iers2010]) lon
  refine ⟨?_, ?_, ?_⟩
  · rw [h1]
    have hs : iers2010.radius * cos lon * (iers2010.radius * cos lon) + iers2010.radius * sin lon * (iers2010.radius * sin lon) + 0 * 0 = 6378136.6 ^ 2 := by
      have := sin_sq_add_cos_sq lon
      have hr : iers2010.radius = 6378136.6 := rfl
      rw [hr]
      linear_combination (6378136.6 ^ 2 : ℝ) * this
    simp only [Vec3.length, Vec3.dot]
    rw [hs]
    exact Real.sqrt_sq (by norm_num)
  · rw [h2]
    rw [abs_le]
    constructor <;> norm_num [Geoid.polarRadius, iers2010]
  · norm_num [Geoid.polarRadius, iers2010]

/-- The ellipsoid of GRS 80, with which WGS 84 may be confused, is another one: its poles are a tenth of a millimeter nearer. -/
example : ¬ |((⟨6378137, 298.257222101⟩ : Geoid).latlon (π / 2) 0 0).z - 6356752.3142| ≤ 0.00005 := by
  rw [(C42_semi_axes ⟨6378137, 298.257222101⟩ (by norm_num) 0).2.1, abs_le]
  norm_num [Geoid.polarRadius]

end Skyfield
