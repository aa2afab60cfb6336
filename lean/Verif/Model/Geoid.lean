import Verif.Model.Spherical

/-
Geographic positions: skyfield/toposlib.py.  Exact real arithmetic; angles in radians, lengths in any one unit (the code
uses au).  Positions are in the Earth-fixed ITRS frame; the conversion from and to the ICRF is in Model/Frames.lean.
-/
namespace Skyfield

/-- `Geoid` — skyfield/toposlib.py:128-146. -/
structure Geoid where
  radius : ℝ
  inverseFlattening : ℝ

namespace Geoid

/-- `_one_minus_flattening_squared` — skyfield/toposlib.py:143-144. -/
noncomputable def omf2 (g : Geoid) : ℝ :=
  let omf := (g.inverseFlattening - 1) / g.inverseFlattening
  omf * omf

/-- `_e2` — skyfield/toposlib.py:145-146. -/
noncomputable def e2 (g : Geoid) : ℝ :=
  let f := 1 / g.inverseFlattening
  2 * f - f * f

/-- `polar_radius` — skyfield/toposlib.py:148-151. -/
noncomputable def polarRadius (g : Geoid) : ℝ := g.radius * (1 - 1 / g.inverseFlattening)

/-- The ITRS position that `latlon` computes — skyfield/toposlib.py:153-201. -/
noncomputable def latlon (g : Geoid) (lat lon elevation : ℝ) : Vec3 :=
  let sinphi := Real.sin lat
  let cosphi := Real.cos lat
  let omf2 := g.omf2
  let c := 1 / √(cosphi * cosphi + sinphi * sinphi * omf2)
  let s := omf2 * c
  let radiusXy := g.radius * c
  let xy := (radiusXy + elevation) * cosphi
  let x := xy * Real.cos lon
  let y := xy * Real.sin lon
  let radiusZ := g.radius * s
  let z := (radiusZ + elevation) * sinphi
  ⟨x, y, z⟩

/-- What the loop of `_compute_latitude` carries: `aC`, `hyp`, `lat`. Used at skyfield/toposlib.py:274-281. -/
structure LatState where
  aC : ℝ
  hyp : ℝ
  lat : ℝ

/-- One round of the loop — skyfield/toposlib.py:274-281. -/
noncomputable def latStep (g : Geoid) (r z lat : ℝ) : LatState :=
  let sinLat := Real.sin lat
  let e2SinLat := g.e2 * sinLat
  let aC := g.radius / √(1 - e2SinLat * sinLat)
  let hyp := z + aC * e2SinLat
  ⟨aC, hyp, arctan2 hyp r⟩

/-- `_compute_latitude` on the ITRS position: three rounds — skyfield/toposlib.py:268-281. -/
noncomputable def computeLatitude (g : Geoid) (p : Vec3) : LatState :=
  let r := √(p.x * p.x + p.y * p.y)
  let lat := arctan2 p.z r
  let s := g.latStep r p.z lat
  let s := g.latStep r p.z s.lat
  g.latStep r p.z s.lat

/-- The longitude of `latlon_of` — skyfield/toposlib.py:212. -/
noncomputable def longitudeOf (p : Vec3) : ℝ := pyMod (arctan2 p.y p.x - Real.pi) tau - Real.pi

/-- `latlon_of` — skyfield/toposlib.py:203-213. -/
noncomputable def latlonOf (g : Geoid) (p : Vec3) : ℝ × ℝ := ((g.computeLatitude p).lat, longitudeOf p)

/-- `height_of` — skyfield/toposlib.py:215-225. -/
noncomputable def heightOf (g : Geoid) (p : Vec3) : ℝ :=
  let s := g.computeLatitude p
  let r := √(p.x * p.x + p.y * p.y)
  √(s.hyp * s.hyp + r * r) - s.aC

/-- `subpoint_of` — skyfield/toposlib.py:247-258. -/
noncomputable def subpointOf (g : Geoid) (p : Vec3) : Vec3 :=
  g.latlon (g.latlonOf p).1 (g.latlonOf p).2 0

end Geoid

/-- `wgs84`, with the radius in meters — skyfield/toposlib.py:285. -/
noncomputable def wgs84 : Geoid := ⟨6378137, 298.257223563⟩

/-- `iers2010`, with the radius in meters — skyfield/toposlib.py:286. -/
noncomputable def iers2010 : Geoid := ⟨6378136.6, 298.25642⟩

end Skyfield
