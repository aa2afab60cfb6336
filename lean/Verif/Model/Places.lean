import Verif.Model.Geoid
import Verif.Model.Frames
import Verif.Model.Units
import Verif.Model.EarthRotation
import Verif.Model.Magnitude
import Verif.Model.TextPck

/-
Places on Earth as objects, and the ways to make them — skyfield/toposlib.py and the two old functions of
skyfield/earthlib.py.  Exact real arithmetic; radians and au.
-/
namespace Skyfield

/-- A `GeographicPosition` — skyfield/toposlib.py:52-79: angles in radians, the elevation and the ITRS vector in au. -/
structure GeoPosition where
  geoid : Geoid
  latitude : ℝ
  longitude : ℝ
  elevation : ℝ
  itrs : Vec3

/-- The exceptions of these methods. Used at skyfield/toposlib.py:227-245 and 260-281. -/
inductive PlaceError
  | valueError | typeError | stopIteration | attributeError
  deriving DecidableEq

/-- `wgs84`, with the radius in au — skyfield/toposlib.py:139-146, 285. -/
noncomputable def wgs84Au : Geoid := ⟨6378137 / auM, 298.257223563⟩

/-- `iers2010`, with the radius in au — skyfield/toposlib.py:139-146, 286. -/
noncomputable def iers2010Au : Geoid := ⟨6378136.6 / auM, 298.25642⟩

/-- `Geoid.latlon(latitude_degrees, longitude_degrees, elevation_m)` — skyfield/toposlib.py:153-201 — on numbers
(sexagesimal tuples go through `_unsexagesimalize` first). -/
noncomputable def Geoid.place (g : Geoid) (latitudeDegrees longitudeDegrees elevationM : ℝ) : GeoPosition :=
  let lat := latitudeDegrees / 360 * tau
  let lon := longitudeDegrees / 360 * tau
  let elevation := elevationM / auM
  ⟨g, lat, lon, elevation, g.latlon lat lon elevation⟩

/-- `Geoid.geographic_position_of(position)` — skyfield/toposlib.py:227-245 and 260-281 — of a position given by its center,
its time and its vector.  The same function is `Geoid.subpoint` (line 283). -/
noncomputable def Geoid.geographicPositionOf (g : Geoid) (center : ℤ) (t : SkyTime) (xyz : Vec3) :
    Except PlaceError GeoPosition :=
  if center ≠ 399 then .error .valueError
  else
    let p := frameXyz itrsFrame t xyz
    let s := g.computeLatitude p
    let r := √(p.x * p.x + p.y * p.y)
    .ok ⟨g, s.lat, Geoid.longitudeOf p, √(s.hyp * s.hyp + r * r) - s.aC, p⟩

/-- `Geoid.subpoint_of(position)` — skyfield/toposlib.py:247-258 and 260-281: the angles go through degrees, with the constant
`RAD2DEG` on the way there and `360 / tau` on the way back. -/
noncomputable def Geoid.subpointPlace (g : Geoid) (center : ℤ) (t : SkyTime) (xyz : Vec3) : Except PlaceError GeoPosition :=
  if center ≠ 399 then .error .valueError
  else
    let p := frameXyz itrsFrame t xyz
    .ok (g.place ((g.computeLatitude p).lat * Magnitude.rad2deg) (Geoid.longitudeOf p * Magnitude.rad2deg) 0)

/-- `Geocentric.subpoint()` — skyfield/positionlib.py:877-881: a `Geocentric` has center 399 unless told otherwise. -/
noncomputable def geocentricSubpoint (center : ℤ) (t : SkyTime) (xyz : Vec3) : Except PlaceError GeoPosition :=
  iers2010Au.geographicPositionOf center t xyz

/-- `GeographicPosition.at(t)`: position and velocity — skyfield/toposlib.py:29-50. -/
noncomputable def GeoPosition.at (p : GeoPosition) (t : SkyTime) : Vec3 × Vec3 := itrsPlaceAt p.itrs t

/-! ### The old class `Topos` -/

/-- What may be passed as `latitude` or `longitude`. Used at skyfield/toposlib.py:306-315 and 317-326. -/
inductive ToposArg
  | absent
  | angle (a : AngleObj)
  | text (s : List Char)
  | float (x : ℝ)
  | tuple (l : List (SignedNum ℝ))
  | other

/-- `_ltude(value, name, psuffix, nsuffix)` of a string — skyfield/units.py:568-585.  `readFloat` is Python's `float()`;
`upper()` is modelled for ASCII. -/
def ltude (readFloat : List Char → Option ℝ) (psuffix nsuffix : Char) (value : List Char) : Except PlaceError ℝ :=
  let value := (pyStrip value).map Char.toUpper
  match value.getLast? with
  | none => .error .valueError
  | some c =>
    if c = psuffix then
      match readFloat value.dropLast with
      | some x => .ok (1 * x)
      | none => .error .valueError
    else if c = nsuffix then
      match readFloat value.dropLast with
      | some x => .ok (-1 * x)
      | none => .error .valueError
    else .error .valueError

/-- One coordinate of `Topos.__init__` — skyfield/toposlib.py:306-315 and 317-326. -/
noncomputable def toposDegrees (readFloat : List Char → Option ℝ) (psuffix nsuffix : Char) (degrees : Option ℝ) (arg : ToposArg) :
    Except PlaceError ℝ :=
  match degrees with
  | some d => .ok d
  | none =>
    match arg with
    | .angle a =>
      match a.getDegrees with
      | .ok (d, _) => .ok d
      | .error _ => .error .attributeError
    | .text s => ltude readFloat psuffix nsuffix s
    | .float x => .ok x
    | .tuple l =>
      match unsexagesimalize l with
      | some v => .ok v.val
      | none => .error .stopIteration
    | .absent => .error .typeError
    | .other => .error .typeError

/-- `Topos(latitude, longitude, latitude_degrees, longitude_degrees, elevation_m, x, y)` — skyfield/toposlib.py:300-335.  `x` and
`y` are not used. -/
noncomputable def topos (readFloat : List Char → Option ℝ) (latitude longitude : ToposArg)
    (latitudeDegrees longitudeDegrees : Option ℝ) (elevationM : ℝ) : Except PlaceError GeoPosition :=
  match toposDegrees readFloat 'N' 'S' latitudeDegrees latitude with
  | .error e => .error e
  | .ok lat =>
    match toposDegrees readFloat 'E' 'W' longitudeDegrees longitude with
    | .error e => .error e
    | .ok lon => .ok (iers2010Au.place lat lon elevationM)

/-! ### The old functions `terra` and `reverse_terra` -/

/-- `earth_radius_au` — skyfield/earthlib.py:12, with `ERAD` of skyfield/constants.py:22. -/
noncomputable def terraRadiusAu : ℝ := 6378136.6 / auM

/-- `terra(latitude, longitude, elevation, gast)`: position and velocity — skyfield/earthlib.py:12-44. -/
noncomputable def terra (latitude longitude elevation gast : ℝ) : Vec3 × Vec3 :=
  let oneMinusFlattening : ℝ := 1 - 1 / 298.25642
  let oneMinusFlatteningSquared := oneMinusFlattening * oneMinusFlattening
  let sinphi := Real.sin latitude
  let cosphi := Real.cos latitude
  let c := 1 / √(cosphi * cosphi + sinphi * sinphi * oneMinusFlatteningSquared)
  let s := oneMinusFlatteningSquared * c
  let ach := terraRadiusAu * c + elevation
  let ash := terraRadiusAu * s + elevation
  let stlocl := 15 * deg2rad * gast + longitude
  let sinst := Real.sin stlocl
  let cosst := Real.cos stlocl
  let ac := ach * cosphi
  let acsst := ac * sinst
  let accst := ac * cosst
  (⟨accst, acsst, 0 + ash * sinphi⟩, (angvel * dayS') • ⟨-acsst, accst, 0⟩)

/-- The loop of `reverse_terra` on the latitude and `C` — skyfield/earthlib.py:57-63. -/
noncomputable def terraLoop (z r : ℝ) : ℕ → ℝ × ℝ → ℝ × ℝ
  | 0, s => s
  | n + 1, s =>
    let f : ℝ := 1 / 298.25642
    let e2 := 2 * f - f * f
    let C := 1 / √(1 - e2 * Real.sin s.1 ^ 2)
    terraLoop z r n (arctan2 (z + terraRadiusAu * C * e2 * Real.sin s.1) r, C)

/-- `reverse_terra(xyz_au, gast, iterations)`: latitude, longitude, elevation in meters — skyfield/earthlib.py:46-64.  On the
axis, `R / cos(lat)` is zero divided by the tiny cosine of the float nearest to a right angle, which is zero; here it is `0 / 0`,
which Lean takes to be zero as well.  Off the axis the divisor is not zero. -/
noncomputable def reverseTerra (xyz : Vec3) (gast : ℝ) (iterations : ℕ) : ℝ × ℝ × ℝ :=
  let r := √(xyz.x * xyz.x + xyz.y * xyz.y)
  let lon := pyMod (arctan2 xyz.y xyz.x - 15 * deg2rad * gast - Real.pi) tau - Real.pi
  let s := terraLoop xyz.z r iterations (arctan2 xyz.z r, 1)
  (s.1, lon, (r / Real.cos s.1 - terraRadiusAu * s.2) * auM)

end Skyfield
