import Verif.Model.Frames
import Verif.Model.EarthRotation

/-
Coordinates of a position on the sky: epochs, separations, rates — skyfield/positionlib.py.  Exact real arithmetic; au, days,
radians.
-/
namespace Skyfield

/-- What the coordinate methods raise. Used at skyfield/positionlib.py:264-273, 384-393 and 922-932. -/
inductive CoordError where
  | valueError
  | attributeError
  deriving DecidableEq

/-- A `Time` as these methods see it: its precession and nutation, and its Earth rotation angle in turns
(`earth_rotation_angle(t.ut1)`); a `Time(None, tt=...)` has no time scale, so that its `ut1`, `delta_t` and `gast` raise
`AttributeError`: `era` is then `none` and the field `gast` of `sky` is never used — skyfield/timelib.py:774-779. -/
structure EpochTime where
  sky : SkyTime
  era : Option ℝ

/-- An argument `epoch=`: a `Time`, a Python `float`, the string `'date'`, or any other object (`None` is dealt with before).
Used at skyfield/positionlib.py:264-273, 384-393 and 922-932. -/
inductive EpochArg where
  | time (t : EpochTime)
  | float (tt : ℝ)
  | date
  | other

/-- The choice of epoch — skyfield/positionlib.py:264-273, 384-393 and 922-932.  `own` is the position's `t`; `bare` gives the
precession and nutation of `Time(None, tt=...)`.  A missing `t` is discovered at the first attribute looked up on it. -/
def resolveEpoch (own : Option EpochTime) (bare : ℝ → SkyTime) : EpochArg → Except CoordError EpochTime
  | .time t => .ok t
  | .float tt => .ok ⟨bare tt, none⟩
  | .date =>
    match own with
    | some t => .ok t
    | none => .error .attributeError
  | .other => .error .valueError

/-- `ICRF.radec(epoch)`: distance, declination, right ascension — skyfield/positionlib.py:236-278. -/
noncomputable def radecAt (own : Option EpochTime) (bare : ℝ → SkyTime) (epoch : Option EpochArg) (r : Vec3) :
    Except CoordError (ℝ × ℝ × ℝ) :=
  match epoch with
  | none => .ok (radec none r)
  | some e =>
    match resolveEpoch own bare e with
    | .error x => .error x
    | .ok t => .ok (radec (some t.sky) r)

/-- `ICRF.cirs_xyz(epoch)` — skyfield/positionlib.py:376-396, skyfield/timelib.py:774-779. -/
noncomputable def cirsXyz (own : Option EpochTime) (bare : ℝ → SkyTime) (epoch : EpochArg) (r : Vec3) :
    Except CoordError Vec3 :=
  match resolveEpoch own bare epoch with
  | .error x => .error x
  | .ok t =>
    match t.era with
    | none => .error .attributeError
    | some era => .ok ((cirsRotation t.sky era).mulVec r)

/-- `ICRF.cirs_radec(epoch)`: distance, declination, right ascension — skyfield/positionlib.py:398-410. -/
noncomputable def cirsRadec (own : Option EpochTime) (bare : ℝ → SkyTime) (epoch : EpochArg) (r : Vec3) :
    Except CoordError (ℝ × ℝ × ℝ) :=
  match cirsXyz own bare epoch r with
  | .error x => .error x
  | .ok v => .ok (toSpherical v)

/-- A frame that does not turn — skyfield/framelib.py:163-182. -/
def inertialFrame (m : Mat3) : RefFrame := ⟨fun _ => m, none⟩

/-- `ecliptic_J2000_frame` — skyfield/framelib.py:175-178. -/
noncomputable def eclipJ2000Frame : RefFrame := inertialFrame eclipJ2000Matrix

/-- `galactic_frame` — skyfield/framelib.py:179-182. -/
noncomputable def galacticFrame : RefFrame := inertialFrame galacticMatrix

/-- `ICRF.ecliptic_xyz(epoch=None)` — skyfield/positionlib.py:415-418, 921-932. -/
noncomputable def eclipticXyz (own : Option EpochTime) (bare : ℝ → SkyTime) (epoch : Option EpochArg) (r : Vec3) :
    Except CoordError Vec3 :=
  match epoch with
  | none => .ok (eclipJ2000Matrix.mulVec r)
  | some e =>
    match resolveEpoch own bare e with
    | .error x => .error x
    | .ok t => .ok (frameXyz eclipticFrame t.sky r)

/-- `ICRF.ecliptic_velocity()` — skyfield/positionlib.py:419-420. -/
noncomputable def eclipticVelocity (t : SkyTime) (r v : Vec3) : Vec3 := (frameXyzAndVelocity eclipJ2000Frame t r v).2

/-- `ICRF.ecliptic_latlon(epoch=None)`: distance, latitude, longitude — skyfield/positionlib.py:421-424, 921-932. -/
noncomputable def eclipticLatlon (own : Option EpochTime) (bare : ℝ → SkyTime) (epoch : Option EpochArg) (r : Vec3) :
    Except CoordError (ℝ × ℝ × ℝ) :=
  match epoch with
  | none => .ok (toSpherical (eclipJ2000Matrix.mulVec r))
  | some e =>
    match resolveEpoch own bare e with
    | .error x => .error x
    | .ok t => .ok (frameLatlon eclipticFrame t.sky r)

/-- `ICRF.galactic_xyz()` — skyfield/positionlib.py:426. -/
noncomputable def galacticXyz (t : SkyTime) (r : Vec3) : Vec3 := frameXyz galacticFrame t r

/-- `ICRF.galactic_latlon()` — skyfield/positionlib.py:427. -/
noncomputable def galacticLatlon (t : SkyTime) (r : Vec3) : ℝ × ℝ × ℝ := frameLatlon galacticFrame t r

/-- `ICRF.frame_latlon_and_rates` — skyfield/positionlib.py:477-507; `tiny` is `_AVOID_DIVIDE_BY_ZERO`. -/
noncomputable def frameLatlonAndRates (tiny : ℝ) (f : RefFrame) (t : SkyTime) (r v : Vec3) : SphericalRates :=
  let (r, v) := frameXyzAndVelocity f t r v
  toSphericalAndRates tiny r v

/-- The coordinates of one position, or of an array of positions: `xyz.au` has shape (3,) or (3, n).
Used at skyfield/positionlib.py:338-372. -/
inductive Places where
  | single (r : Vec3)
  | array (rs : List Vec3)

/-- `ICRF.separation_from` — skyfield/positionlib.py:338-372.  A single position is reshaped to (3, 1), which numpy repeats for each
position of an array; arrays of two different lengths cannot be combined, unless one of them has length 1. -/
noncomputable def separationFrom : Places → Places → Except CoordError (List ℝ)
  | .single u, .single v => .ok [angleBetween u v]
  | .single u, .array vs => .ok (vs.map fun v => angleBetween u v)
  | .array us, .single v => .ok (us.map fun u => angleBetween u v)
  | .array us, .array vs =>
    if us.length = vs.length then .ok (List.zipWith angleBetween us vs)
    else match us, vs with
      | [u], vs => .ok (vs.map fun v => angleBetween u v)
      | us, [v] => .ok (us.map fun u => angleBetween u v)
      | _, _ => .error .valueError

/-- `ITRF_to_GCRS` — skyfield/positionlib.py:934-935. -/
noncomputable def itrfToGcrs (t : SkyTime) (r : Vec3) : Vec3 := (itrsRotation t).transpose.mulVec r

/-- `ITRF_to_GCRS2` — skyfield/positionlib.py:937-970.  `later` is the sidereal time one second later, given if `_high_accuracy`
is set. -/
noncomputable def itrfToGcrs2 (t : SkyTime) (later : Option ℝ) (r v : Vec3) : Vec3 × Vec3 :=
  let w := match later with
    | some gast => (gast - t.gast) / 24 * tau
    | none => angvel
  let spin := rotZ (t.gast / 24 * tau)
  let m := t.MT.mul spin
  let rate : Mat3 := ⟨⟨0 * w, -dayS' * w, 0 * w⟩, ⟨dayS' * w, 0 * w, 0 * w⟩, ⟨0 * w, 0 * w, 0 * w⟩⟩
  let v := v + rate.mulVec r
  (m.mulVec r, m.mulVec v)

end Skyfield
