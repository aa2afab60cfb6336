import Verif.Model.Kepler
import Verif.Model.Propagate
import Verif.Model.Rotations
import Verif.Model.EarthRotation
import Verif.Model.Elements
import Verif.Model.TimeArith
import Verif.Model.Units

/-
Orbits of comets and minor planets — skyfield/keplerlib.py (`_KeplerOrbit`) and skyfield/data/mpc.py.  Exact real
arithmetic; one orbit and one time; a catalogue row is the record of the columns the code reads.
-/
namespace Skyfield
open Real

/-! ### Packed dates and designations -/

/-- `n(c)` of `mpcorb_orbit` and of `unpack` — skyfield/data/mpc.py:85-86 and 264-265.  `str.isdigit` is modelled for ASCII. -/
def packedDigit (c : Char) : ℤ := (c.toNat : ℤ) - (if c.isDigit then 48 else 55)

/-- `int(s)` of a slice of two characters, as used in skyfield/data/mpc.py:89 and 271; `none` is `ValueError`.  Only pairs of
ASCII digits are accepted here (Python also reads shorter slices, signs, blanks and other decimal digits). -/
def intOfPair (a b : Char) : Option ℤ :=
  if a.isDigit && b.isDigit then some (10 * ((a.toNat : ℤ) - 48) + ((b.toNat : ℤ) - 48)) else none

/-- `d(s)` of `mpcorb_orbit` — skyfield/data/mpc.py:88-92; `none` is an exception.  Characters after the fifth are not read. -/
noncomputable def packedEpoch (s : List Char) : Option ℝ :=
  match s with
  | s0 :: s1 :: s2 :: s3 :: s4 :: _ =>
    (intOfPair s1 s2).map fun yy =>
      let year := 100 * packedDigit s0 + yy
      let month := packedDigit s3
      let day := packedDigit s4
      (julianDay year month day none : ℝ) - 0.5
  | _ => none

/-- `c.lstrip('0')` of one character — skyfield/data/mpc.py:271. -/
def stripZero (c : Char) : List Char := if c = '0' then [] else [c]

/-- `unpack` — skyfield/data/mpc.py:263-271; `none` is an exception.  Characters after the eighth are not read (unless the
second is a slash, when the text is returned whole). -/
def unpackDesignation (s : List Char) : Option (List Char) :=
  match s with
  | s0 :: s1 :: rest =>
    if s1 = '/' then some s
    else
      match rest with
      | s2 :: s3 :: s4 :: s5 :: s6 :: s7 :: _ =>
        (intOfPair s5 s6).map fun k =>
          [s0, '/'] ++ (toString (packedDigit s1)).toList ++ [s2, s3, ' ', s4] ++ (toString k).toList ++ stripZero s7
      | _ => none
  | _ => none

/-! ### Orbits -/

/-- `_CONVERT_GM` — skyfield/keplerlib.py:18. -/
noncomputable def convertGm : ℝ := daySeconds * daySeconds / auKm / auKm / auKm

/-- A `_KeplerOrbit` — skyfield/keplerlib.py:20-54: position in au, velocity in au per day, epoch as TT Julian date. -/
structure KeplerOrbit where
  pos : Vec3
  vel : Vec3
  epoch : ℝ
  mu : ℝ
  rotation : Option Mat3

/-- What building an orbit does with the state `ele_to_vec` returns. Used at skyfield/keplerlib.py:60-91. -/
def KeplerOrbit.ofState (epoch mu : ℝ) : EleResult → Option KeplerOrbit
  | .state pos vel => some ⟨pos, vel, epoch, mu, none⟩
  | .valueError => none

/-- `_KeplerOrbit._from_periapsis` — skyfield/keplerlib.py:60-91; `none` is `ValueError`. -/
noncomputable def KeplerOrbit.fromPeriapsis (p e iDeg OmDeg wDeg tPeriapsis gm : ℝ) : Option KeplerOrbit :=
  let gmAu := gm * convertGm
  KeplerOrbit.ofState tPeriapsis gmAu (eleToVec p e (deg2rad * iDeg) (deg2rad * OmDeg) (deg2rad * wDeg) 0 gmAu)

/-- `_KeplerOrbit._from_mean_anomaly` — skyfield/keplerlib.py:151-220; `none` is an exception. -/
noncomputable def KeplerOrbit.fromMeanAnomaly (p e iDeg OmDeg wDeg MDeg epoch gm : ℝ) : Option KeplerOrbit :=
  let M := deg2rad * MDeg
  let gmAu := gm * convertGm
  (trueFromMean p e gmAu M).bind fun v =>
    KeplerOrbit.ofState epoch gmAu (eleToVec p e (deg2rad * iDeg) (deg2rad * OmDeg) (deg2rad * wDeg) v gmAu)

/-- `_KeplerOrbit._from_true_anomaly` — skyfield/keplerlib.py:93-149: `p` in kilometers, angles in radians; the state is
converted from kilometers and kilometers per second (skyfield/units.py).  Line 146 passes `mu_km_s` on as the attraction in
au³/day². -/
noncomputable def KeplerOrbit.fromTrueAnomaly (pKm e i Om w v epoch : ℝ) (muKmS muAu3D2 : Option ℝ) : Option KeplerOrbit :=
  open Classical in
  let given (m : Option ℝ) : Prop := m ≠ none ∧ m ≠ some 0
  if (given muKmS ∧ given muAu3D2) ∨ (¬ given muKmS ∧ ¬ given muAu3D2) then none
  else
    let mu := if given muAu3D2 then muAu3D2.getD 0 * auKm ^ 3 / daySeconds ^ 2 else muKmS.getD 0
    match eleToVec pKm e i Om w v mu with
    | .state pos vel => some ⟨(1 / auKm : ℝ) • pos, (daySeconds / auKm : ℝ) • vel, epoch, mu, none⟩
    | .valueError => none

/-- `mxv(rotation, v)` unless there is none — skyfield/keplerlib.py:234-236. -/
def KeplerOrbit.turn (o : KeplerOrbit) (v : Vec3) : Vec3 :=
  match o.rotation with
  | none => v
  | some R => R.mulVec v

/-- `_KeplerOrbit._at` — skyfield/keplerlib.py:222-237, for one time; `bound` is the overflow limit of `propagate`. -/
noncomputable def KeplerOrbit.at (o : KeplerOrbit) (bound t : ℝ) : Option (Vec3 × Vec3) :=
  (propagate bound o.pos o.vel o.epoch t o.mu).map fun s => (o.turn s.1, o.turn s.2)

/-- `elements_at_epoch` — skyfield/keplerlib.py:239-245 — in kilometers and days (see `Osculating`). -/
noncomputable def KeplerOrbit.elementsAtEpoch (o : KeplerOrbit) : Osculating :=
  ⟨(auKm : ℝ) • o.pos, (auKm : ℝ) • o.vel, o.mu / convertGm * daySeconds ^ 2⟩

/-! ### Catalogue rows -/

/-- The columns of a row of the comet file that `comet_orbit` reads — skyfield/data/mpc.py:114-133. -/
structure CometRow where
  year : ℤ
  month : ℤ
  day : ℝ
  q : ℝ
  e : ℝ
  w : ℝ
  Om : ℝ
  i : ℝ

/-- `comet_orbit` — skyfield/data/mpc.py:215-237. -/
noncomputable def cometOrbit (ts : Timescale ℝ) (row : CometRow) (gm : ℝ) : Option KeplerOrbit :=
  let p := cometP row.q row.e
  let tPerihelion := (ts.tt row.year row.month row.day 0 0 0).tt
  (KeplerOrbit.fromPeriapsis p row.e row.i row.Om row.w tPerihelion gm).map
    fun o => { o with rotation := some eclipJ2000Matrix.transpose }

/-- The columns of a row of the minor planet file that `mpcorb_orbit` reads — skyfield/data/mpc.py:15-39. -/
structure MinorPlanetRow where
  epochPacked : List Char
  M : ℝ
  w : ℝ
  Om : ℝ
  i : ℝ
  e : ℝ
  a : ℝ

/-- `mpcorb_orbit` — skyfield/data/mpc.py:80-110. -/
noncomputable def mpcorbOrbit (ts : Timescale ℝ) (row : MinorPlanetRow) (gm : ℝ) : Option KeplerOrbit :=
  let p := row.a * (1 - row.e * row.e)
  (packedEpoch row.epochPacked).bind fun epochJd =>
    let tEpoch := (ts.ttJd epochJd none).tt
    (KeplerOrbit.fromMeanAnomaly p row.e row.i row.Om row.w row.M tEpoch gm).map
      fun o => { o with rotation := some eclipJ2000Matrix.transpose }

end Skyfield
