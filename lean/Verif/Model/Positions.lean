import Verif.Model.Relativity

/-
Position objects as values: how they are built, subtracted, negated, indexed and observed — skyfield/positionlib.py:24-32,
66-105, 169-234, 613-620, 677-697, 722-805, 883-908 and skyfield/vectorlib.py:73-96.  Exact real arithmetic.
A position of an array of times has `V := Fin n → Vec3` and `T := Fin n → Instant`; a velocity that was not given is
`none` (the code fills it with `nan`).
-/
namespace Skyfield

/-- A `center` or `target`: an integer code, or an object such as a place on the Earth, compared by identity.
Used at skyfield/positionlib.py:92, 675, 870. -/
inductive Body (O : Type*)
  | code (n : ℤ)
  | object (o : O)
  deriving DecidableEq

/-- The class of a position object — skyfield/positionlib.py:76, 658-659, 699, 820, 854. -/
inductive PositionKind
  | icrf | barycentric | astrometric | apparent | geocentric
  deriving DecidableEq

/-- `_default_center` — skyfield/positionlib.py:92, 675, 870. -/
def PositionKind.defaultCenter {O : Type*} : PositionKind → Option (Body O)
  | .barycentric => some (.code 0)
  | .geocentric => some (.code 399)
  | _ => none

/-- The attributes set by `ICRF.__init__`, and `_observer_gcrs_au` and `_ephemeris` — skyfield/positionlib.py:90-105. -/
structure PositionCore (V T O : Type*) where
  kind : PositionKind
  xyz : V
  velocity : Option V
  t : Option T
  center : Option (Body O)
  target : Option (Body O)
  observerGcrs : Option V
  hasEphemeris : Bool

/-- A position object: its own attributes, its `center_barycentric` and, where `observe()` has set it, `light_time`.
Used at skyfield/positionlib.py:95-105. -/
structure Position (V T L O : Type*) where
  core : PositionCore V T O
  centerBarycentric : Option (PositionCore V T O)
  lightTime : Option L

/-- The exceptions of these methods. Used at skyfield/positionlib.py:169-181. -/
inductive PositionError
  | valueError | attributeError | typeError
  deriving DecidableEq

section
variable {V T L O : Type*}

/-- `ICRF.__init__` — skyfield/positionlib.py:95-105.  (The test of line 104 is of the argument, not of the attribute.) -/
def Position.new [DecidableEq O] (kind : PositionKind) (xyz : V) (velocity : Option V) (t : Option T) (center target : Option (Body O)) :
    Position V T L O :=
  let core : PositionCore V T O :=
    { kind := kind, xyz := xyz, velocity := velocity, t := t
      center := if center = none then kind.defaultCenter else center
      target := target, observerGcrs := none, hasEphemeris := false }
  { core := core, centerBarycentric := if center = some (.code 0) then some core else none, lightTime := none }

/-- `build_position` — skyfield/positionlib.py:24-32. -/
def buildPosition [DecidableEq O] (xyz : V) (velocity : Option V) (t : Option T) (center target : Option (Body O)) :
    Position V T L O :=
  if center = some (.code 0) then .new .barycentric xyz velocity t center target
  else if center = some (.code 399) then .new .geocentric xyz velocity t center target
  else .new .icrf xyz velocity t center target

/-- `VectorFunction.at` — skyfield/vectorlib.py:73-96, given what `_at` returned. -/
def positionAt [DecidableEq O] (center target : Body O) (xyz velocity : V) (observerGcrs : Option V) (hasEphemeris : Bool) (t : T) :
    Position V T L O :=
  let p : Position V T L O := buildPosition xyz (some velocity) (some t) (some center) (some target)
  let core := { p.core with observerGcrs := observerGcrs, hasEphemeris := hasEphemeris }
  -- `center_barycentric` is the same object as the position itself, so it has the new attributes too
  { p with core := core, centerBarycentric := p.centerBarycentric.map fun _ => core }

/-- The velocity of a difference — skyfield/positionlib.py:177-180; `nan` if either is. -/
def velocityDifference [Sub V] : Option V → Option V → Option V
  | some v, some w => some (v - w)
  | _, _ => none

/-- `a - b` for positions — skyfield/positionlib.py:169-181. -/
def Position.sub [DecidableEq O] [Sub V] (a b : Position V T L O) : Except PositionError (Position V T L O) :=
  if a.core.center ≠ b.core.center then .error .valueError
  else .ok (buildPosition (a.core.xyz - b.core.xyz)
    (velocityDifference a.core.velocity b.core.velocity) a.core.t b.core.target a.core.target)

/-- `-a` for positions — skyfield/positionlib.py:192-199. -/
def Position.neg [DecidableEq O] [Neg V] (a : Position V T L O) : Position V T L O :=
  .new a.core.kind (-a.core.xyz) (a.core.velocity.map (-·)) a.core.t a.core.target a.core.center

/-- `a[i]`, for an array of positions and an index in range — skyfield/positionlib.py:183-190.  Slices and negative
indices are not modelled.  Without times, `None[i]` raises. -/
def Position.getItem {n : ℕ} {I : Type*} [DecidableEq O] (a : Position (Fin n → V) (Fin n → I) (Fin n → L) O) (i : Fin n) :
    Except PositionError (Position V I L O) :=
  match a.core.t with
  | none => .error .typeError
  | some t => .ok (.new a.core.kind (a.core.xyz i) (a.core.velocity.map (· i)) (some (t i)) a.core.center a.core.target)

/-- `a.observe(body)` — skyfield/positionlib.py:677-697: only `Barycentric` has the method.  `seen` is what
`body._observe_from_bcrs(a)` returned (modelled in LightTime and Star). -/
def Position.observe [DecidableEq O] (a : Position V T L O) (bodyTarget : Body O) (seen : Except PositionError (V × V × T × L)) :
    Except PositionError (Position V T L O) :=
  if a.core.kind ≠ .barycentric then .error .attributeError
  else match seen with
    | .error e => .error e
    | .ok (p, v, t, lightTime) =>
      let q : Position V T L O := .new .astrometric p (some v) (some t) a.core.target (some bodyTarget)
      .ok { core := { q.core with hasEphemeris := a.core.hasEphemeris }, centerBarycentric := some a.core
            lightTime := some lightTime }

/-- `a.apparent()` — skyfield/positionlib.py:728-805: only `Astrometric` has the method.  `shifted` is the position with
deflection and aberration applied (modelled in Relativity), a function of the observer, of the astrometric position and of
the light time.  Line 763 raises if there is no `center_barycentric`; if there is one but no `light_time` was set,
line 797 takes that of line 227, `ownLightTime`. -/
def Position.apparent [DecidableEq O] (a : Position V T L O) (ownLightTime : L)
    (shifted : PositionCore V T O → V → L → Except PositionError V) : Except PositionError (Position V T L O) :=
  if a.core.kind ≠ .astrometric then .error .attributeError
  else match a.centerBarycentric with
    | none => .error .attributeError
    | some cb =>
      match shifted cb a.core.xyz (a.lightTime.getD ownLightTime) with
      | .error e => .error e
      | .ok xyz =>
        let q : Position V T L O := .new .apparent xyz a.core.velocity a.core.t a.core.center a.core.target
        .ok { core := { q.core with observerGcrs := cb.observerGcrs }, centerBarycentric := a.centerBarycentric
              lightTime := none }

/-- The rotation used by `altaz()` — skyfield/positionlib.py:722-726, 613-620 and 883-892.  `rotationAt` is the attribute
`rotation_at` of an object, if it has one; a code has none.  (`getattr` without default in line 889 raises
`AttributeError`, so that line 893 is never reached.) -/
def Position.altazRotation {R : Type*} (rotationAt : O → Option (T → R)) (a : Position V T L O) : Except PositionError R :=
  let attr : Option (Body O) → Option (T → R) := fun b =>
    match b with
    | some (.object o) => rotationAt o
    | _ => none
  if a.core.kind = .astrometric then .error .valueError
  else match a.centerBarycentric with
    | some cb =>
      match attr cb.target, cb.t with
      | none, _ => .error .valueError
      | some _, none => .error .attributeError
      | some r, some t => .ok (r t)
    | none =>
      match attr a.core.center, a.core.t with
      | none, _ => .error .attributeError
      | some _, none => .error .attributeError
      | some r, some t => .ok (r t)

end

/-- `SSB.at(t)` — skyfield/positionlib.py:66-74. -/
def ssbAt {T L O : Type*} [DecidableEq O] (t : T) : Position Vec3 T L O :=
  .new .barycentric 0 (some 0) (some t) none none

/-- `distance()` in au — skyfield/positionlib.py:201-214. -/
noncomputable def Position.distance {T L O : Type*} (a : Position Vec3 T L O) : ℝ := a.core.xyz.length

/-- `speed()` in au/day — skyfield/positionlib.py:216-224; `none` is `nan`. -/
noncomputable def Position.speed {T L O : Type*} (a : Position Vec3 T L O) : Option ℝ := a.core.velocity.map Vec3.length

/-- `light_time` in days, where not set by `observe()` — skyfield/positionlib.py:226-234. -/
noncomputable def Position.ownLightTime {T L O : Type*} (a : Position Vec3 T L O) : ℝ :=
  a.distance * auM / lightSpeed / daySeconds

end Skyfield
