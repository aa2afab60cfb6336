import Verif.Model.TextPck
import Verif.Model.Frames

/-
Building planetary frames and places from the loaded kernels — skyfield/planetarylib.py:26-148.  Numbers are exact reals.
A binary segment is known by the frame it describes (`body`), its base frame and its angles as functions of time.
-/
namespace Skyfield

/-- A segment of a binary PCK file, as jplephem describes it. Used at skyfield/planetarylib.py:26-30. -/
structure PckSegment where
  body : ℕ
  frame : ℕ
  angles : SkyTime → PckAngles

/-- `PlanetaryConstants` — skyfield/planetarylib.py:26-30. -/
structure PlanetaryConstants where
  vars : PckVars ℝ
  segmentList : List PckSegment
  segmentMap : ℕ → Option PckSegment

/-- A new object: no variables and no segments. Used at skyfield/planetarylib.py:26-30. -/
def PlanetaryConstants.empty : PlanetaryConstants := ⟨fun _ => none, [], fun _ => none⟩

/-- One round of the loop of `read_binary` — skyfield/planetarylib.py:81-83. -/
def PlanetaryConstants.addSegment (pc : PlanetaryConstants) (s : PckSegment) : PlanetaryConstants :=
  { pc with segmentList := pc.segmentList ++ [s], segmentMap := fun n => if n = s.body then some s else pc.segmentMap n }

/-- `read_binary` — skyfield/planetarylib.py:69-83: `start` are the first seven bytes, `segments` what jplephem finds in
the file.  `none` is the `ValueError`. -/
def PlanetaryConstants.readBinary (pc : PlanetaryConstants) (start : List Char) (segments : List PckSegment) :
    Option PlanetaryConstants :=
  if start ≠ "DAF/PCK".toList then none else some (segments.foldl PlanetaryConstants.addSegment pc)

/-- The exceptions of `build_frame`. Used at skyfield/planetarylib.py:85-92. -/
inductive FrameError
  | unknownConstant | keyError | notImplemented | lookupError | assertionError | typeError
  deriving DecidableEq

/-- A value formatted into a name by `'…{0}…'.format(integer)`; what `str()` makes of a float is `showReal`.
Used at skyfield/planetarylib.py:99-135. -/
def formatValue (showReal : ℝ → List Char) : PckEntry ℝ → Option (List Char)
  | .scalar (.int n) => some (toString n).toList
  | .scalar (.str s) => some s
  | .scalar (.float x) => some (showReal x)
  | .list _ => none

/-- `_get_assignment` — skyfield/planetarylib.py:85-92. -/
def PlanetaryConstants.getAssignment (pc : PlanetaryConstants) (key : List Char) : Except FrameError (PckEntry ℝ) :=
  match pc.vars key with
  | some e => .ok e
  | none => .error .unknownConstant

/-- `self.variables[key]`. Used at skyfield/planetarylib.py:106-116. -/
def PlanetaryConstants.lookUp (pc : PlanetaryConstants) (key : List Char) : Except FrameError (PckEntry ℝ) :=
  match pc.vars key with
  | some e => .ok e
  | none => .error .keyError

/-- The name `FRAME_n_…` of a variable. Used at skyfield/planetarylib.py:99-135. -/
def frameKey (integer : List Char) (suffix : String) : List Char := "FRAME_".toList ++ integer ++ suffix.toList
/-- The name `TKFRAME_n_…` of a variable. Used at skyfield/planetarylib.py:106-116. -/
def tkFrameKey (integer : List Char) (suffix : String) : List Char := "TKFRAME_".toList ++ integer ++ suffix.toList

/-- A number where one is needed. Used at skyfield/planetarylib.py:137-148 and 223-231. -/
def PckValue.number : PckValue ℝ → Option ℝ
  | .int n => some n
  | .float x => some x
  | .str _ => none

/-- `_rotations[axis]` as a function to call — skyfield/planetarylib.py:150: entry 0 is `None`, a float is no index. (A negative number
in a text kernel is read as a float, skyfield/data/text_pck.py:58-64, so no negative index can come from a file.) -/
def PckValue.axis : PckValue ℝ → Option Axis
  | .int 1 => some .x
  | .int 2 => some .y
  | .int 3 => some .z
  | _ => none

/-- `zip(angles, axes)` with the values that the loop needs; a wrong value raises when the loop gets to it.
Used at skyfield/planetarylib.py:106-116. -/
def zipAngles : List (PckValue ℝ) → List (PckValue ℝ) → Option (List (ℝ × Axis))
  | a :: as, x :: xs =>
    match a.number, x.axis, zipAngles as xs with
    | some a, some ax, some l => some ((a, ax) :: l)
    | _, _, _ => none
  | _, _ => some []

/-- `matrix.shape = 3, 3` of nine numbers. Used at skyfield/planetarylib.py:117-120. -/
def matrixOf : List (PckValue ℝ) → Option Mat3
  | [a, b, c, d, e, f, g, h, i] =>
    match a.number, b.number, c.number, d.number, e.number, f.number, g.number, h.number, i.number with
    | some a, some b, some c, some d, some e, some f, some g, some h, some i => some ⟨⟨a, b, c⟩, ⟨d, e, f⟩, ⟨g, h, i⟩⟩
    | _, _, _, _, _, _, _, _, _ => none
  | _ => none

/-- The branch for `ANGLES` — skyfield/planetarylib.py:106-116, with the one unit of line 151. -/
noncomputable def PlanetaryConstants.anglesSpec (pc : PlanetaryConstants) (integer : List Char) : Except FrameError Mat3 := do
  let angles ← pc.lookUp (tkFrameKey integer "_ANGLES")
  let axes ← pc.lookUp (tkFrameKey integer "_AXES")
  let units ← pc.lookUp (tkFrameKey integer "_UNITS")
  match units with
  | .scalar (.str u) =>
    if u ≠ "ARCSECONDS".toList then .error .keyError
    else match angles, axes with
      | .list as, .list xs =>
        match zipAngles as xs with
        | some l => .ok (anglesMatrix asec2rad l)
        | none => .error .typeError
      | _, _ => .error .typeError
  | .scalar _ => .error .keyError
  | .list _ => .error .typeError

/-- The branch for `MATRIX` — skyfield/planetarylib.py:117-120. -/
def PlanetaryConstants.matrixSpec (pc : PlanetaryConstants) (integer : List Char) : Except FrameError Mat3 := do
  match ← pc.lookUp (tkFrameKey integer "_MATRIX") with
  | .list l =>
    match matrixOf l with
    | some m => .ok m
    | none => .error .typeError
  | .scalar _ => .error .typeError

/-- The fixed rotation, if there is one — skyfield/planetarylib.py:102-122. -/
noncomputable def PlanetaryConstants.fixedRotation (pc : PlanetaryConstants) (integer : List Char) :
    PckEntry ℝ → Except FrameError Mat3
  | .scalar (.str s) =>
    if s = "ANGLES".toList then pc.anglesSpec integer
    else if s = "MATRIX".toList then pc.matrixSpec integer
    else .error .notImplemented
  | _ => .error .notImplemented

/-- A `Frame` — skyfield/planetarylib.py:159-165. -/
structure PlanetFrame where
  center : PckEntry ℝ
  segment : PckSegment
  matrix : Option Mat3

/-- `Frame.rotation_at` — skyfield/planetarylib.py:167-173. -/
noncomputable def PlanetFrame.rotationAt (f : PlanetFrame) (t : SkyTime) : Mat3 :=
  planetRotation f.matrix (f.segment.angles t).ra (f.segment.angles t).dec (f.segment.angles t).w

/-- The end of `build_frame` — skyfield/planetarylib.py:126-135, without the optional argument `_segment`.  The key of
the dictionary is an integer: nothing else is found. -/
def PlanetaryConstants.finish (pc : PlanetaryConstants) (center : PckEntry ℝ) (matrix : Option Mat3)
    (integer : PckEntry ℝ) : Except FrameError PlanetFrame :=
  match integer with
  | .scalar (.int n) =>
    match pc.segmentMap n with
    | none => .error .lookupError
    | some s => if s.frame ≠ 1 then .error .assertionError else .ok ⟨center, s, matrix⟩
  | .scalar _ => .error .lookupError
  | .list _ => .error .typeError

/-- `build_frame(integer)` — skyfield/planetarylib.py:99-135. -/
noncomputable def PlanetaryConstants.buildFrame (showReal : ℝ → List Char) (pc : PlanetaryConstants) (integer : PckEntry ℝ) :
    Except FrameError PlanetFrame :=
  match formatValue showReal integer with
  | none => .error .unknownConstant
  | some digits => do
    let center ← pc.getAssignment (frameKey digits "_CENTER")
    match pc.vars (tkFrameKey digits "_SPEC") with
    | none => pc.finish center none integer
    | some spec =>
      let matrix ← pc.fixedRotation digits spec
      match ← pc.lookUp (tkFrameKey digits "_RELATIVE") with
      | .list _ => .error .keyError
      | .scalar v =>
        match formatValue showReal (.scalar v) with
        | none => .error .keyError
        | some relative => do
          let integer ← pc.lookUp (frameKey relative "")
          pc.finish center (some matrix) integer

/-- `build_frame_named(name)` — skyfield/planetarylib.py:94-97. -/
noncomputable def PlanetaryConstants.buildFrameNamed (showReal : ℝ → List Char) (pc : PlanetaryConstants) (name : List Char) :
    Except FrameError PlanetFrame := do
  let integer ← pc.getAssignment (frameKey name "")
  pc.buildFrame showReal integer

/-- A place on a planet — skyfield/planetarylib.py:211-231. -/
structure PlanetSite where
  frame : PlanetFrame
  latitude : ℝ
  longitude : ℝ
  position : Vec3

/-- The exceptions of `build_latlon_degrees`. Used at skyfield/planetarylib.py:137-148 and 223-231. -/
inductive SiteError
  | unknownConstant | notSpherical | typeError | indexError
  deriving DecidableEq

/-- `==` between two values of an assignment: numbers compare as numbers, texts as texts, a number never equals a text.
Used at skyfield/planetarylib.py:137-148 and 223-231. -/
def PckValue.same (a b : PckValue ℝ) : Prop :=
  match a, b with
  | .str s, .str t => s = t
  | .str _, _ => False
  | _, .str _ => False
  | a, b => a.number = b.number

/-- `build_latlon_degrees` — skyfield/planetarylib.py:137-148 and 223-231. The chained comparison stops at its first unequal pair, so
the third radius is then not looked at; a text can be indexed too, letter by letter. -/
noncomputable def PlanetaryConstants.buildLatlonDegrees (showReal : ℝ → List Char) (pc : PlanetaryConstants) (frame : PlanetFrame)
    (latitude longitude elevationM : ℝ) : Except SiteError PlanetSite :=
  match formatValue showReal frame.center with
  | none => .error .unknownConstant
  | some digits =>
    match pc.vars ("BODY".toList ++ digits ++ "_RADII".toList) with
    | none => .error .unknownConstant
    | some (.scalar (.str s)) => site (s.map fun c => .str [c])
    | some (.scalar _) => .error .typeError
    | some (.list l) => site l
where
  site : List (PckValue ℝ) → Except SiteError PlanetSite
    | a :: b :: rest =>
      open Classical in
      if ¬ a.same b then .error .notSpherical
      else
        match rest with
        | [] => .error .indexError
        | c :: _ =>
          if ¬ b.same c then .error .notSpherical
          else
            match a.number with
            | none => .error .typeError
            | some radius =>
              let lat := latitude / 360 * tau
              let lon := longitude / 360 * tau
              .ok ⟨frame, lat, lon, planetPlace lat lon ((radius + elevationM * 1e-3) / auKm)⟩
    | _ => .error .indexError

end Skyfield
