import Verif.Model.Vectors
import Verif.Model.TimeArith
import Verif.Model.Units
import Verif.Model.Calendar

/-
Model of an open ephemeris file: skyfield/jpllib.py:69-137, 198-243, 285-295 and skyfield/errors.py:16-21.  What jplephem computes from
the file is a parameter.
-/
namespace Skyfield

section
variable {K : Type*} [Field K] [LinearOrder K] [FloorRing K]
variable {V M : Type*}

/-- A segment as jplephem offers it.  `computeAndDifferentiate` gives kilometers and kilometers per day, `compute` gives kilometers and
kilometers per second (as `pv[:3]` and `pv[3:]`); both fail with a mask when a time lies outside the segment.
Used at skyfield/jpllib.py:200-206. -/
structure SpkSegment (K V M : Type*) where
  dataType : ℤ
  center : ℤ
  target : ℤ
  startJd : K
  endJd : K
  computeAndDifferentiate : K → K → Except M (V × V)
  compute : K → K → Except M (V × V)

/-- The two subclasses of `SPICESegment`. Used at skyfield/jpllib.py:200-206. -/
inductive SegmentKind
  | position
  | positionVelocity
deriving DecidableEq

/-- `SPICESegment.__new__` — skyfield/jpllib.py:200-206: `none` is the `ValueError`. -/
def segmentKind (s : SpkSegment K V M) : Option SegmentKind :=
  if s.dataType = 2 then some .position
  else if s.dataType = 3 then some .positionVelocity
  else none

/-- `self.segments` in `SpiceKernel.__init__` — skyfield/jpllib.py:69-74. -/
def openKernel (segs : List (SpkSegment K V M)) : Option (List (SegmentKind × SpkSegment K V M)) :=
  segs.mapM fun s => (segmentKind s).map fun k => (k, s)

/-- `time_range` — skyfield/jpllib.py:218-220; `g` is `tdb_minus_tt`. -/
def SpkSegment.timeRange (s : SpkSegment K V M) (ts : Timescale K) (g : K → K → K) : Time K × Time K :=
  (ts.tdbJd g s.startJd none, ts.tdbJd g s.endJd none)

/-- How `_at` can fail. Used at skyfield/jpllib.py:222-244. -/
inductive SegmentError (K V M : Type*)
  /-- `EphemerisRangeError`: the two dates of its message and its attributes — skyfield/errors.py:16-21. -/
  | range (first last : Date) (startTime endTime : Time K) (mask : M) (segment : SpkSegment K V M)
  /-- `OutOfRangeError` of jplephem. -/
  | outOfRange (mask : M)

/-- `t.tdb_calendar()[:3]` — skyfield/timelib.py:720-722, 1037-1048. -/
def Time.tdbDate (t : Time K) (g : K → K → K) : Date :=
  let c := calendarTuple t.whole (t.tdbFraction g) t.ts.cutoff
  ⟨c.year, c.month, c.day⟩

variable [AddCommGroup V] [Module K V]

/-- `ChebyshevPosition._at` and `ChebyshevPositionVelocity._at` — skyfield/jpllib.py:222-244. -/
def segmentAt (g : K → K → K) (kind : SegmentKind) (s : SpkSegment K V M) (t : Time K) : Except (SegmentError K V M) (V × V) :=
  match kind with
  | .position =>
    match s.computeAndDifferentiate t.whole (t.tdbFraction g) with
    | .ok (position, velocity) => .ok ((auKm : K)⁻¹ • position, (auKm : K)⁻¹ • velocity)
    | .error mask =>
      let range := s.timeRange t.ts g
      .error (.range (range.1.tdbDate g) (range.2.tdbDate g) range.1 range.2 mask s)
  | .positionVelocity =>
    match s.compute t.whole (t.tdbFraction g) with
    | .ok (position, velocity) => .ok ((auKm : K)⁻¹ • position, ((daySeconds : K) / auKm) • velocity)
    | .error mask => .error (.outOfRange mask)

end

/-! ### The report -/

/-- What `print(kernel)` looks at in a segment: which kernel object it belongs to, that kernel's file, its dates and its bodies.
Used at skyfield/jpllib.py:291-295. -/
structure ReportSegment where
  ephemeris : ℕ
  filename : String
  startJd : ℚ
  endJd : ℚ
  center : ℤ
  target : ℤ
deriving DecidableEq

/-- A line of the report.  The text of its numbers is left out. Used at skyfield/jpllib.py:291-295. -/
inductive ReportLine
  /-- `Segments from kernel file 'name':` (`first`) or `And from kernel file 'name':` -/
  | heading (first : Bool) (filename : String)
  /-- `  JD start - JD end  (date through date)` -/
  | dates (startJd endJd : ℚ) (starts ends : Date)
  /-- `    center -> target  name -> name` -/
  | segment (center target : ℤ) (centerName targetName : String)
deriving DecidableEq

/-- `int(x)`: towards zero. Used at skyfield/jpllib.py:83-101. -/
def pyInt (x : ℚ) : ℤ := if 0 ≤ x then ⌊x⌋ else ⌈x⌉

/-- `_format_segment` — skyfield/jpllib.py:291-295. -/
def formatSegment (names : ℤ → Option String) (s : ReportSegment) : ReportLine :=
  .segment s.center s.target ((names s.center).getD "unknown") ((names s.target).getD "unknown")

/-- The loop of `SpiceKernel.__str__` — skyfield/jpllib.py:83-101. -/
def reportGo (names : ℤ → Option String) : Option ℕ → Option ℚ → Option ℚ → List ReportSegment → List ReportLine
  | _, _, _, [] => []
  | ephemeris, start, stop, s :: segs =>
    (if ephemeris ≠ some s.ephemeris then [ReportLine.heading (ephemeris = none) s.filename] else []) ++
    (if start ≠ some s.startJd ∨ stop ≠ some s.endJd then
      [ReportLine.dates s.startJd s.endJd (computeCalendarDate (pyInt s.startJd) none) (computeCalendarDate (pyInt s.endJd) none)]
    else []) ++
    formatSegment names s :: reportGo names (some s.ephemeris) (some s.startJd) (some s.endJd) segs

/-- `SpiceKernel.__str__`, line by line. Used at skyfield/jpllib.py:83-96. -/
def kernelReport (names : ℤ → Option String) (segs : List ReportSegment) : List ReportLine := reportGo names none none none segs

/-! ### Names -/

section
variable {T V : Type*}

/-- `_jpl_code_name_dict`, `target_names` of jplephem: `dict(target_name_pairs)`, where the last pair for a code wins.
Used at skyfield/jpllib.py:285-295. -/
def codeName (pairs : List (ℤ × String)) (code : ℤ) : Option String := (pairs.reverse.find? fun p => p.1 = code).map (·.2)

/-- `_jpl_name_code_dict` — skyfield/jpllib.py:16-18: the last pair for a name wins. -/
def nameCode (pairs : List (ℤ × String)) (name : String) : Option ℤ := (pairs.reverse.find? fun p => p.2 = name).map (·.1)

/-- `d[code].append(name)` on a `defaultdict(list)`. Used at skyfield/jpllib.py:116-137. -/
def appendName (d : ℤ → Option (List String)) (code : ℤ) (name : String) : ℤ → Option (List String) :=
  fun c => if c = code then some ((d c).getD [] ++ [name]) else d c

/-- `SpiceKernel.names` — skyfield/jpllib.py:116-137; the order of the keys is left out. -/
def kernelNames (pairs : List (ℤ × String)) (segs : List (Segment T V)) : ℤ → Option (List String) :=
  pairs.foldl (fun d p => if p.1 ∈ codes segs then appendName d p.1 p.2 else d) fun _ => none

/-- `_format_code_and_name` and `_jpl_name` of a number — skyfield/jpllib.py:285-289, skyfield/vectorlib.py:207-213. -/
def formatCodeAndName (names : ℤ → Option String) (code : ℤ) : String :=
  match names code with
  | none => toString code
  | some name => toString code ++ " " ++ name

/-- `numbered_name_of` — skyfield/naifcodes.py:8-16. -/
def numberedNameOf (names : ℤ → Option String) (code : ℤ) : String := toString code ++ " " ++ (names code).getD "(Unnamed)"

/-- `_target_name` of a number — skyfield/naifcodes.py:18-28. -/
def targetNameOf (names : ℤ → Option String) (code : ℤ) : String := toString code ++ " " ++ (names code).getD "UNKNOWN"

/-! ### Closing -/

/-- What a user does with an open kernel. Used at skyfield/jpllib.py:103-106. -/
inductive KernelUse (T V : Type*)
  | close
  | ask (arg : TargetArg)
  | append (s : Segment T V)

/-- The segments of the kernel after a use; `close` is skyfield/jpllib.py:103-106. -/
def KernelUse.segments : KernelUse T V → List (Segment T V) → List (Segment T V)
  | .close, _ => []
  | .ask _, segs => segs
  | .append s, segs => segs ++ [s]

/-- The segments after several uses. Used at skyfield/jpllib.py:69-82. -/
def segmentsAfter (segs : List (Segment T V)) (uses : List (KernelUse T V)) : List (Segment T V) :=
  uses.foldl (fun segs u => u.segments segs) segs

end

end Skyfield
