import Mathlib.Algebra.Group.Basic
import Mathlib.Algebra.BigOperators.Group.List.Basic

/-
Model of vector functions, skyfield/vectorlib.py:11-165, and of ephemeris lookup, skyfield/jpllib.py:108-282.
`T` is the type of times, `V` that of vectors (any commutative group: positions and velocities are
only added and negated).  Bodies are numbered by integers; a Python object used as a target is an
integer not used for anything else.  `none` stands for an exception raised while evaluating (a date
outside the ephemeris).  The `message` that travels along with a position is in Model/VectorLabels.lean.
-/
namespace Skyfield

/-- What `_at(t)` returns: position, velocity and the optional geocentric position of the observer.
Used at skyfield/vectorlib.py:157-162. -/
structure Evaluated (V : Type*) where
  position : V
  velocity : V
  gcrs : Option V

/-- A vector function: anything with a center, a target and an `_at` method of its own (`leaf`: segments, stacks,
topocentric positions, satellites, orbits), a `ReversedVector` or a `VectorSum`.
Used at skyfield/vectorlib.py:108-109, 133-134. -/
inductive VectorFunction (T V : Type*)
  | leaf (center target : ℤ) (at_ : T → Option (Evaluated V))
  | reversed (f : VectorFunction T V)
  | sum (center target : ℤ) (fs : List (VectorFunction T V))

section
variable {T V : Type*}

mutual
/-- `.center`, and `.target` — skyfield/vectorlib.py:108-109, 133-134. -/
def VectorFunction.center : VectorFunction T V → ℤ
  | .leaf c _ _ => c
  | .reversed f => f.target
  | .sum c _ _ => c
/-- `vector.target`. Used at skyfield/vectorlib.py:108-109, 133-134. -/
def VectorFunction.target : VectorFunction T V → ℤ
  | .leaf _ t _ => t
  | .reversed f => f.center
  | .sum _ t _ => t
end

variable [AddCommGroup V]

/-- One term of a sum: the center of the vector function and what it evaluated to.
Used at skyfield/vectorlib.py:157-162. -/
structure Term (V : Type*) where
  center : ℤ
  position : V
  velocity : V

/-- One round of the loop in `VectorSum._at` — skyfield/vectorlib.py:157-162. -/
def sumStep (acc : Evaluated V) (term : Term V) : Evaluated V :=
  { position := acc.position + term.position
    velocity := acc.velocity + term.velocity
    gcrs := if term.center = 399 then some (-acc.position) else acc.gcrs }

/-- `VectorSum._at` after its terms are evaluated — skyfield/vectorlib.py:154-165.  An empty sum raises
`IndexError` at `vfs[0]`. -/
def sumTerms (terms : List (Term V)) : Option (Evaluated V) :=
  match terms.head?, terms.getLast? with
  | some first, some last =>
      let r := terms.foldl sumStep ⟨0, 0, none⟩
      some (if first.center = 0 ∧ last.center = 399 then { r with gcrs := some last.position } else r)
  | _, _ => none

mutual
/-- `_at(t)` — skyfield/vectorlib.py:127-129 and 153-165. -/
def VectorFunction.at_ : VectorFunction T V → T → Option (Evaluated V)
  | .leaf _ _ f, t => f t
  | .reversed f, t => (f.at_ t).map fun e => ⟨-e.position, -e.velocity, none⟩
  | .sum _ _ fs, t => (terms fs t).bind sumTerms
/-- The terms of a sum. Used at skyfield/vectorlib.py:154-165. -/
def terms : List (VectorFunction T V) → T → Option (List (Term V))
  | [], _ => some []
  | f :: fs, t =>
      match f.at_ t, terms fs t with
      | some e, some es => some (⟨f.center, e.position, e.velocity⟩ :: es)
      | _, _ => none
end

/-- `getattr(self, 'vector_functions', None) or (self,)` — skyfield/vectorlib.py:52. -/
def VectorFunction.parts (f : VectorFunction T V) : List (VectorFunction T V) :=
  match f with
  | .sum _ _ (g :: gs) => g :: gs
  | _ => [f]

/-- `-f` — skyfield/vectorlib.py:57-58 and 124-125. -/
def VectorFunction.neg (f : VectorFunction T V) : VectorFunction T V :=
  match f with
  | .reversed g => g
  | _ => .reversed f

/-- `a + b` — skyfield/vectorlib.py:41-55; `none` is the `ValueError`. -/
def VectorFunction.add (a b : VectorFunction T V) : Option (VectorFunction T V) :=
  if a.target ≠ b.center then
    if b.target = a.center then some (.sum b.center a.target (b.parts ++ a.parts))
    else none
  else some (.sum a.center b.target (a.parts ++ b.parts))

/-- `a - b` — skyfield/vectorlib.py:60-71; `none` is the `ValueError`. -/
def VectorFunction.sub (a b : VectorFunction T V) : Option (VectorFunction T V) :=
  if a.center ≠ b.center then none
  else some (.sum b.target a.target ((b.parts.map VectorFunction.neg).reverse ++ a.parts))

end

/-! ### Ephemerides -/

/-- One segment of an ephemeris file: `at_ t` is `none` if `t` is outside its dates.
Used at skyfield/jpllib.py:248-257. -/
structure Segment (T V : Type*) where
  center : ℤ
  target : ℤ
  /-- `spk.start_jd <= t.tdb <= spk.end_jd` -/
  covers : T → Bool
  at_ : T → Option (Evaluated V)

section
variable {T V : Type*}

/-- `Stack.__init__` — skyfield/jpllib.py:248-257: the segments kept. -/
def stackSegments (first : Segment T V) (rest : List (Segment T V)) : List (Segment T V) :=
  (first :: rest).filter fun s => s.center = first.center

/-- `Stack._at` for a single time — skyfield/jpllib.py:260-265: the last segment that covers the time is asked, or
the first one if none does. -/
def stackAt (segs : List (Segment T V)) (t : T) : Option (Evaluated V) :=
  match segs.reverse.find? (fun s => s.covers t), segs.head? with
  | some s, _ => s.at_ t
  | none, some s => s.at_ t
  | none, none => none

/-- One round of the loop in `Stack._at` for an array of times — skyfield/jpllib.py:272-281: `t[indices]`, the
evaluation and the assignment at `indices` are one elementwise update.  The inner `none` is `nan`. -/
def stackRound (s : Segment T V) (ts : List T) (old : List (Option (Evaluated V))) :
    Option (List (Option (Evaluated V))) :=
  (ts.zip old).mapM fun p => if s.covers p.1 then (s.at_ p.1).map some else some p.2

/-- `Stack._at` for an array of times — skyfield/jpllib.py:267-283. -/
def stackArray (segs : List (Segment T V)) (ts : List T) : Option (List (Option (Evaluated V))) :=
  segs.foldlM (fun old s => stackRound s ts old) (ts.map fun _ => none)

/-- The vector function for a list of matching segments — skyfield/jpllib.py:173-182. -/
def segmentsFunction (first : Segment T V) (rest : List (Segment T V)) : VectorFunction T V :=
  match rest with
  | [] => .leaf first.center first.target first.at_
  | _ => .leaf first.center first.target (stackAt (stackSegments first rest))

/-- The exceptions of a lookup. Used at skyfield/jpllib.py:169-184. -/
inductive LookupError
  /-- "unknown SPICE target", "kernel is missing ..." -/
  | missing
  /-- "the segments of this ephemeris cannot connect the Solar System Barycenter to the target" -/
  | disconnected
deriving DecidableEq

/-- The loop of `SpiceKernel.__getitem__` — skyfield/jpllib.py:169-184 — run for at most `fuel` rounds (`none`: not
finished by then).  The list built is that of `reversed(vfs)`. -/
def lookupGo (segs : List (Segment T V)) : ℕ → ℤ → List (VectorFunction T V) →
    Option (Except LookupError (List (VectorFunction T V)))
  | 0, _, _ => none
  | fuel + 1, center, vfs =>
      if center = 0 then some (.ok vfs)
      else
        match segs.filter fun s => s.target = center with
        | [] => some (.error .disconnected)
        | first :: rest => lookupGo segs fuel first.center (segmentsFunction first rest :: vfs)

/-- `codes` — skyfield/jpllib.py:110-114. -/
def codes (segs : List (Segment T V)) : List ℤ := segs.map (·.center) ++ segs.map (·.target)

/-- A target given by number or by name. Used at skyfield/jpllib.py:139-163. -/
inductive TargetArg
  | code (n : ℤ)
  | name (s : String)

/-- `decode` — skyfield/jpllib.py:139-163; `names` is the table of SPICE names, looked up in upper case. -/
def decode (names : String → Option ℤ) (segs : List (Segment T V)) (arg : TargetArg) : Except LookupError ℤ :=
  match arg with
  | .code n => if n ∈ codes segs then .ok n else .error .missing
  | .name s =>
      match names s.toUpper with
      | none => .error .missing
      | some n => if n ∈ codes segs then .ok n else .error .missing

/-- `__contains__` — skyfield/jpllib.py:191-196. -/
def kernelContains (names : String → Option ℤ) (segs : List (Segment T V)) (arg : TargetArg) : Bool :=
  match arg with
  | .code n => n ∈ codes segs
  | .name s =>
      match names s.toUpper with
      | none => false
      | some n => n ∈ codes segs

/-- `SpiceKernel.__getitem__` — skyfield/jpllib.py:165-189; `none` if it has not finished after `fuel` rounds. -/
def lookup (names : String → Option ℤ) (segs : List (Segment T V)) (fuel : ℕ) (arg : TargetArg) :
    Option (Except LookupError (VectorFunction T V)) :=
  match decode names segs arg with
  | .error e => some (.error e)
  | .ok target =>
      match lookupGo segs fuel target [] with
      | none => none
      | some (.error e) => some (.error e)
      | some (.ok [f]) => some (.ok f)
      | some (.ok fs) => some (.ok (.sum 0 target fs))

end
end Skyfield
