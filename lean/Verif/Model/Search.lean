import Verif.Model.Basic
import Verif.Model.TimeArith
import Mathlib.Data.List.Sort

/-
Model of `skyfield/searchlib.py`.  A vectorised function of time is a function `K → V` of the TT
Julian date (the code always builds its times with `ts.tt_jd(jd)`), applied to every sample; a
function that keeps state between calls is not modelled.  The `while True` loops take a number of rounds
as fuel: `none` means "still running after that many rounds".
-/
namespace Skyfield

variable {K : Type*} [Field K] [LinearOrder K] [FloorRing K]

/-- The exceptions raised while setting up a search. Used at skyfield/searchlib.py:20-43. -/
inductive SearchError
  | startNotBeforeEnd
  | noStepAttribute
  | negativeSampleCount
deriving DecidableEq, Repr

/-- A function given to a search, with its optional attributes. Used at skyfield/searchlib.py:20-43. -/
structure Searchable (K V : Type*) where
  call : K → V
  stepDays : Option K
  roughPeriod : Option K

/-- Consecutive pairs of a list: `zip(a[:-1], a[1:])`, which is what indexing with `indices` and
`indices + 1` pairs up — skyfield/searchlib.py:58-66. -/
def adjacent {α : Type*} (l : List α) : List (α × α) := l.zip l.tail

/-- `flatnonzero(diff(y))` together with `jd[indices]` and `jd[indices + 1]`: the consecutive samples at
which the function differs — skyfield/searchlib.py:58, 65-66. -/
def changes {V : Type*} [DecidableEq V] (f : K → V) (jd : List K) : List (K × K) :=
  (adjacent jd).filter fun p => f p.1 ≠ f p.2

/-- One row of `o(starts, start_mask) + o(ends, end_mask)` — skyfield/searchlib.py:50-51, 72. -/
def bracketPoints (num : ℕ) (b : K × K) : List K :=
  let endMask := npLinspace 0 1 num
  let startMask := endMask.reverse
  List.zipWith (fun u v => b.1 * u + b.2 * v) startMask endMask

/-- One turn of the `while` loop of `_find_discrete`: either the events found (time and value) or the
refined samples — skyfield/searchlib.py:54-72. -/
def discreteRound {V : Type*} [DecidableEq V] (f : K → V) (epsilon : K) (num : ℕ) (jd : List K) :
    List (K × V) ⊕ List K :=
  let brackets := changes f jd
  if brackets = [] then .inl []
  else if brackets.all fun b => b.2 - b.1 ≤ epsilon then .inl (brackets.map fun b => (b.2, f b.2))
  else .inr (brackets.flatMap (bracketPoints num))

/-- The `while True` loop of `_find_discrete` — skyfield/searchlib.py:48-74
(`_fix_numpy_deprecation` only relabels a dtype). -/
def discreteLoop {V : Type*} [DecidableEq V] (f : K → V) (epsilon : K) (num : ℕ) :
    ℕ → List K → Option (List (K × V))
  | 0, _ => none
  | fuel + 1, jd =>
    match discreteRound f epsilon num jd with
    | .inl events => some events
    | .inr jd' => discreteLoop f epsilon num fuel jd'

/-- The samples `find_discrete` starts from — skyfield/searchlib.py:20-43. -/
def discreteSamples {V : Type*} (jd0 jd1 : K) (f : Searchable K V) (num : ℕ) :
    Except SearchError (List K) :=
  if jd0 ≥ jd1 then .error .startNotBeforeEnd
  else
    let count : Except SearchError ℤ :=
      match f.stepDays with
      | none =>
        match f.roughPeriod with
        | none => .error .noStepAttribute
        | some roughPeriod =>
          let periods := (jd1 - jd0) / roughPeriod
          let periods := if periods < 1 then 1 else periods
          .ok (astypeInt (periods * num))
      | some stepDays => .ok (astypeInt ((jd1 - jd0) / stepDays) + 2)
    match count with
    | .error e => .error e
    | .ok n => if n < 0 then .error .negativeSampleCount else .ok (npLinspace jd0 jd1 n.toNat)

/-- `find_discrete` — skyfield/searchlib.py:12-44. -/
def findDiscrete {V : Type*} [DecidableEq V] (jd0 jd1 : K) (f : Searchable K V) (epsilon : K) (num : ℕ)
    (fuel : ℕ) : Except SearchError (Option (List (K × V))) :=
  match discreteSamples jd0 jd1 f num with
  | .error e => .error e
  | .ok jd => .ok (discreteLoop f.call epsilon num fuel jd)

/-! ### Maxima -/

/-- `numpy.diff`. Used at skyfield/searchlib.py:179, 188. -/
def npDiff {α : Type*} [Sub α] (l : List α) : List α := (adjacent l).map fun p => p.2 - p.1

/-- `numpy.sign`. Used at skyfield/searchlib.py:179, 188. -/
def npSign (x : K) : ℤ := if x < 0 then -1 else if 0 < x then 1 else 0

/-- `diff(sign(diff(y)))` — skyfield/searchlib.py:179, 188. -/
def diffSignDiff (y : List K) : List ℤ := npDiff ((npDiff y).map npSign)

/-- `flatnonzero(mask)` for the mask `p(entry)`. Used at skyfield/searchlib.py:177-184. -/
def flatnonzero {α : Type*} (l : List α) (p : α → Bool) : List ℕ :=
  (List.range l.length).filter fun i => (l[i]?).any p

/-- `_remove_adjacent_duplicates`: of each run of equal neighbours the last is kept —
skyfield/searchlib.py:213-218. -/
def removeAdjacentDuplicates {α : Type*} [DecidableEq α] : List α → List α
  | [] => []
  | [a] => [a]
  | a :: b :: rest =>
    if a ≠ b then a :: removeAdjacentDuplicates (b :: rest) else removeAdjacentDuplicates (b :: rest)

/-- `_choose_brackets`: the left indices; the right ones are one more — skyfield/searchlib.py:177-184. -/
def chooseBrackets (y : List K) : List ℕ :=
  let indices := flatnonzero (diffSignDiff y) (· < 0)
  removeAdjacentDuplicates (indices.flatMap fun i => [i, i + 1])

/-- The plateau part of `_identify_maxima`: pairs of indices `(plateau_left, plateau_right)` —
skyfield/searchlib.py:198-203. -/
def plateauIndices (dsd : List ℤ) : List (ℕ × ℕ) :=
  let indices := flatnonzero dsd (· ≠ 0)
  ((adjacent indices).filter fun p => dsd[p.1]? = some (-1) ∧ dsd[p.2]? = some (-1)).map
    fun p => (p.1, p.2 + 2)

/-- `_identify_maxima(x, y)` — skyfield/searchlib.py:186-211.  The samples are given as a list of
`(x, y)` pairs, and so are the maxima.  The final `argsort` is modelled as a stable sort on `x`. -/
def identifyMaxima (xy : List (K × K)) : List (K × K) :=
  let dsd := diffSignDiff (xy.map (·.2))
  let peaks := (flatnonzero dsd (· = -2)).filterMap fun i => xy[i + 1]?
  let plateaus := (plateauIndices dsd).filterMap fun p => do
    let l ← xy[p.1]?
    let r ← xy[p.2]?
    let m ← xy[p.1 + 1]?
    return ((l.1 + r.1) / 2, m.2)
  (peaks ++ plateaus).insertionSort fun a b => a.1 ≤ b.1

/-- Keep the first entry and every entry more than `epsilon` after the entry just before it —
skyfield/searchlib.py:152-155. -/
def dropClose (epsilon : K) : List (K × K) → List (K × K)
  | [] => []
  | p :: rest => p :: (adjacent (p :: rest)).filterMap fun q =>
      if q.2.1 - q.1.1 > epsilon then some q.2 else none

/-- One turn of the `while` loop of `find_maxima` — skyfield/searchlib.py:135-173.  With fewer than two
samples the code raises `IndexError` on `t[1]`: modelled by the outer `none`. -/
def maximaRound (f : K → K) (jd0 jd1 epsilon : K) (num : ℕ) (jd : List K) :
    Option (List (K × K) ⊕ List K) :=
  match jd with
  | a :: b :: _ =>
    if b - a ≤ epsilon then
      let found := identifyMaxima (jd.map fun x => (x, f x))
      let keepers := found.filter fun p => jd0 ≤ p.1 ∧ p.1 ≤ jd1
      some (.inl (dropClose epsilon keepers))
    else
      let left := chooseBrackets (jd.map f)
      if left = [] then some (.inl [])
      else
        let brackets := left.filterMap fun i =>
          jd[i]?.bind fun s => jd[i + 1]?.map fun e => (s, e)
        some (.inr (removeAdjacentDuplicates (brackets.flatMap (bracketPoints num))))
  | _ => none

/-- The loop; the outer `none` is "still running", the inner one an exception. Used at skyfield/searchlib.py:89-175. -/
def maximaLoop (f : K → K) (jd0 jd1 epsilon : K) (num : ℕ) :
    ℕ → List K → Option (Option (List (K × K)))
  | 0, _ => none
  | fuel + 1, jd =>
    match maximaRound f jd0 jd1 epsilon num jd with
    | none => some none
    | some (.inl found) => some (some found)
    | some (.inr jd') => maximaLoop f jd0 jd1 epsilon num fuel jd'

/-- The samples `find_maxima` starts from — skyfield/searchlib.py:102-129. -/
def maximaSamples (jd0 jd1 : K) (f : Searchable K K) (num : ℕ) : Except SearchError (List K) :=
  if jd0 ≥ jd1 then .error .startNotBeforeEnd
  else
    match f.stepDays with
    | none =>
      match f.roughPeriod with
      | none => .error .noStepAttribute
      | some roughPeriod =>
        let bump := roughPeriod / num
        let bumps := astypeInt ((jd1 - jd0) / bump) + 3
        if bumps < 0 then .error .negativeSampleCount
        else .ok (npLinspace (jd0 - bump) (jd1 + bump) bumps.toNat)
    | some stepDays =>
      let steps := astypeInt ((jd1 - jd0) / stepDays) + 3
      let realStep := (jd1 - jd0) / steps
      if steps + 2 < 0 then .error .negativeSampleCount
      else .ok (npLinspace (jd0 - realStep) (jd1 + realStep) (steps + 2).toNat)

/-- `find_maxima` — skyfield/searchlib.py:89-175. -/
def findMaxima (jd0 jd1 : K) (f : Searchable K K) (epsilon : K) (num : ℕ) (fuel : ℕ) :
    Except SearchError (Option (Option (List (K × K)))) :=
  match maximaSamples jd0 jd1 f num with
  | .error e => .error e
  | .ok jd => .ok (maximaLoop f.call jd0 jd1 epsilon num fuel jd)

/-- `find_minima` — skyfield/searchlib.py:76-87. -/
def findMinima (jd0 jd1 : K) (f : Searchable K K) (epsilon : K) (num : ℕ) (fuel : ℕ) :
    Except SearchError (Option (Option (List (K × K)))) :=
  let g : Searchable K K := ⟨fun t => -f.call t, f.stepDays, f.roughPeriod⟩
  match findMaxima jd0 jd1 g epsilon num fuel with
  | .error e => .error e
  | .ok r => .ok (r.map (·.map fun l => l.map fun p => (p.1, -p.2)))

end Skyfield
