import Verif.Model.FloatSearch

/-
`find_maxima` and `find_minima` of skyfield/searchlib.py once more, with the rounding of every floating point operation written out as
in `Model/FloatTime.lean`.  The searched function is a function of the TT Julian date, as in `Model/Search.lean`.
-/
namespace Skyfield

variable (fl : ℚ → ℚ)

/-- `t[1] - t[0]` for `t = ts.tt_jd(jd)` — skyfield/searchlib.py:142 with skyfield/timelib.py:317, 935-938, 1213: each date is split
into a whole number of days and the rest, and both are subtracted apart. -/
def sampleDiffF (a b : ℚ) : ℚ :=
  let p := divmodF fl b 1
  let q := divmodF fl a 1
  fl (fl (p.1 - q.1) + fl (p.2 - q.2))

/-- `diff(sign(diff(y)))` — skyfield/searchlib.py:179, 188.  The signs are small whole numbers, so their differences are exact. -/
def diffSignDiffF (y : List ℚ) : List ℤ := npDiff ((npDiff y).map fun d => npSign (fl d))

/-- `_choose_brackets`: the left indices; the right ones are one more — skyfield/searchlib.py:177-184. -/
def chooseBracketsF (y : List ℚ) : List ℕ :=
  let indices := flatnonzero (diffSignDiffF fl y) (· < 0)
  removeAdjacentDuplicates (indices.flatMap fun i => [i, i + 1])

/-- `_identify_maxima(x, y)` — skyfield/searchlib.py:186-211. -/
def identifyMaximaF (xy : List (ℚ × ℚ)) : List (ℚ × ℚ) :=
  let dsd := diffSignDiffF fl (xy.map (·.2))
  let peaks := (flatnonzero dsd (· = -2)).filterMap fun i => xy[i + 1]?
  let plateaus := (plateauIndices dsd).filterMap fun p => do
    let l ← xy[p.1]?
    let r ← xy[p.2]?
    let m ← xy[p.1 + 1]?
    return (fl (fl (l.1 + r.1) / 2), m.2)
  (peaks ++ plateaus).insertionSort fun a b => a.1 ≤ b.1

/-- Keep the first entry and every entry more than `epsilon` after the entry just before it — skyfield/searchlib.py:152-155. -/
def dropCloseF (epsilon : ℚ) : List (ℚ × ℚ) → List (ℚ × ℚ)
  | [] => []
  | p :: rest => p :: (adjacent (p :: rest)).filterMap fun q =>
      if fl (q.2.1 - q.1.1) > epsilon then some q.2 else none

/-- One turn of the `while` loop of `find_maxima` — skyfield/searchlib.py:135-173.  The outer `none` is the `IndexError` on `t[1]`
with fewer than two samples. -/
def maximaRoundF (f : ℚ → ℚ) (jd0 jd1 epsilon : ℚ) (num : ℕ) (jd : List ℚ) : Option (List (ℚ × ℚ) ⊕ List ℚ) :=
  match jd with
  | a :: b :: _ =>
    if sampleDiffF fl a b ≤ epsilon then
      let found := identifyMaximaF fl (jd.map fun x => (x, f x))
      let keepers := found.filter fun p => jd0 ≤ p.1 ∧ p.1 ≤ jd1
      some (.inl (dropCloseF fl epsilon keepers))
    else
      let left := chooseBracketsF fl (jd.map f)
      if left = [] then some (.inl [])
      else
        let brackets := left.filterMap fun i =>
          jd[i]?.bind fun s => jd[i + 1]?.map fun e => (s, e)
        some (.inr (removeAdjacentDuplicates (brackets.flatMap (bracketPointsF fl num))))
  | _ => none

/-- The loop; the outer `none` is "still running", the inner one an exception. Used at skyfield/searchlib.py:89-175. -/
def maximaLoopF (f : ℚ → ℚ) (jd0 jd1 epsilon : ℚ) (num : ℕ) : ℕ → List ℚ → Option (Option (List (ℚ × ℚ)))
  | 0, _ => none
  | fuel + 1, jd =>
    match maximaRoundF fl f jd0 jd1 epsilon num jd with
    | none => some none
    | some (.inl found) => some (some found)
    | some (.inr jd') => maximaLoopF f jd0 jd1 epsilon num fuel jd'

/-- The samples `find_maxima` starts from — skyfield/searchlib.py:102-129. -/
def maximaSamplesF (jd0 jd1 : ℚ) (f : Searchable ℚ ℚ) (num : ℕ) : Except SearchError (List ℚ) :=
  if jd0 ≥ jd1 then .error .startNotBeforeEnd
  else
    match f.stepDays with
    | none =>
      match f.roughPeriod with
      | none => .error .noStepAttribute
      | some roughPeriod =>
        let bump := fl (roughPeriod / num)
        let bumps := astypeInt (fl (fl (jd1 - jd0) / bump)) + 3
        if bumps < 0 then .error .negativeSampleCount
        else .ok (linspaceF fl (fl (jd0 - bump)) (fl (jd1 + bump)) bumps.toNat)
    | some stepDays =>
      let steps := astypeInt (fl (fl (jd1 - jd0) / stepDays)) + 3
      let realStep := fl (fl (jd1 - jd0) / steps)
      if steps + 2 < 0 then .error .negativeSampleCount
      else .ok (linspaceF fl (fl (jd0 - realStep)) (fl (jd1 + realStep)) (steps + 2).toNat)

/-- `find_maxima(start_time, end_time, f, epsilon, num)` — skyfield/searchlib.py:89-175; both dates are read as one float, `t.tt`. -/
def findMaximaF (start stop : Time ℚ) (f : Searchable ℚ ℚ) (epsilon : ℚ) (num fuel : ℕ) :
    Except SearchError (Option (Option (List (ℚ × ℚ)))) :=
  match maximaSamplesF fl (start.ttF fl) (stop.ttF fl) f num with
  | .error e => .error e
  | .ok jd => .ok (maximaLoopF fl f.call (start.ttF fl) (stop.ttF fl) epsilon num fuel jd)

/-- `find_minima` — skyfield/searchlib.py:76-87; turning a sign is exact. -/
def findMinimaF (start stop : Time ℚ) (f : Searchable ℚ ℚ) (epsilon : ℚ) (num fuel : ℕ) :
    Except SearchError (Option (Option (List (ℚ × ℚ)))) :=
  let g : Searchable ℚ ℚ := ⟨fun t => -f.call t, f.stepDays, f.roughPeriod⟩
  match findMaximaF fl start stop g epsilon num fuel with
  | .error e => .error e
  | .ok r => .ok (r.map (·.map fun l => l.map fun p => (p.1, -p.2)))

end Skyfield
