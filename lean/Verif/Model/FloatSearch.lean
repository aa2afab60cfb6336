import Verif.Model.Search
import Verif.Model.FloatTime

/-
`find_discrete` of skyfield/searchlib.py once more, with the rounding of every floating point
operation written out as in `Model/FloatTime.lean`.
-/
namespace Skyfield

variable (fl : ℚ → ℚ)

/-- `numpy.linspace(start, stop, num)` on floats: multiples of the rounded step added to the start,
the last one replaced by `stop` when there are at least two.  NumPy is part of the trusted base; used
at skyfield/searchlib.py:43, 50. -/
def linspaceF (start stop : ℚ) (num : ℕ) : List ℚ :=
  let step := fl (fl (stop - start) / ((num : ℚ) - 1))
  (List.range num).map fun i : ℕ =>
    if i + 1 = num ∧ 1 < num then stop else fl (fl (i * step) + start)

/-- One row of `o(starts, start_mask) + o(ends, end_mask)` — skyfield/searchlib.py:50-52, 72. -/
def bracketPointsF (num : ℕ) (b : ℚ × ℚ) : List ℚ :=
  let endMask := linspaceF fl 0 1 num
  let startMask := endMask.reverse
  List.zipWith (fun u v => fl (fl (b.1 * u) + fl (b.2 * v))) startMask endMask

/-- One turn of the `while` loop of `_find_discrete` — skyfield/searchlib.py:54-72.  `f` is the
searched function of `ts.tt_jd(jd)`, whose whole and fraction add up to `jd` exactly. -/
def discreteRoundF {V : Type*} [DecidableEq V] (f : ℚ → V) (epsilon : ℚ) (num : ℕ) (jd : List ℚ) :
    List (ℚ × V) ⊕ List ℚ :=
  let brackets := changes f jd
  if brackets = [] then .inl []
  else if brackets.all fun b => fl (b.2 - b.1) ≤ epsilon then
    .inl (brackets.map fun b => (b.2, f b.2))
  else .inr (brackets.flatMap (bracketPointsF fl num))

/-- The `while True` loop of `_find_discrete` — skyfield/searchlib.py:48-74; `none` is "still
running after that many rounds". -/
def discreteLoopF {V : Type*} [DecidableEq V] (f : ℚ → V) (epsilon : ℚ) (num : ℕ) :
    ℕ → List ℚ → Option (List (ℚ × V))
  | 0, _ => none
  | fuel + 1, jd =>
    match discreteRoundF fl f epsilon num jd with
    | .inl events => some events
    | .inr jd' => discreteLoopF f epsilon num fuel jd'

/-- The number of samples `find_discrete` starts from — skyfield/searchlib.py:27-41. -/
def sampleCountF {V : Type*} (jd0 jd1 : ℚ) (f : Searchable ℚ V) (num : ℕ) : Except SearchError ℤ :=
  match f.stepDays with
  | none =>
    match f.roughPeriod with
    | none => .error .noStepAttribute
    | some roughPeriod =>
      let periods := fl (fl (jd1 - jd0) / roughPeriod)
      let periods := if periods < 1 then 1 else periods
      .ok (astypeInt (fl (periods * num)))
  | some stepDays => .ok (astypeInt (fl (fl (jd1 - jd0) / stepDays)) + 2)

/-- `find_discrete(start_time, end_time, f, epsilon, num)` — skyfield/searchlib.py:12-44; both dates
are read as one float, `t.tt`. -/
def findDiscreteF {V : Type*} [DecidableEq V] (start stop : Time ℚ) (f : Searchable ℚ V)
    (epsilon : ℚ) (num fuel : ℕ) : Except SearchError (Option (List (ℚ × V))) :=
  let jd0 := start.ttF fl
  let jd1 := stop.ttF fl
  if jd0 ≥ jd1 then .error .startNotBeforeEnd
  else
    match sampleCountF fl jd0 jd1 f num with
    | .error e => .error e
    | .ok n =>
      if n < 0 then .error .negativeSampleCount
      else .ok (discreteLoopF fl f.call epsilon num fuel (linspaceF fl jd0 jd1 n.toNat))

end Skyfield
