import Verif.Model.Kepler
import Mathlib.Analysis.SpecialFunctions.Trigonometric.DerivHyp
import Mathlib.Analysis.SpecialFunctions.Log.Basic
import Mathlib.Algebra.BigOperators.Group.Finset.Basic

/-
Two-body propagation — skyfield/keplerlib.py:377-615.  Exact real arithmetic; one orbit and one time (arrays of
times are in `Model/PropagateArrays.lean`).
-/
namespace Skyfield
open Real

/-! ### Stumpff functions -/

/-- What `stumpff` returns. Used at skyfield/keplerlib.py:395-433. -/
structure Stumpff where
  c0 : ℝ
  c1 : ℝ
  c2 : ℝ
  c3 : ℝ

/-- `trunc - 1` — skyfield/keplerlib.py:377-391.  `find_trunc` counts until 1 + 1/(2k)! rounds to 1 in double precision,
which happens at 20!, so `trunc` is 10. -/
def stumpffTerms : ℕ := 9

/-- `stumpff` — skyfield/keplerlib.py:395-433, for one number; the overflow check of lines 401-402 is left out. -/
noncomputable def stumpffCode (x : ℝ) : Stumpff :=
  open Classical in
  let z := √|x|
  if x < -1 then
    let c0 := cosh z
    let c1 := sinh z / z
    ⟨c0, c1, (1 - c0) / x, (1 - c1) / x⟩
  else if x > 1 then
    let c0 := cos z
    let c1 := sin z / z
    ⟨c0, c1, (1 - c0) / x, (1 - c1) / x⟩
  else
    let c3 := ∑ j ∈ Finset.range stumpffTerms, (if j % 2 = 1 then x * -1 else x) ^ j / ((2 * j + 3).factorial : ℝ)
    let c2 := ∑ j ∈ Finset.range stumpffTerms, (if j % 2 = 1 then x * -1 else x) ^ j / ((2 * j + 2).factorial : ℝ)
    ⟨1 - x * c2, 1 - x * c3, c2, c3⟩

/-- The functions that `stumpff` computes to double precision: the closed forms for every argument.  This is the
idealisation used for `propagate` below; `C45_stumpff` bounds its distance from `stumpffCode`.
Used at skyfield/keplerlib.py:514-516. -/
noncomputable def stumpff (x : ℝ) : Stumpff :=
  open Classical in
  let z := √|x|
  if x < 0 then
    let c0 := cosh z
    let c1 := sinh z / z
    ⟨c0, c1, (1 - c0) / x, (1 - c1) / x⟩
  else if x > 0 then
    let c0 := cos z
    let c1 := sin z / z
    ⟨c0, c1, (1 - c0) / x, (1 - c1) / x⟩
  else ⟨1, 1, 1 / 2, 1 / 6⟩

/-! ### Constants of the orbit -/

/-- The quantities computed from the starting state — skyfield/keplerlib.py:469-488. -/
structure OrbitConstants where
  f : ℝ
  b : ℝ
  br0 : ℝ
  b2rv : ℝ
  bq : ℝ
  qovr0 : ℝ

/-- skyfield/keplerlib.py:469-488. -/
noncomputable def orbitConstants (position velocity : Vec3) (gm : ℝ) : OrbitConstants :=
  let r0 := position.length
  let rv := position.dot velocity
  let hvec := position.cross velocity
  let h2 := hvec.dot hvec
  let eqvec := (1 / gm) • velocity.cross hvec + (1 / r0) • (-position)
  let e := eqvec.length
  let q := h2 / (gm * (1 + e))
  let f := 1 - e
  let b := √(q / gm)
  ⟨f, b, b * r0, b * b * rv, b * q, q / r0⟩

/-- `kepler` — skyfield/keplerlib.py:514-516: the time since the epoch as a function of the universal variable. -/
noncomputable def keplerFn (o : OrbitConstants) (x : ℝ) : ℝ :=
  let c := stumpff (o.f * x * x)
  x * (o.br0 * c.c1 + x * (o.b2rv * c.c2 + x * o.bq * c.c3))

/-- `br` — skyfield/keplerlib.py:603. -/
noncomputable def brFn (o : OrbitConstants) (x : ℝ) : ℝ :=
  let c := stumpff (o.f * x * x)
  o.br0 * c.c0 + x * (o.b2rv * c.c1 + x * o.bq * c.c2)

/-- The state for a value of the universal variable — skyfield/keplerlib.py:602-611. -/
noncomputable def stateAt (o : OrbitConstants) (position velocity : Vec3) (dt x : ℝ) : Vec3 × Vec3 :=
  let c := stumpff (o.f * x * x)
  let br := brFn o x
  let pc := 1 - o.qovr0 * x * x * c.c2
  let vc := dt - o.bq * x ^ 3 * c.c3
  let pcdot := -o.qovr0 / br * x * c.c1
  let vcdot := 1 - o.bq / br * x * x * c.c2
  (pc • position + vc • velocity, pcdot • position + vcdot • velocity)

/-! ### Solving for the universal variable -/

/-- The bisection loop — skyfield/keplerlib.py:577-600.  `k` is `kepler`; `fuel` bounds the recursion (the code's counter
stops it after at most 1064 rounds). -/
noncomputable def bisectLoop (k : ℝ → ℝ) (dt : ℝ) : ℕ → (lower upper x : ℝ) → (lcount mostc : ℕ) → ℝ
  | 0, _, _, x, _, _ => x
  | fuel + 1, lower, upper, x, lcount, mostc =>
    open Classical in
    if ¬ (lower < x ∧ x < upper ∧ lcount < mostc) then x
    else
      let high := k x > dt
      let low := k x < dt
      let same := ¬ high ∧ ¬ low
      let upper' := if high ∨ same then x else upper
      let lower' := if low ∨ same then x else lower
      let condition := mostc > 64 ∧ upper' ≠ 0 ∧ lower' ≠ 0
      let mostc' := if condition then 64 else mostc
      let lcount' := if condition then 0 else lcount
      let x' := if lower' > upper' then upper' else (upper' + lower') / 2
      bisectLoop k dt fuel lower' upper' x' (lcount' + 1) mostc'

/-- The first doubling loop — skyfield/keplerlib.py:546-558; `bound` is the limit of line 501 or 504.  `none` is `ValueError`.  A round of a doubling loop happens only if the first guess does not reach
`dt`; as `fuel` runs out the model gives up (`none`). -/
noncomputable def bracketPast (k : ℝ → ℝ) (dt bound : ℝ) : ℕ → (lower upper x : ℝ) → Option (ℝ × ℝ)
  | 0, _, _, _ => none
  | fuel + 1, lower, upper, x =>
    open Classical in
    if k x > dt then
      let upper' := lower
      let lower' := lower * 2
      let x' := min (max lower' (-bound)) bound
      if x' = x then none else bracketPast k dt bound fuel lower' upper' x'
    else some (lower, upper)

/-- The second doubling loop — skyfield/keplerlib.py:560-572. -/
noncomputable def bracketFuture (k : ℝ → ℝ) (dt bound : ℝ) : ℕ → (lower upper x : ℝ) → Option (ℝ × ℝ)
  | 0, _, _, _ => none
  | fuel + 1, lower, upper, x =>
    open Classical in
    if k x < dt then
      let lower' := upper
      let upper' := upper * 2
      let x' := min (max upper' (-bound)) bound
      if x' = x then none else bracketFuture k dt bound fuel lower' upper' x'
    else some (lower, upper)

/-- The universal variable that `propagate` settles on — skyfield/keplerlib.py:528-600. -/
noncomputable def solveKepler (k : ℝ → ℝ) (bq bound dt : ℝ) : Option ℝ :=
  open Classical in
  let x := dt / bq
  let x := if x < -bound then -bound else x
  let x := if x > bound then bound else x
  let bracket :=
    if dt < 0 then bracketPast k dt bound 1100 x 0 x
    else if dt > 0 then bracketFuture k dt bound 1100 0 x x
    else some (0, 0)
  bracket.map fun (lower, upper) =>
    let x := if lower ≤ upper then (upper + lower) / 2 else upper
    bisectLoop k dt 1100 lower upper x 0 1000

/-- `propagate` — skyfield/keplerlib.py:435-615, for one orbit and one time; `none` is `ValueError`.  The limit on the
universal variable (lines 490-504, there to avoid overflow) is a parameter. -/
noncomputable def propagate (bound : ℝ) (position velocity : Vec3) (t0 t1 gm : ℝ) : Option (Vec3 × Vec3) :=
  open Classical in
  if gm ≤ 0 then none
  else if velocity.length = 0 then none
  else if position.length = 0 then none
  else if (position.cross velocity).dot (position.cross velocity) = 0 then none
  else
    let o := orbitConstants position velocity gm
    let dt := t1 - t0
    (solveKepler (keplerFn o) o.bq bound dt).map fun x => stateAt o position velocity dt x

end Skyfield
