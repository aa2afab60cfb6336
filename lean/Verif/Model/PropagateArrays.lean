import Verif.Model.ElementArrays
import Verif.Model.Propagate

/-
`propagate` and `stumpff` on arrays of times — skyfield/keplerlib.py:395-615.  Exact real arithmetic, one orbit, any number of
times; a two-dimensional array of one row is the list of its entries.  (With one orbit the `repeat(…, orb_ind)` of lines 519
and 553 only stretches the constants of that orbit to the number of entries.)
-/
namespace Skyfield
namespace ArrayBranch
open Real Classical

/-- `m | n` for masks. Used at skyfield/keplerlib.py:395-433. -/
def maskOr (m n : List Bool) : List Bool := List.zipWith (· || ·) m n
/-- A comparison of two arrays. Used at skyfield/keplerlib.py:546-558. -/
noncomputable def mask2 {α β : Type*} (xs : List α) (ys : List β) (p : α → β → Prop) : List Bool :=
  List.zipWith (fun x y => decide (p x y)) xs ys
/-- `(…).any()`. Used at skyfield/keplerlib.py:395-433. -/
def anyOf (m : List Bool) : Bool := m.any id

/-- What `stumpff` returns for an array: four arrays. Used at skyfield/keplerlib.py:395-433. -/
structure StumpffColumns where
  c0 : List ℝ
  c1 : List ℝ
  c2 : List ℝ
  c3 : List ℝ

/-- `stumpff` — skyfield/keplerlib.py:395-433; the overflow check of lines 401-402 is left out. -/
noncomputable def stumpffColumns (x : List ℝ) : StumpffColumns :=
  let z := x.map fun x => √|x|
  let c0 := zeros x
  let c1 := zeros x
  let c2 := zeros x
  let c3 := zeros x
  let low := mask x (· < -1)
  let c0 := put c0 low ((pick low z).map cosh)
  let c1 := put c1 low (List.zipWith (· / ·) ((pick low z).map sinh) (pick low z))
  let high := mask x (· > 1)
  let c0 := put c0 high ((pick high z).map cos)
  let c1 := put c1 high (List.zipWith (· / ·) ((pick high z).map sin) (pick high z))
  let mid := maskNot (maskOr low high)
  let series (k : ℕ) (x : ℝ) : ℝ :=
    ∑ j ∈ Finset.range stumpffTerms, (if j % 2 = 1 then x * -1 else x) ^ j / ((2 * j + k).factorial : ℝ)
  let (c0, c1, c2, c3) :=
    if anyOf mid then
      let c3 := put c3 mid ((pick mid x).map (series 3))
      let c2 := put c2 mid ((pick mid x).map (series 2))
      let c1 := put c1 mid (List.zipWith (fun x c => 1 - x * c) (pick mid x) (pick mid c3))
      let c0 := put c0 mid (List.zipWith (fun x c => 1 - x * c) (pick mid x) (pick mid c2))
      (c0, c1, c2, c3)
    else (c0, c1, c2, c3)
  let notMid := maskNot mid
  let c2 := put c2 notMid (List.zipWith (fun c x => (1 - c) / x) (pick notMid c0) (pick notMid x))
  let c3 := put c3 notMid (List.zipWith (fun c x => (1 - c) / x) (pick notMid c1) (pick notMid x))
  ⟨c0, c1, c2, c3⟩

/-- The arrays that the doubling loops change. Used at skyfield/keplerlib.py:546-558. -/
structure BracketColumns where
  lower : List ℝ
  upper : List ℝ
  x : List ℝ
  kfun : List ℝ

/-- `clip(v, -bound, bound)`. Used at skyfield/keplerlib.py:546-558. -/
noncomputable def clipTo (bound v : ℝ) : ℝ := min (max v (-bound)) bound

/-- The first doubling loop — skyfield/keplerlib.py:546-558.  `k` is `kepler`; `none` is `ValueError`, and as `fuel` runs
out the model gives up. -/
noncomputable def doublePast (k : ℝ → ℝ) (bound : ℝ) (dt : List ℝ) (past : List Bool) : ℕ → BracketColumns → Option BracketColumns
  | 0, _ => none
  | fuel + 1, s =>
    if anyOf (mask2 (pick past s.kfun) (pick past dt) (· > ·)) then
      let upper := npWhere past s.lower s.upper
      let lower := put s.lower past ((pick past s.lower).map (· * 2))
      let oldx := s.x
      let x := put s.x past ((pick past lower).map (clipTo bound))
      if anyOf (mask2 (pick past x) (pick past oldx) (· = ·)) then none
      else doublePast k bound dt past fuel ⟨lower, upper, x, put s.kfun past ((pick past x).map k)⟩
    else some s

/-- The second doubling loop — skyfield/keplerlib.py:560-572. -/
noncomputable def doubleFuture (k : ℝ → ℝ) (bound : ℝ) (dt : List ℝ) (future : List Bool) :
    ℕ → BracketColumns → Option BracketColumns
  | 0, _ => none
  | fuel + 1, s =>
    if anyOf (mask2 (pick future s.kfun) (pick future dt) (· < ·)) then
      let lower := npWhere future s.upper s.lower
      let upper := put s.upper future ((pick future s.upper).map (· * 2))
      let oldx := s.x
      let x := put s.x future ((pick future upper).map (clipTo bound))
      if anyOf (mask2 (pick future x) (pick future oldx) (· = ·)) then none
      else doubleFuture k bound dt future fuel ⟨lower, upper, x, put s.kfun future ((pick future x).map k)⟩
    else some s

/-- The arrays that the bisection loop changes. Used at skyfield/keplerlib.py:579 and 600. -/
structure BisectColumns where
  lower : List ℝ
  upper : List ℝ
  x : List ℝ
  kfun : List ℝ
  lcount : List ℕ
  mostc : List ℕ

/-- `not_done` — skyfield/keplerlib.py:579 and 600 (at first all counts are 0 and all limits 1000). -/
noncomputable def BisectColumns.notDone (s : BisectColumns) : List Bool :=
  maskAnd (maskAnd (mask2 s.lower s.x (· < ·)) (mask2 s.x s.upper (· < ·))) (mask2 s.lcount s.mostc (· < ·))

/-- One round of the bisection loop — skyfield/keplerlib.py:581-599. -/
noncomputable def BisectColumns.round (k : ℝ → ℝ) (dt : List ℝ) (s : BisectColumns) : BisectColumns :=
  let notDone := s.notDone
  let kfun := put s.kfun notDone ((pick notDone s.x).map k)
  let high := maskAnd (mask2 kfun dt (· > ·)) notDone
  let low := maskAnd (mask2 kfun dt (· < ·)) notDone
  let same := maskAnd (maskAnd (maskNot high) (maskNot low)) notDone
  let upper := npWhere (maskOr high same) s.x s.upper
  let lower := npWhere (maskOr low same) s.x s.lower
  let condition := maskAnd (maskAnd (maskAnd notDone (mask s.mostc (· > 64))) (mask upper (· ≠ 0))) (mask lower (· ≠ 0))
  let mostc := put s.mostc condition ((pick condition s.mostc).map fun _ => 64)
  let lcount := put s.lcount condition ((pick condition s.lcount).map fun _ => 0)
  let x := npWhere (maskAnd notDone (mask2 lower upper (· > ·))) upper s.x
  let x := npWhere (maskAnd notDone (mask2 lower upper (· ≤ ·))) (List.zipWith (fun u l => (u + l) / 2) upper lower) x
  ⟨lower, upper, x, kfun, lcount.map (· + 1), mostc⟩

/-- The bisection loop — skyfield/keplerlib.py:581-600; it goes on until every entry is done. -/
noncomputable def bisectMany (k : ℝ → ℝ) (dt : List ℝ) : ℕ → BisectColumns → List ℝ
  | 0, s => s.x
  | fuel + 1, s => if anyOf s.notDone then bisectMany k dt fuel (s.round k dt) else s.x

/-- The universal variables that `propagate` settles on — skyfield/keplerlib.py:528-600. -/
noncomputable def solveMany (k : ℝ → ℝ) (bq bound : ℝ) (dt : List ℝ) : Option (List ℝ) :=
  let x := dt.map (· / bq)
  let x := npWhere (mask x (· < -bound)) (x.map fun _ => -bound) x
  let x := npWhere (mask x (· > bound)) (x.map fun _ => bound) x
  let kfun := x.map k
  let past := mask dt (· < 0)
  let future := mask dt (· > 0)
  let lower := npWhere past x (zeros dt)
  let upper := npWhere future x (zeros dt)
  (doublePast k bound dt past 1100 ⟨lower, upper, x, kfun⟩).bind fun s =>
    (doubleFuture k bound dt future 1100 s).map fun s =>
      let x := npWhere (mask2 s.lower s.upper (· ≤ ·)) (List.zipWith (fun u l => (u + l) / 2) s.upper s.lower) s.upper
      bisectMany k dt 1100 ⟨s.lower, s.upper, x, s.kfun, dt.map fun _ => 0, dt.map fun _ => 1000⟩

/-- `propagate` — skyfield/keplerlib.py:435-615, for one orbit and an array of times; `none` is `ValueError`. -/
noncomputable def propagateMany (bound : ℝ) (position velocity : Vec3) (t0 : ℝ) (t1 : List ℝ) (gm : ℝ) :
    Option (List (Vec3 × Vec3)) :=
  if gm ≤ 0 then none
  else if velocity.length = 0 then none
  else if position.length = 0 then none
  else if (position.cross velocity).dot (position.cross velocity) = 0 then none
  else
    let o := orbitConstants position velocity gm
    let dt := t1.map fun t => t - t0
    (solveMany (keplerFn o) o.bq bound dt).map fun x => List.zipWith (fun dt x => stateAt o position velocity dt x) dt x

end ArrayBranch
end Skyfield
