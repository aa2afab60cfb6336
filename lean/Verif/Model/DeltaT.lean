import Verif.Model.Basic

/-
Model of `curvelib.Splines`, `build_spline_given_ends`, `timelib.DeltaT` and
`timelib.build_delta_t`.  `K` is ℚ or ℝ.  A Splines table (a 2-d array whose columns are the pieces)
is modelled as the list of its columns.
-/
namespace Skyfield

variable {K : Type*} [Field K] [LinearOrder K] [FloorRing K]

/-- One column of a Splines table: ends, then the polynomial coefficients, highest power first
(`c0 :: cs`; there is at least one) — skyfield/curvelib.py:9-18. -/
structure Piece (K : Type*) where
  lower : K
  upper : K
  c0 : K
  cs : List K

/-- The Horner loop of `Splines.__call__` — skyfield/curvelib.py:24-29. -/
def horner (c0 : K) (cs : List K) (t : K) : K := cs.foldl (fun value c => value * t + c) c0

/-- Value of one column at `x` — skyfield/curvelib.py:23-29. -/
def Piece.eval (p : Piece K) (x : K) : K := horner p.c0 p.cs ((x - p.lower) / (p.upper - p.lower))

/-- `Splines.__call__` — skyfield/curvelib.py:20-29.  `none` is NumPy's error for an empty table. -/
def splinesCall (ps : List (Piece K)) (x : K) : Option K :=
  match interp x (ps.map (·.lower)) ((List.range ps.length).map fun i : ℕ => (i : K)) with
  | none => none
  | some i =>
    match ps[(astypeInt i).toNat]? with
    | none => none
    | some p => some (p.eval x)

/-- The coefficient list built in the loop of `Splines.derivative`, lines 34-37: the `i`th of `n`
coefficients (constant term already removed) is multiplied by `n - i` and divided by the width.
Used at skyfield/curvelib.py:31-38. -/
def derivCoeffs (width : K) : List K → List K
  | [] => []
  | c :: cs => ((cs.length + 1 : ℕ) : K) * c / width :: derivCoeffs width cs

/-- One column of `Splines.derivative` — skyfield/curvelib.py:31-38; `none` if the column has only a
constant term (the code's derivative table then has no coefficient rows). -/
def Piece.derivative (p : Piece K) : Option (Piece K) :=
  match derivCoeffs (p.upper - p.lower) ((p.c0 :: p.cs).dropLast) with
  | [] => none
  | c :: cs => some ⟨p.lower, p.upper, c, cs⟩

/-- `Splines.derivative` — skyfield/curvelib.py:31-38. -/
def splinesDerivative (ps : List (Piece K)) : Option (List (Piece K)) := ps.mapM Piece.derivative

/-- `build_spline_given_ends` — skyfield/curvelib.py:40-48. -/
def buildSplineGivenEnds (x0 y0 slope0 x1 y1 slope1 : K) : Piece K :=
  let width := x1 - x0
  let slope0 := slope0 * width
  let slope1 := slope1 * width
  let a0 := y0
  let a1 := slope0
  let a2 := -2*slope0 - slope1 - 3*y0 + 3*y1
  let a3 := slope0 + slope1 + 2*y0 - 2*y1
  ⟨x0, x1, a3, [a2, a1, a0]⟩

/-- `interp(x, xp, fp, nan, nan)`; the inner `none` is `nan`, the outer one NumPy's error.
Used at skyfield/timelib.py:1075-1086. -/
def interpNan (x : K) (xp fp : List K) : Option (Option K) :=
  match xp.zip fp with
  | [] => none
  | p :: rest =>
    if x < p.1 then some none
    else if ((p :: rest).getLast (by simp)).1 < x then some none
    else some (some (interpGo p rest x))

/-- `DeltaT` objects — skyfield/timelib.py:1069-1073. -/
structure DeltaT (K : Type*) where
  tableTt : List K
  tableDeltaT : List K
  longTerm : List (Piece K)

/-- Terrestrial Time as a Julian year — skyfield/timelib.py:1080, 1084, 1137, 1152. -/
def ttToJ (tt : K) : K := (tt - 1721045) / (36525 / 100)

/-- `DeltaT.__call__` — skyfield/timelib.py:1075-1086 (scalar branch; the array branch does the same
for each element). -/
def DeltaT.call (d : DeltaT K) (tt : K) : Option K :=
  match interpNan tt d.tableTt d.tableDeltaT with
  | none => none
  | some (some v) => some v
  | some none => splinesCall d.longTerm (ttToJ tt)

/-- `delta_t_parabola_stephenson_morrison_hohenkerk_2016` — skyfield/timelib.py:1088-1089. -/
def parabola2016 : Piece K := ⟨1825, 1925, 0, [325 / 10, 0, -320]⟩

/-- `searchsorted(a, x)` (side left) on a sorted list: how many entries are below `x`.
Used at skyfield/timelib.py:1094-1174. -/
def searchsortedLeft (a : List K) (x : K) : ℕ := (a.filter (· < x)).length

/-- `searchsorted(a, x, 'right')` on a sorted list: how many entries are at or below `x`.
Used at skyfield/constellationlib.py:58-63. -/
def searchsortedRight (a : List K) (x : K) : ℕ := (a.filter (· ≤ x)).length

/-- The slope given to the right-hand patch — skyfield/timelib.py:1156-1157.
`table_delta_t[-lookback]` is entry `len - lookback`. -/
def recentSlope (tableDt : List K) : Option K := do
  let lookback := min 366 tableDt.length
  let last ← tableDt.getLast?
  let back ← tableDt[tableDt.length - lookback]?
  return (last - back) * (lookback : K) / 365

/-- `build_delta_t(delta_t_recent)` — skyfield/timelib.py:1094-1174; the bundled spline table
`Table-S15.2020.txt` is the argument `s15`.  `none` stands for the exceptions raised on empty tables
or when the daily table starts before the splines do. -/
def buildDeltaT (s15 : List (Piece K)) (tableTt tableDt : List K) : Option (DeltaT K) := do
  let p : List (Piece K) := [parabola2016]
  let pd ← splinesDerivative p
  let sd ← splinesDerivative s15
  let longTermParabolaWidth : K := 1925 - 1825
  let patchWidth : K := 800
  -- left
  let first ← s15.head?
  let x1 := first.lower
  let x0 := x1 - patchWidth
  let left := buildSplineGivenEnds x0 (← splinesCall p x0) (← splinesCall pd x0)
    x1 (← splinesCall s15 x1) (← splinesCall sd x1)
  -- far left
  let x1 := x0
  let x0 := x1 - longTermParabolaWidth
  let farLeft := buildSplineGivenEnds x0 (← splinesCall p x0) (← splinesCall pd x0)
    x1 (← splinesCall p x1) (← splinesCall pd x1)
  -- truncate and adjust
  let x := ttToJ (← tableTt.head?)
  let i := searchsortedLeft (s15.map (·.lower)) x
  let cut := s15.take i
  let desiredY ← tableDt.head?
  let currentY ← splinesCall s15 x
  let last ← cut.getLast?
  let adjusted ← match last.cs with
    | [a2, a1, a0] =>
      let t := (x - last.lower) / (last.upper - last.lower)
      some (⟨last.lower, last.upper, last.c0, [a2, a1 + (desiredY - currentY) / t, a0]⟩ : Piece K)
    | _ => none
  -- right
  let x0 := ttToJ (← tableTt.getLast?)
  let x1 := pyFloorDiv (x0 + patchWidth) 100 * 100
  let y0 ← tableDt.getLast?
  let slope ← recentSlope tableDt
  let right := buildSplineGivenEnds x0 y0 slope x1 (← splinesCall p x1) (← splinesCall pd x1)
  -- far right
  let x0 := x1
  let x1 := x0 + longTermParabolaWidth
  let farRight := buildSplineGivenEnds x0 (← splinesCall p x0) (← splinesCall pd x0)
    x1 (← splinesCall p x1) (← splinesCall pd x1)
  return ⟨tableTt, tableDt, farLeft :: left :: (cut.dropLast ++ [adjusted] ++ [right, farRight])⟩

end Skyfield
