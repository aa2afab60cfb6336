import Verif.Model.Utc
import Verif.Model.TimeArith
import Verif.Model.Rotations

/-
Polar motion: reading the IERS file, installing the table, interpolating the angles — skyfield/data/iers.py:13-35,
skyfield/timelib.py:885-899.  Exact arithmetic; a file is a list of lines, a line a list of characters.
-/
namespace Skyfield

/-- One piece of the regular expression `_R`: some arbitrary characters, a space, a captured group of arbitrary characters,
or a captured group whose second character is a digit — skyfield/data/iers.py:16-19. -/
inductive RegexPiece where
  | any (n : ℕ)
  | space
  | group (n : ℕ)
  | number (n : ℕ)

/-- `_R` after `(?m)^` — skyfield/data/iers.py:16-19. -/
def finalsRegex : List RegexPiece :=
  [.any 6, .group 9, .space, .any 1, .space,
   .number 9, .any 9, .space,
   .number 9, .any 9, .space, .space,
   .any 1, .number 10]

/-- Match the pieces at the start of a line and return the groups.  Every piece has a fixed width and none matches the end of a
line, so there is at most one match on each line, at its start. Used at skyfield/data/iers.py:21-27. -/
def matchPieces : List RegexPiece → List Char → Option (List (List Char))
  | [], _ => some []
  | .any n :: ps, l => if n ≤ l.length then matchPieces ps (l.drop n) else none
  | .space :: ps, l =>
    match l with
    | [] => none
    | c :: r => if c = ' ' then matchPieces ps r else none
  | .group n :: ps, l =>
    if n ≤ l.length then (matchPieces ps (l.drop n)).map (l.take n :: ·) else none
  | .number n :: ps, l =>
    if n ≤ l.length then
      match l[1]? with
      | none => none
      | some c => if c.isDigit then (matchPieces ps (l.drop n)).map (l.take n :: ·) else none
    else none

variable {K : Type*} [Field K] [LinearOrder K] [FloorRing K]

/-- A row of the array that `parse_x_y_dut1_from_finals_all` returns. Used at skyfield/data/iers.py:21-27. -/
structure FinalsRow (K : Type*) where
  utcMjd : K
  x : K
  y : K
  dut1 : K

/-- One row from the groups of a match; `none` is the ValueError of a field that is not a number.  `readFloat` is Python's
`float()`. Used at skyfield/data/iers.py:21-27. -/
def finalsRow (readFloat : List Char → Option K) : List (List Char) → Option (FinalsRow K)
  | [a, b, c, d] =>
    match readFloat a, readFloat b, readFloat c, readFloat d with
    | some a, some b, some c, some d => some ⟨a, b, c, d⟩
    | _, _, _, _ => none
  | _ => none

/-- `parse_x_y_dut1_from_finals_all` — skyfield/data/iers.py:21-27. -/
def parseFinalsAll (readFloat : List Char → Option K) (file : List (List Char)) : Option (List (FinalsRow K)) :=
  (file.filterMap (matchPieces finalsRegex)).mapM (finalsRow readFloat)

/-- `ts.polar_motion_table`: times in TT, and the angles. Used at skyfield/data/iers.py:29-35. -/
structure PolarTable (K : Type*) where
  tt : List K
  x : List K
  y : List K

/-- `install_polar_motion_table` — skyfield/data/iers.py:29-35; `none` is the exception of an empty leap second table. -/
def installPolarMotionTable (ts : Timescale K) (rows : List (FinalsRow K)) : Option (PolarTable K) :=
  match rows.mapM fun r => ts.utc 1858 11 (17 + r.utcMjd) 0 0 0 with
  | none => none
  | some t => some ⟨t.map Time.tt, rows.map (·.x), rows.map (·.y)⟩

/-- `Time.polar_motion_angles`: s', x, y in arcseconds — skyfield/timelib.py:885-891; the result `none` is the exception that
NumPy raises for an empty table. -/
noncomputable def polarMotionAngles (table : Option (PolarTable ℝ)) (tt tdb : ℝ) : Option (ℝ × ℝ × ℝ) :=
  match table with
  | none => some (0, 0, 0)
  | some p =>
    let sprime := -47.0e-6 * (tdb - t0) / 36525
    match interp tt p.tt p.x, interp tt p.tt p.y with
    | some x, some y => some (sprime, x, y)
    | _, _ => none

end Skyfield
