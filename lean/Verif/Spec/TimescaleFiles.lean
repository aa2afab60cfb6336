import Verif.Spec.Calendar
import Verif.Spec.DataFiles
import Mathlib.Algebra.Field.Defs

/-
The formats of the files that a timescale is built from, as their publishers describe them.  A file is a list of lines.
-/
namespace Spec

/-- A table in a text file: lines that hold a row each, among lines that are blank or comments. -/
inductive TextTable {α : Type} (Row : List Char → α → Prop) : List (List Char) → List α → Prop
  | nil : TextTable Row [] []
  | skip (gap rest : List Char) (lines : List (List Char)) (rows : List α) (h : ∀ c ∈ gap, Blank c) (hr : rest = [] ∨ rest.head? = some '#')
      (more : TextTable Row lines rows) : TextTable Row ((gap ++ rest) :: lines) rows
  | row (line : List Char) (r : α) (lines : List (List Char)) (rows : List α) (h : Row line r) (more : TextTable Row lines rows) :
      TextTable Row (line :: lines) (r :: rows)

/-- A line with these words and no comment. -/
def PlainWords (line : List Char) (ws : List (List Char)) : Prop := Words line ws ∧ '#' ∉ line

variable {K : Type} [Field K] (toInt : List Char → Option ℤ) (toNum : List Char → Option K)

/-- A line of `deltat.data`: year, month, day and Delta T.  The day is given by its number. -/
def DeltatDataLine (line : List Char) (r : ℤ × K) : Prop :=
  ∃ a b c e y m d, PlainWords line [a, b, c, e] ∧ toInt a = some y ∧ toInt b = some m ∧ toInt c = some d ∧ toNum e = some r.2 ∧ CivilDate none y m d r.1

/-- A line of the old `deltat.preds`: the year with its quarter as a decimal fraction, Delta T, and further columns.  The day is the first of the quarter. -/
def OldPredsLine (line : List Char) (r : ℤ × K) : Prop :=
  ∃ (a b : List Char) (others : List (List Char)) (year q : ℤ), PlainWords line (a :: b :: others) ∧ toNum a = some ((year : K) + (q : K) / 4) ∧ toNum b = some r.2 ∧ 0 ≤ year ∧ 0 ≤ q ∧ q < 4 ∧
    CivilDate none year (3 * q + 1) 1 r.1

/-- A line of the new `deltat.preds`, which begins with a column for the modified Julian day. -/
def NewPredsLine (line : List Char) (r : ℤ × K) : Prop :=
  ∃ (mjd a b : List Char) (others : List (List Char)) (year q : ℤ), PlainWords line (mjd :: a :: b :: others) ∧ toNum a = some ((year : K) + (q : K) / 4) ∧ toNum b = some r.2 ∧ 0 ≤ year ∧ 0 ≤ q ∧
    q < 4 ∧ CivilDate none year (3 * q + 1) 1 r.1

/-- The file `deltat.preds`: in the old format a header that begins with YEAR, a line that does not count, and the table; in the new one a
header and the table. -/
inductive PredsFile : List (List Char) → List (ℤ × K) → Prop
  | old (header line : List Char) (lines : List (List Char)) (rows : List (ℤ × K)) (h : "YEAR".toList <+: header)
      (table : TextTable (OldPredsLine toNum) lines rows) : PredsFile (header :: line :: lines) rows
  | new (header : List Char) (lines : List (List Char)) (rows : List (ℤ × K)) (h : ¬ "YEAR".toList <+: header)
      (table : TextTable (NewPredsLine toNum) lines rows) : PredsFile (header :: lines) rows

/-- A line of `Leap_Second.dat`: modified Julian day, day, month, year, and TAI-UTC from that day on. -/
def LeapLine (line : List Char) (r : K × K) : Prop :=
  ∃ a b c d e, PlainWords line [a, b, c, d, e] ∧ toNum a = some r.1 ∧ (toNum b).isSome ∧ (toNum c).isSome ∧ (toNum d).isSome ∧ toNum e = some r.2

/-- The months as they are written in the file. -/
def MonthName (i : ℕ) (name : String) : Prop :=
  ["January", "February", "March", "April", "May", "June", "July", "August", "September", "October", "November", "December"][i]? = some name

/-- The line of `Leap_Second.dat` that says until which day it holds: `#  File expires on 28 June 2026`. -/
def ExpiresLine (line : List Char) (day : ℤ) : Prop :=
  ∃ rest d name y i dn yn, line = "#  File expires on".toList ++ rest ∧ Words rest [d, String.toList name, y] ∧ (∃ c, rest.head? = some c ∧ Blank c) ∧
    (∃ c, rest.getLast? = some c ∧ Blank c) ∧ d.length ≤ 2 ∧ y.length = 4 ∧ (∀ c ∈ d, c.isDigit) ∧ (∀ c ∈ y, c.isDigit) ∧ toInt d = some dn ∧
    toInt y = some yn ∧ 1 ≤ yn ∧ MonthName i name ∧ CivilDate none yn (i + 1) dn day

/-- The file `Leap_Second.dat`: some lines, the one with the last day on which it holds, and the table. -/
def LeapFile (lines : List (List Char)) (day : ℤ) (rows : List (K × K)) : Prop :=
  ∃ before line table, lines = before ++ line :: table ∧ (∀ l ∈ before, ¬ "#  File expires on".toList <+: l) ∧ ExpiresLine toInt line day ∧
    TextTable (LeapLine toNum) table rows

end Spec
