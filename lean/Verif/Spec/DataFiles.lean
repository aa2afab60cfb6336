import Mathlib.Data.Int.Notation
import Mathlib.Data.List.Forall2

/-
The formats of the data files, as their publishers describe them.
-/
namespace Spec

/-- The blank characters of ASCII. -/
def Blank (c : Char) : Prop := c = ' ' ∨ c = '\t' ∨ c = '\n' ∨ c = '\r' ∨ c = '\x0b' ∨ c = '\x0c'

/-- A line consists of these words, with blanks between them and perhaps at its ends. -/
inductive Words : List Char → List (List Char) → Prop
  | done (gap : List Char) (h : ∀ c ∈ gap, Blank c) : Words gap []
  | word (gap w rest : List Char) (ws : List (List Char)) (h : ∀ c ∈ gap, Blank c) (hw : w ≠ []) (hc : ∀ c ∈ w, ¬ Blank c)
      (hr : rest = [] ∨ ∃ c r, rest = c :: r ∧ Blank c) (more : Words rest ws) : Words (gap ++ w ++ rest) (w :: ws)

/-- Words that are numbers, taken two at a time. -/
inductive NumberPairs (toInt : List Char → Option ℤ) : List (List Char) → List (ℤ × ℤ) → Prop
  | nil : NumberPairs toInt [] []
  | cons (a b : List Char) (x y : ℤ) (ws : List (List Char)) (ps : List (ℤ × ℤ)) (ha : toInt a = some x) (hb : toInt b = some y)
      (more : NumberPairs toInt ws ps) : NumberPairs toInt (a :: b :: ws) ((x, y) :: ps)

/-- A line of Stellarium's `constellationship.fab`: a comment, an empty line, or a name, a count, and the stars of the lines to draw. -/
inductive ConstellationLine (toInt : List Char → Option ℤ) : List Char → Option (List Char × List (ℤ × ℤ)) → Prop
  | comment (gap rest : List Char) (h : ∀ c ∈ gap, Blank c) : ConstellationLine toInt (gap ++ '#' :: rest) none
  | empty (line : List Char) (h : ∀ c ∈ line, Blank c) : ConstellationLine toInt line none
  | figure (line name count : List Char) (stars : List (List Char)) (edges : List (ℤ × ℤ)) (h : Words line (name :: count :: stars))
      (hn : name.head? ≠ some '#') (he : NumberPairs toInt stars edges) : ConstellationLine toInt line (some (name, edges))

/-- One of the marks `_`, `(`, `"`, `)`. -/
def NameMark (c : Char) : Prop := c = '_' ∨ c = '(' ∨ c = '"' ∨ c = ')'

/-- A name without marks at its ends. -/
def PlainName (name : List Char) : Prop :=
  (∃ c l, name = c :: l ∧ ¬ NameMark c) ∧ ∃ c l, name = l ++ [c] ∧ ¬ NameMark c

/-- A line of Stellarium's `star_names.fab`: a comment, an empty line, or `hip|_("name")` and perhaps further words. -/
inductive StarNameLine (toInt : List Char → Option ℤ) : List Char → Option (ℤ × List Char) → Prop
  | comment (gap rest : List Char) (h : ∀ c ∈ gap, Blank c) : StarNameLine toInt (gap ++ '#' :: rest) none
  | empty (line : List Char) (h : ∀ c ∈ line, Blank c) : StarNameLine toInt line none
  | named (line hip name : List Char) (n : ℤ) (others : List (List Char))
      (h : Words line ((hip ++ "|_(\"".toList ++ name ++ "\")".toList) :: others)) (hh : hip.head? ≠ some '#') (h1 : '|' ∉ hip)
      (h2 : '|' ∉ name) (hp : PlainName name) (hn : toInt hip = some n) : StarNameLine toInt line (some (n, name))

/-- A line of the Minor Planet Center's `CometEls.txt`, by the columns of its documentation:
1-4, 5, 6-12, 15-18, 20-21, 23-29, 31-39, 42-49, 52-59, 62-69, 72-79, 82-85, 86-87, 88-89, 92-95, 97-100, 103-158, 160-168. -/
structure CometRecord where
  number : List Char
  orbitType : List Char
  packed : List Char
  year : List Char
  month : List Char
  day : List Char
  distance : List Char
  eccentricity : List Char
  argument : List Char
  node : List Char
  inclination : List Char
  epochYear : List Char
  epochMonth : List Char
  epochDay : List Char
  magnitudeG : List Char
  magnitudeK : List Char
  designation : List Char
  reference : List Char
  number_length : number.length = 4
  orbitType_length : orbitType.length = 1
  packed_length : packed.length = 7
  year_length : year.length = 4
  month_length : month.length = 2
  day_length : day.length = 7
  distance_length : distance.length = 9
  eccentricity_length : eccentricity.length = 8
  argument_length : argument.length = 8
  node_length : node.length = 8
  inclination_length : inclination.length = 8
  epochYear_length : epochYear.length = 4
  epochMonth_length : epochMonth.length = 2
  epochDay_length : epochDay.length = 2
  magnitudeG_length : magnitudeG.length = 4
  magnitudeK_length : magnitudeK.length = 4
  designation_length : designation.length = 56

/-- The pieces of the line before the designation, with the blanks between them. -/
def CometRecord.pieces (r : CometRecord) : List (List Char) :=
  [r.number, r.orbitType, r.packed, [' ', ' '], r.year, [' '], r.month, [' '], r.day, [' '], r.distance, [' ', ' '], r.eccentricity,
   [' ', ' '], r.argument, [' ', ' '], r.node, [' ', ' '], r.inclination, [' ', ' '], r.epochYear, r.epochMonth, r.epochDay, [' ', ' '],
   r.magnitudeG, [' '], r.magnitudeK, [' ', ' ']]

/-- The line. -/
def CometRecord.line (r : CometRecord) : List Char := r.pieces.flatten ++ (r.designation ++ [' '] ++ r.reference)

/-- No two blanks stand next to each other. -/
def NoTwoBlanks (l : List Char) : Prop := ∀ a b, l ≠ a ++ ' ' :: ' ' :: b

end Spec
