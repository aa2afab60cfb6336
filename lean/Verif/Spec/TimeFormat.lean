import Mathlib.Data.List.Basic
import Mathlib.Data.Int.Notation

/-
What a date format such as `'%Y-%m-%d'` means: it is a sequence of plain characters, of `%%` for a percent sign, and of directives,
and the text shown is what each of them shows, one after the other.  Independent of how Skyfield looks for directives.
-/
namespace Spec

/-- The date and time handed to the `strftime` of the C library: Python counts weekdays from Monday = 0 and days of the year from
January 1 = 1. -/
structure TmTuple where
  year : ℤ
  month : ℤ
  day : ℤ
  hour : ℤ
  minute : ℤ
  second : ℤ
  weekday : ℤ
  yday : ℤ
  zone : List Char

/-- How the C library shows one directive, given its flags and its letter. -/
abbrev Library := List Char → Char → TmTuple → List Char

/-- A flag or modifier that may stand between the percent sign and the letter. -/
def isFlag (c : Char) : Bool := c ∈ ['-', '_', '0', '^', '#', 'E', 'O']

/-- One piece of a format. -/
inductive FormatPiece
  /-- a plain character -/
  | text (c : Char)
  /-- `%%` -/
  | percent
  /-- `%`, flags, letter -/
  | directive (flags : List Char) (letter : Char)

/-- A plain character is not a percent sign; flags are flags, and the letter is neither a flag nor a percent sign. -/
def FormatPiece.Wellformed : FormatPiece → Prop
  | .text c => c ≠ '%'
  | .percent => True
  | .directive flags letter => (∀ c ∈ flags, isFlag c = true) ∧ isFlag letter = false ∧ letter ≠ '%'

/-- How the piece is written. -/
def FormatPiece.source : FormatPiece → List Char
  | .text c => [c]
  | .percent => ['%', '%']
  | .directive flags letter => '%' :: (flags ++ [letter])

/-- The format as the user writes it. -/
def formatSource (pieces : List FormatPiece) : List Char := pieces.flatMap FormatPiece.source

/-- `n` in decimal, padded with zeros to width `w`. -/
def padded (w : ℕ) (n : ℤ) : List Char :=
  List.replicate (w - (Nat.toDigits 10 n.toNat).length) '0' ++ Nat.toDigits 10 n.toNat

/-- What the piece shows: `%f` six digits of microseconds, other directives whatever the C library makes of them. -/
def FormatPiece.shows (lib : Library) (tm : TmTuple) (microsecond : ℤ) : FormatPiece → List Char
  | .text c => [c]
  | .percent => ['%']
  | .directive flags letter => if letter = 'f' then padded 6 microsecond else lib flags letter tm

/-- The letter of a directive. -/
def FormatPiece.letter? : FormatPiece → Option Char
  | .directive _ letter => some letter
  | _ => none

/-- A directive with one of these letters is in the format. -/
def Mentions (letters : List Char) (pieces : List FormatPiece) : Prop := ∃ p ∈ pieces, ∃ c ∈ letters, p.letter? = some c

/-- Plain characters that, after a percent sign, would be read as a directive with one of these letters. -/
def LooksLikeDirective (letters : List Char) : List FormatPiece → Prop
  | .text c :: rest => (isFlag c = true ∧ LooksLikeDirective letters rest) ∨ c ∈ letters
  | _ => False

/-- No `%%` is followed by plain characters that would be read as a directive with one of these letters. -/
def NoLookalike (letters : List Char) (pieces : List FormatPiece) : Prop :=
  ∀ a b, pieces = a ++ .percent :: b → ¬ LooksLikeDirective letters b

/-- What POSIX and Python say of the directives used below: numbers of fixed width; `%U` and `%W` count the Sundays and the Mondays from
January 1 to the day shown (a day of the year of 0 is taken as 1 by Python); only `%Z` looks at the name of the time zone. -/
structure Posix (lib : Library) : Prop where
  year : ∀ tm : TmTuple, 1000 ≤ tm.year → tm.year ≤ 9999 → lib [] 'Y' tm = padded 4 tm.year
  month : ∀ tm : TmTuple, 1 ≤ tm.month → tm.month ≤ 12 → lib [] 'm' tm = padded 2 tm.month
  day : ∀ tm : TmTuple, 1 ≤ tm.day → tm.day ≤ 31 → lib [] 'd' tm = padded 2 tm.day
  hour : ∀ tm : TmTuple, 0 ≤ tm.hour → tm.hour ≤ 23 → lib [] 'H' tm = padded 2 tm.hour
  minute : ∀ tm : TmTuple, 0 ≤ tm.minute → tm.minute ≤ 59 → lib [] 'M' tm = padded 2 tm.minute
  second : ∀ tm : TmTuple, 0 ≤ tm.second → tm.second ≤ 60 → lib [] 'S' tm = padded 2 tm.second
  yearDay : ∀ tm : TmTuple, 0 ≤ tm.yday → tm.yday ≤ 366 → lib [] 'j' tm = padded 3 (max tm.yday 1)
  sundays : ∀ tm : TmTuple, 0 ≤ tm.yday → tm.yday ≤ 366 → lib [] 'U' tm =
    padded 2 (((List.range (max tm.yday 1).toNat).filter fun k : ℕ => (tm.weekday - (k : ℤ)) % 7 = 6).length : ℤ)
  mondays : ∀ tm : TmTuple, 0 ≤ tm.yday → tm.yday ≤ 366 → lib [] 'W' tm =
    padded 2 (((List.range (max tm.yday 1).toNat).filter fun k : ℕ => (tm.weekday - (k : ℤ)) % 7 = 0).length : ℤ)
  zone : ∀ tm : TmTuple, lib [] 'Z' tm = tm.zone
  zoneOnly : ∀ flags letter tm z, letter ≠ 'Z' → lib flags letter { tm with zone := z } = lib flags letter tm

end Spec
