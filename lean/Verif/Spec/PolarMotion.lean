/-
Independent specification of a line of the file `finals2000A.all`, from the columns that the IERS publishes in
`readme.finals2000A` (columns counted from 1): 1-6 date, 8-15 modified Julian date, 17 flag, 19-27 polar x in arcseconds,
28-36 its error, 38-46 polar y, 47-55 its error, 58 flag, 59-68 UT1-UTC in seconds, then more columns.
-/
namespace Spec

structure FinalsLine where
  date : List Char
  mjd : List Char
  flag : Char
  x : List Char
  xError : List Char
  y : List Char
  yError : List Char
  dutFlag : Char
  dut1 : List Char
  rest : List Char

/-- The fields have their published widths. -/
structure FinalsLine.WellFormed (l : FinalsLine) : Prop where
  date : l.date.length = 6
  mjd : l.mjd.length = 8
  x : l.x.length = 9
  xError : l.xError.length = 9
  y : l.y.length = 9
  yError : l.yError.length = 9
  dut1 : l.dut1.length = 10

/-- The line as written in the file. -/
def FinalsLine.text (l : FinalsLine) : List Char :=
  l.date ++ ([' '] ++ l.mjd) ++ [' '] ++ [l.flag] ++ [' '] ++ l.x ++ l.xError ++ [' '] ++ l.y ++ l.yError ++ [' ', ' '] ++
    [l.dutFlag] ++ l.dut1 ++ l.rest

/-- A number is written in the field, rather than blanks: its second column has a digit.  (The first may have a sign, and the
values have one digit before the decimal point.) -/
def HasNumber (f : List Char) : Prop := ∃ c, f[1]? = some c ∧ c.isDigit = true

instance (f : List Char) : Decidable (HasNumber f) :=
  match h : f[1]? with
  | none => isFalse fun ⟨_, e, _⟩ => by rw [h] at e; cases e
  | some c => if hc : c.isDigit = true then isTrue ⟨c, h, hc⟩
    else isFalse fun ⟨_, e, hd⟩ => by rw [h] at e; cases e; exact hc hd

end Spec
