import Verif.Model.Units

/-
Model of how angles that hold arrays print themselves, and of the advice that their exceptions give: skyfield/units.py:333-348,
378-435, 447-458.
-/
namespace Skyfield

/-- The values of an angle in one unit: a NumPy array by its shape and its entries in order; no axes for a single number.
Used at skyfield/units.py:333-348. -/
structure AngleValues where
  shape : List ℕ
  values : List ℝ

/-- How many entries `v[i]` has. Used at skyfield/units.py:333-348. -/
def AngleValues.rowSize (v : AngleValues) : ℕ := v.shape.tail.prod

/-- The entries of `v[i]`. Used at skyfield/units.py:333-348. -/
def AngleValues.row (v : AngleValues) (i : ℕ) : List ℝ := (v.values.drop (i * v.rowSize)).take v.rowSize

/-- `_sfmt(fmt, value, places)` on part of an array — skyfield/units.py:507-513: NumPy refuses `if isnan(value)` unless there is exactly
one entry (`none` is the `ValueError`). -/
noncomputable def sfmtArray (f : SexaFormat) (places : ℕ) : List ℝ → Option (List Char)
  | [x] => some (sfmt f x places)
  | _ => none

/-- The format and places of `__str__` — skyfield/units.py:337-344. -/
def strFormat (preference : Preference) (signed : Bool) : SexaFormat × ℕ :=
  match preference with
  | .degrees => (if signed then .dsgn else .dfmt, 1)
  | .hours => (.hfmt, 2)

/-- `Angle.__str__` — skyfield/units.py:333-348; `v` holds the degrees or the hours, as preferred. -/
noncomputable def angleStr (preference : Preference) (signed : Bool) (v : AngleValues) : Option (List Char) :=
  if v.values.length = 0 then some "Angle []".toList
  else
    let (f, places) := strFormat preference signed
    if 2 ≤ v.values.length then do
      let first ← sfmtArray f places (v.row 0)
      let last ← sfmtArray f places (v.row (v.shape.headD 1 - 1))
      return Nat.toDigits 10 (v.shape.headD 1) ++ " values from ".toList ++ first ++ " to ".toList ++ last
    else sfmtArray f places v.values

/-- `hstr()` and `dstr()` on arrays, with `warn=False` — skyfield/units.py:388-393, 427-435: a list of texts, one for each `v[i]`. -/
noncomputable def angleStrings (f : SexaFormat) (places : ℕ) (v : AngleValues) : Option (List (List Char)) :=
  match v.shape with
  | [] => (sfmtArray f places v.values).map fun t => [t]
  | n :: _ => (List.range n).mapM fun i => sfmtArray f places (v.row i)

/-- The methods that can raise `WrongUnitError`. Used at skyfield/units.py:363, 375, 387, 402, 414, 426. -/
inductive UnitMethod
  | hms | signedHms | hstr | dms | signedDms | dstr
deriving DecidableEq

/-- The name that the method passes to `WrongUnitError` — skyfield/units.py:363, 375, 387, 402, 414, 426. -/
def UnitMethod.name : UnitMethod → List Char
  | .hms => "hms".toList
  | .signedHms => "signed_hms".toList
  | .hstr => "hstr".toList
  | .dms => "dms".toList
  | .signedDms => "signed_dms".toList
  | .dstr => "dstr".toList

/-- `s in text`. Used at skyfield/units.py:447-458. -/
def isInfix (s text : List Char) : Bool := text.tails.any fun t => s.isPrefixOf t

/-- What the message of `WrongUnitError(name)` says: the usual unit, the unit asked for, and what to do — skyfield/units.py:447-458. -/
structure UnitAdvice where
  usual : Preference
  unit : Preference
  /-- `then please use the attribute _{unit}` -/
  useAttribute : Bool
  call : List Char

/-- `WrongUnitError.__init__`. Used at skyfield/units.py:447-458. -/
def wrongUnitAdvice (name : List Char) : UnitAdvice :=
  let unit : Preference := if name.head? = some 'h' ∨ isInfix "_h".toList name = true then .hours else .degrees
  let usual : Preference := if unit = .degrees then .hours else .degrees
  ⟨usual, unit, name = (match unit with | .hours => "hours".toList | .degrees => "degrees".toList), name⟩

/-- The call of a method. Used at skyfield/units.py:356-435. -/
def UnitMethod.access (places : ℕ) (warn : Bool) : UnitMethod → AngleAccess
  | .hms => .hms warn
  | .signedHms => .signedHms warn
  | .hstr => .hstr places warn
  | .dms => .dms warn
  | .signedDms => .signedDms warn
  | .dstr => .dstr places warn

end Skyfield
