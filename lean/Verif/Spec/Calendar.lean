/-
Independent specification of the two civil calendars: leap-year rule, month lengths, and the
day that follows a given day.  Nothing here refers to the model of the code.
-/
namespace Spec

/-- Gregorian leap-year rule (astronomical year numbering: year 0 exists). -/
def gregorianLeap (y : Int) : Bool := y % 4 == 0 && (y % 100 != 0 || y % 400 == 0)

/-- Julian-calendar leap-year rule. -/
def julianLeap (y : Int) : Bool := y % 4 == 0

/-- Length of month `m` in year `y` when `leap` is the leap-year rule. -/
def monthLength (leap : Int → Bool) (y m : Int) : Int :=
  if m = 2 then (if leap y then 29 else 28)
  else if m = 4 ∨ m = 6 ∨ m = 9 ∨ m = 11 then 30
  else 31

/-- `(y, m, d)` is a date that exists in the calendar. -/
def ValidDate (leap : Int → Bool) (y m d : Int) : Prop :=
  1 ≤ m ∧ m ≤ 12 ∧ 1 ≤ d ∧ d ≤ monthLength leap y m

instance (leap y m d) : Decidable (ValidDate leap y m d) := by
  unfold ValidDate; exact inferInstance

/-- The date after `(y, m, d)`. -/
def nextDay (leap : Int → Bool) (y m d : Int) : Int × Int × Int :=
  if d < monthLength leap y m then (y, m, d + 1)
  else if m < 12 then (y, m + 1, 1)
  else (y + 1, 1, 1)

/-- Chronological order of dates: year first, then month, then day. -/
def DateLt (y m d y' m' d' : Int) : Prop :=
  y < y' ∨ (y = y' ∧ (m < m' ∨ (m = m' ∧ d < d')))

end Spec

namespace Spec

/-- `D` numbers the days of a calendar consecutively: the day after a date gets the next number. -/
def CountsDays (leap : Int → Bool) (D : Int → Int → Int → Int) : Prop :=
  ∀ y m d, ValidDate leap y m d →
    D (nextDay leap y m d).1 (nextDay leap y m d).2.1 (nextDay leap y m d).2.2 = D y m d + 1

/-- `D` is *the* astronomers' day number of the proleptic Gregorian calendar:
consecutive, and 2000 January 1 is day 2451545. -/
def IsGregorianDayNumber (D : Int → Int → Int → Int) : Prop :=
  CountsDays gregorianLeap D ∧ D 2000 1 1 = 2451545

/-- `D` is *the* day number of the Julian calendar:
consecutive, and 4713 BC (year -4712) January 1 is day 0. -/
def IsJulianDayNumber (D : Int → Int → Int → Int) : Prop :=
  CountsDays julianLeap D ∧ D (-4712) 1 1 = 0

end Spec

namespace Spec

/-- In civil reckoning with the given Julian/Gregorian cutoff (none = always Gregorian), the date
`(y, m, d)` exists and is day number `D`. -/
def CivilDate (cutoff : Option Int) (y m d D : Int) : Prop :=
  match cutoff with
  | none => ValidDate gregorianLeap y m d ∧ ∃ N, IsGregorianDayNumber N ∧ N y m d = D
  | some c =>
    (D < c ∧ ValidDate julianLeap y m d ∧ ∃ N, IsJulianDayNumber N ∧ N y m d = D) ∨
    (c ≤ D ∧ ValidDate gregorianLeap y m d ∧ ∃ N, IsGregorianDayNumber N ∧ N y m d = D)

end Spec
