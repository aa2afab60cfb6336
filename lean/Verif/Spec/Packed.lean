import Mathlib.Data.List.Basic

/-
The Minor Planet Center's packed form of dates and provisional comet designations, written from its published description
(https://minorplanetcenter.net/iau/info/PackedDates.html, https://minorplanetcenter.net/iau/info/PackedDes.html).
-/
namespace Skyfield

/-- The digits of the packed forms: 0–9 stand for themselves, `A` for 10, `B` for 11, … -/
def mpcDigits : List Char := "0123456789ABCDEFGHIJKLMNOPQRSTUVWXYZ".toList

/-- The character for a number below 36. -/
def mpcDigit (n : ℕ) : Char := mpcDigits.getD n '?'

/-- A packed date: the century, two digits of year, month and day. -/
def packDate (year month day : ℕ) : List Char :=
  [mpcDigit (year / 100), mpcDigit (year / 10 % 10), mpcDigit (year % 10), mpcDigit month, mpcDigit day]

/-- The packed provisional designation of a comet: orbit type, century, two digits of year, the letter of the half month, the
number within the half month (the tens digit may be a letter), and `0` for the comet itself or a lower case letter for a
fragment. -/
def packComet (kind : Char) (year : ℕ) (half : Char) (order : ℕ) : List Char :=
  [kind, mpcDigit (year / 100), mpcDigit (year / 10 % 10), mpcDigit (year % 10), half, mpcDigit (order / 10),
    mpcDigit (order % 10), '0']

/-- The designation itself, as it is written: `C/2017 K2`. -/
def cometName (kind : Char) (year : ℕ) (half : Char) (order : ℕ) : List Char :=
  [kind, '/'] ++ (toString year).toList ++ [' ', half] ++ (toString order).toList

end Skyfield
