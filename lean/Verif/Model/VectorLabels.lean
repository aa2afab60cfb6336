import Verif.Model.Vectors

/-
What travels along with the vectors of C33: the ephemeris a vector function remembers, for the deflection of light, and the
error message of its positions — skyfield/vectorlib.py:14, 90-95, 127-129, 137-140, 153-165.  `own` gives what a vector function that
is neither reversed nor a sum has for itself: the kernel of a segment (skyfield/jpllib.py:209, 251), nothing for the others; the
message of a satellite (skyfield/sgp4lib.py:187, 213), nothing for the others.
-/
namespace Skyfield

variable {T V E M : Type*}

mutual
/-- `.ephemeris` — skyfield/vectorlib.py:14 and 137-140.  `ReversedVector` does not set it. -/
def VectorFunction.ephemeris (own : VectorFunction T V → Option E) : VectorFunction T V → Option E
  | .leaf c t f => own (.leaf c t f)
  | .reversed _ => none
  | .sum _ _ fs => firstEphemeris own fs
/-- `next(ephemerides, None)` — skyfield/vectorlib.py:138-140. -/
def firstEphemeris (own : VectorFunction T V → Option E) : List (VectorFunction T V) → Option E
  | [] => none
  | f :: fs =>
      match f.ephemeris own with
      | some e => some e
      | none => firstEphemeris own fs
end

mutual
/-- The last component of `_at(t)` — skyfield/vectorlib.py:127-129 and 157-165. -/
def VectorFunction.message (own : VectorFunction T V → T → Option M) : VectorFunction T V → T → Option M
  | .leaf c t f, time => own (.leaf c t f) time
  | .reversed f, time => f.message own time
  | .sum _ _ fs, time => lastMessage own fs time
/-- What the variable `message` holds after the loop.  (Without a round `_at` fails; here it is `none`.)
Used at skyfield/vectorlib.py:127-129 and 157-165. -/
def lastMessage (own : VectorFunction T V → T → Option M) : List (VectorFunction T V) → T → Option M
  | [], _ => none
  | [f], time => f.message own time
  | _ :: fs, time => lastMessage own fs time
end

end Skyfield
