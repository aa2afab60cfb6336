import Verif.Model.FloatAngles

/-
Angles brought into one turn, and the state codes computed from them, with the rounding of every floating point operation written
out: `fl x` is the float that the processor returns when the exact result of an operation is `x`.  Python's and NumPy's `%` and `//`
on floats are `divmodF`.
-/
namespace Skyfield

variable (fl : ℚ → ℚ)

/-- `x % b` on floats. Used at skyfield/functions.py:90 and 100. -/
def modF (x b : ℚ) : ℚ := (divmodF fl x b).2

/-- `x // b` on floats. Used at skyfield/almanac.py:81. -/
def floorDivF (x b : ℚ) : ℚ := (divmodF fl x b).1

/-- `pi` as a float — skyfield/constants.py:13. -/
def piF : ℚ := fl 3.141592653589793

/-- The second angle of `to_spherical` and `_to_spherical_and_rates` — skyfield/functions.py:90 and 100 — for the value that
`arctan2` returned. -/
def longitudeF (arctan2 : ℚ) : ℚ := modF fl arctan2 (tauF fl)

/-- The end of `(x + pi) % tau - pi`, for the rounded sum `x + pi` — skyfield/positionlib.py:306-309 (hour angles),
skyfield/almanac.py:430 and 446 — and of `(x - pi) % tau - pi` — skyfield/toposlib.py:212, 237 and 257 (longitudes of places). -/
def normpiF (sum : ℚ) : ℚ := fl (modF fl sum (tauF fl) - piF fl)

/-- The last step of `sidereal_time`, of `Time.gast` and of `GeographicPosition.lst_hours_at` — skyfield/earthlib.py:127,
skyfield/timelib.py:863, skyfield/toposlib.py:98. -/
def siderealHoursF (hours : ℚ) : ℚ := modF fl hours 24

/-- `earth_rotation_angle(jd_ut1, fraction_ut1)` — skyfield/earthlib.py:129-137; `th` is the value of the first line. -/
def earthRotationF (th jdUt1 fractionUt1 : ℚ) : ℚ :=
  modF fl (fl (fl (modF fl th 1 + modF fl jdUt1 1) + fractionUt1)) 1

/-- `seasons().season_at` — skyfield/almanac.py:81. -/
def seasonAtF (slon : ℚ) : ℤ := astypeInt (modF fl (floorDivF fl slon (fl (tauF fl / 4))) 4)

/-- `moon_phase` — skyfield/almanac.py:106. -/
def moonPhaseF (mlon slon : ℚ) : ℚ := modF fl (fl (mlon - slon)) (tauF fl)

/-- `moon_phases().moon_phase_at` — skyfield/almanac.py:127. -/
def moonPhaseAtF (mlon slon : ℚ) : ℤ := astypeInt (modF fl (floorDivF fl (fl (mlon - slon)) (fl (tauF fl / 4))) 4)

/-- `solar_terms().solar_term_at` — skyfield/almanac_east_asia.py:143. -/
def solarTermAtF (slon : ℚ) : ℤ := astypeInt (modF fl (floorDivF fl slon (fl (tauF fl / 24))) 24)

/-- `oppositions_conjunctions().leading_or_trailing` — skyfield/almanac.py:177. -/
def leadingOrTrailingF (slon tlon : ℚ) : ℤ := astypeInt (modF fl (fl (fl (slon - tlon) / piF fl)) 2)

/-- `meridian_transits().west_of_meridian_at` — skyfield/almanac.py:208. -/
def westOfMeridianAtF (ra1 ra2 : ℚ) : Bool := modF fl (fl (ra1 - ra2)) (tauF fl) < piF fl

end Skyfield
