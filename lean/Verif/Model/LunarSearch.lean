import Verif.Model.Almanac
import Verif.Model.Search

/-
Model of `lunar_eclipses` of `skyfield/eclipselib.py` as a whole.
-/
namespace Skyfield

/-- The vectors that `lunar_eclipses` reads from the ephemeris, in kilometers, and the barycenter's velocity in km/day, at each TT date —
skyfield/eclipselib.py:43-54.  That the segments are read at the TDB date of that moment is part of these functions. -/
structure LunarSegments where
  barycenter : ℝ → Vec3
  earth : ℝ → Vec3
  moon : ℝ → Vec3
  sun : ℝ → Vec3
  velocity : ℝ → Vec3

/-- `earth_to_sun` and the opposite of `moon_to_earth` — skyfield/eclipselib.py:80-81. -/
def LunarSegments.earthToSun (g : LunarSegments) (t : ℝ) : Vec3 := g.sun t - g.barycenter t - g.earth t

/-- The vector from the Moon to the Earth. Used at skyfield/eclipselib.py:18-134. -/
def LunarSegments.moonToEarth (g : LunarSegments) (t : ℝ) : Vec3 := g.earth t - g.moon t

/-- `f` and `f.step_days` — skyfield/eclipselib.py:49-69. -/
noncomputable def LunarSegments.angle (g : LunarSegments) (tiny : ℝ) : Searchable ℝ ℝ :=
  ⟨fun t => sunMoonAngle tiny (g.barycenter t) (g.earth t) (g.moon t) (g.sun t) (g.velocity t), some 5, none⟩

/-- `lunar_eclipses` — skyfield/eclipselib.py:18-134: the eclipses with their moments, in place of one array for each detail.  `none`: the
search is still running after `fuel` rounds; the inner `none` is an `IndexError` of the search. -/
noncomputable def lunarEclipses (tiny : ℝ) (g : LunarSegments) (t0 t1 : ℝ) (fuel : ℕ) :
    Except SearchError (Option (Option (List (ℝ × LunarEclipse)))) :=
  match findMaxima t0 t1 (g.angle tiny) (1 / 86400) 4 fuel with
  | .error e => .error e
  | .ok none => .ok none
  | .ok (some none) => .ok (some none)
  | .ok (some (some found)) =>
    .ok (some (some (found.filterMap fun p => (lunarEclipse (g.earthToSun p.1) (g.moonToEarth p.1)).map fun e => (p.1, e))))

end Skyfield
