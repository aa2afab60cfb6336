import Verif.Model.Relativity
import Verif.Model.ElementsOf

/-
The masses that Skyfield knows — skyfield/data/gravitational_parameters.py, skyfield/relativity.py:6-34 — and the older function
`add_deflection`, skyfield/relativity.py:36-78.
-/
namespace Skyfield

/-- `GM_dict`, km³/s² — skyfield/data/gravitational_parameters.py:3-86, copied by a script. -/
def gmDict : List (ℤ × ℚ) :=
  [(0, 132890518792.23172), (1, 2.2031780000000021e4), (2, 3.2485859200000006e5), (3, 4.0350323550225981e5),
   (4, 4.2828375214000022e4), (5, 1.2671276480000021e8), (6, 3.7940585200000003e7), (7, 5.7945486000000080e6),
   (8, 6.8365271005800236e6), (9, 9.7700000000000068e2), (10, 1.3271244004193938e11), (199, 2.2031780000000021e4),
   (299, 3.2485859200000006e5), (399, 3.9860043543609598e5), (499, 4.282837362069909e4), (599, 1.266865349115908e8),
   (699, 3.793120723493890e7), (799, 5.793951322279009e6), (899, 6.835099502439672e6), (999, 8.693390780381926e2),
   (301, 4.9028000661637961e3), (401, 7.087546066894452e-4), (402, 9.615569648120313e-5), (501, 5.959924010272514e3),
   (502, 3.202739815114734e3), (503, 9.887819980080976e3), (504, 7.179304867611079e3), (505, 1.487604677404272e-1),
   (506, 1.380080696078966e-1), (601, 2.503458199931431e0), (602, 7.211185066509890e0), (603, 4.120856508658532e1),
   (604, 7.311574218947423e1), (605, 1.539419035933117e2), (606, 8.978137030983542e3), (607, 3.712085754472412e-1),
   (608, 1.205095752388872e2), (609, 5.532371285376407e-1), (610, 1.265765099012197e-1), (611, 3.512333288208074e-2),
   (612, 3.424829447502984e-4), (615, 3.718871247516475e-4), (616, 1.075208001007610e-2), (617, 9.290325122028795e-3),
   (701, 8.346344431770477e1), (702, 8.509338094489388e1), (703, 2.269437003741248e2), (704, 2.053234302535623e2),
   (705, 4.319516899232100e0), (801, 1.427598140725034e3), (901, 1.062509269522026e2), (902, 2.150552267969335e-3),
   (903, 3.663917107480563e-3), (904, 4.540734312735987e-4), (905, 2.000000000000000e-20), (2000001, 6.2809393000000000e1),
   (2000002, 1.3923011000000001e1), (2000003, 1.6224149999999999e0), (2000004, 1.7288008999999999e1),
   (2000010, 5.5423920000000004e0), (2000015, 2.0981550000000002e0), (2000016, 1.5300480000000001e0),
   (2000031, 2.8448720000000001e0), (2000048, 1.1351590000000000e0), (2000052, 1.1108039999999999e0),
   (2000065, 1.4264810000000001e0), (2000087, 9.8635300000000004e-1), (2000088, 1.1557990000000000e0), (2000433, 4.463e-4),
   (2000451, 1.0295259999999999e0), (2000511, 2.3312860000000000e0), (2000704, 2.3573170000000001e0)]

/-- `GM_dict.get` — skyfield/elementslib.py:36-42. -/
noncomputable def gmTable (code : ℤ) : Option ℝ := (gmDict.lookup code).map (↑)

/-- The entries of `rmasses` with a code: the mass of the Sun divided by that of the body — skyfield/relativity.py:7-19. -/
def rmassCodes : List (ℕ × ℚ) :=
  [(199, 6023600.0), (299, 408523.71), (399, 332946.050895), (499, 3098708.0), (599, 1047.3486), (699, 3497.898), (799, 22902.98), (899, 19412.24), (999, 135200000.0), (10, 1.0), (301, 27068700.387534)]

/-- The entries of `rmasses` with a name — skyfield/relativity.py:21-33. -/
def rmassNames : List (String × ℚ) :=
  [("mercury", 6023600.0), ("venus", 408523.71), ("earth", 332946.050895), ("mars", 3098708.0), ("jupiter", 1047.3486), ("saturn", 3497.898), ("uranus", 22902.98), ("neptune", 19412.24), ("pluto", 135200000.0), ("sun", 1.0), ("moon", 27068700.387534)]

/-- `rmasses[code]` — skyfield/positionlib.py:773. -/
noncomputable def rmassOf (code : ℕ) : Option ℝ := (rmassCodes.lookup code).map (↑)

/-- `deflectors` — skyfield/relativity.py:6. -/
def deflectorNames : List String := ["sun", "jupiter", "saturn", "moon", "venus", "uranus", "neptune"]

/-- What `add_deflection` leaves in `position`, or the exception. Used at skyfield/relativity.py:52-66. -/
inductive LegacyResult
  | ok (position : Vec3)
  | nan
  | keyError

/-- The loop of `add_deflection` — skyfield/relativity.py:52-66.  `ephemeris` is indexed by name. -/
noncomputable def legacyDeflectors (tiny : ℝ) (ephemeris : String → Option (ℝ → Vec3)) (t : ℝ) (observer : Vec3) (tlt : ℝ) :
    List String → Vec3 → LegacyResult
  | [], position => .ok position
  | name :: rest, position =>
    match (ephemeris name).or (ephemeris (name ++ " barycenter")) with
    | none => .keyError
    | some deflector =>
      match rmassNames.lookup name with
      | none => .keyError
      | some rmass =>
        match computeDeflection position (deflectorPosition tiny t observer position deflector tlt) rmass with
        | none => .nan
        | some d => legacyDeflectors tiny ephemeris t observer tlt rest (position + d)

/-- `add_deflection` — skyfield/relativity.py:36-78, for one position.  (After a `nan` the code goes on; the position stays `nan`, or
an exception is raised.) -/
noncomputable def addDeflection (tiny : ℝ) (ephemeris : String → Option (ℝ → Vec3)) (t : ℝ) (observer : Vec3)
    (includeEarth : Bool) (count : ℕ) (position : Vec3) : LegacyResult :=
  match legacyDeflectors tiny ephemeris t observer (position.length / cAuDay) (deflectorNames.take count) position with
  | .ok p =>
    if includeEarth then
      match ephemeris "earth" with
      | none => .keyError
      | some earth =>
        match rmassNames.lookup "earth" with
        | none => .keyError
        | some rmass =>
          match computeDeflection p (observer - earth t) rmass with
          | none => .nan
          | some d => .ok (p + d)
    else .ok p
  | e => e

end Skyfield
