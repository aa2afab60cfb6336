import Verif.Model.Search

/-
Model of `EarthSatellite.find_events` of `skyfield/sgp4lib.py`.  The altitude of the satellite in degrees is a
function of the TT date; that the shortcut the code takes to compute it changes nothing is C68.
-/
namespace Skyfield

variable {K : Type*} [Field K] [LinearOrder K] [FloorRing K]

/-- `half_second = 0.5 / DAY_S` — skyfield/sgp4lib.py:242. -/
def halfSecond : K := (1 / 2) / 86400

/-- `step_days`, from the satellite's orbits per minute `self.model.no_kozai / tau` —
skyfield/sgp4lib.py:243-256. -/
def eventStep (orbitsPerMinute : K) : K :=
  let orbitsPerDay := 24 * 60 * orbitsPerMinute
  let stepDays := (1 / 20) / max orbitsPerDay 1
  if stepDays > 1 / 4 then 1 / 4 else stepDays

/-- `doublets` and `jdo`: the start, the culminations and the end, with their averages in between —
skyfield/sgp4lib.py:289-290. -/
def crossingSamples (t0 : K) (jdmax : List K) (t1 : K) : List K :=
  let doublets := (t0 :: (jdmax ++ [t1])).flatMap fun x => [x, x]
  List.zipWith (fun a b => (a + b) / 2) doublets.dropLast doublets.tail

/-- `concatenate`, `argsort` — skyfield/sgp4lib.py:294-298.  `argsort` is modelled as a stable sort. -/
def mergeEvents (jdmax : List K) (crossings : List (K × Bool)) : List (K × ℕ) :=
  (jdmax.map (fun t => (t, 1)) ++ crossings.map fun e : K × Bool => (e.1, if e.2 then 2 else 0)).insertionSort
    fun a b => a.1 ≤ b.1

/-- The rest of `find_events`, once the maxima are known — skyfield/sgp4lib.py:272-298. -/
def eventsFrom (t0 t1 : K) (altitude : K → K) (altitudeDegrees : K) (fuel : ℕ) (found : List (K × K)) :
    Option (List (K × ℕ)) :=
  let jdmax := (found.filter fun p => p.2 ≥ altitudeDegrees).map (·.1)
  (discreteLoop (fun t => decide (altitude t < altitudeDegrees)) halfSecond 8 fuel
    (crossingSamples t0 jdmax t1)).map (mergeEvents jdmax)

/-- `EarthSatellite.find_events` — skyfield/sgp4lib.py:215-298.  The two searches get their own number of rounds
(`none`: still running); the inner `none` is an `IndexError` of the search for maxima. -/
def findEvents (t0 t1 : K) (altitude : K → K) (orbitsPerMinute altitudeDegrees : K) (fuel fuel' : ℕ) :
    Except SearchError (Option (Option (List (K × ℕ)))) :=
  match findMaxima t0 t1 ⟨altitude, some (eventStep orbitsPerMinute), none⟩ halfSecond 12 fuel with
  | .error e => .error e
  | .ok none => .ok none
  | .ok (some none) => .ok (some none)
  | .ok (some (some found)) => .ok ((eventsFrom t0 t1 altitude altitudeDegrees fuel' found).map some)

end Skyfield
