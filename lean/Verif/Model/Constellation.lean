import Verif.Model.ConstellationData
import Verif.Model.DeltaT

/-
Model of `load_constellation_map()` (skyfield/constellationlib.py).  A position enters as its right ascension in hours and declination in
degrees, referred to the equator and equinox of B1875 (`position.radec(epoch=t1875)`; see `Model/Spherical.lean`, `Model/Frames.lean`).
-/
namespace Skyfield
variable {K : Type*} [Field K] [LinearOrder K]

/-- The arrays loaded by `load_constellation_map` — skyfield/constellationlib.py:52-56.  `cell i j` is `radec_to_index[i, j]`, `none` where
NumPy raises `IndexError`. -/
structure ConstellationMap (K : Type*) where
  sortedRa : List K
  sortedDec : List K
  cell : ℕ → ℕ → Option ℕ
  names : List String

/-- `constellation_at(position)` — skyfield/constellationlib.py:58-63. -/
def constellationAt (m : ConstellationMap K) (raHours decDegrees : K) : Option String :=
  let i := searchsortedLeft m.sortedRa raHours
  let j := searchsortedRight m.sortedDec decDegrees
  match m.cell i j with
  | none => none
  | some k => m.names[k]?

/-- Entry `i` of a run-length coded column. Used at skyfield/constellationlib.py:52-56. -/
def rleGet : List (ℕ × ℕ) → ℕ → Option ℕ
  | [], _ => none
  | (n, v) :: rest, i => if i < n then some v else rleGet rest (i - n)

/-- The table that comes with Skyfield — skyfield/data/constellations.npz — with the boundaries at their exact values
(whole seconds of right ascension, whole arcminutes of declination) in place of the floats nearest to them.
Used at skyfield/constellationlib.py:52-56. -/
def bundledConstellations : ConstellationMap K where
  sortedRa := constellationRa.map fun r : ℤ => (r : K) / 3600
  sortedDec := constellationDec.map fun d : ℤ => (d : K) / 60
  cell := fun i j => match constellationColumns[j]? with
    | none => none
    | some col => rleGet col i
  names := constellationNames

end Skyfield
