import Verif.Model.BuiltinTables
import Verif.Model.TimescaleFiles
import Mathlib.Data.Real.Basic
import Mathlib.Data.Real.Archimedean

/-
The arrays that `load.timescale()` reads from Skyfield's own files, as exact numbers.
-/
namespace Skyfield

/-- The array that has each number of `runs` as often in a row as its count says. Used at skyfield/iokit.py:352. -/
def expandRuns : List (ℕ × ℕ) → List ℕ
  | [] => []
  | (n, v) :: runs => List.replicate n v ++ expandRuns runs

/-- `load_bundled_npy('iers.npz')` — skyfield/iokit.py:352. -/
noncomputable def builtinIers : BundledIers ℝ where
  ttJdMinusArange := (expandRuns builtinTtRuns).map fun n : ℕ => (n : ℝ) / 2 ^ 31
  deltaT1e7 := builtinDeltas.flatten.map fun n : ℕ => (n : ℝ)
  leapDates := builtinLeapDays.map fun n : ℕ => (n : ℝ) - 1 / 2
  leapOffsets := builtinLeapOffsets.map fun n : ℕ => (n : ℝ)

/-- One column of the table, in seconds — skyfield/timelib.py:1106. -/
noncomputable def s15Piece (c : ℤ × ℤ × ℤ × ℤ × ℤ × ℤ) : Piece ℝ :=
  ⟨c.1, c.2.1, c.2.2.1 / 1000, [c.2.2.2.1 / 1000, c.2.2.2.2.1 / 1000, c.2.2.2.2.2 / 1000]⟩

/-- `load_bundled_npy('delta_t.npz')['Table-S15.2020.txt']` — skyfield/timelib.py:1106. -/
noncomputable def builtinS15 : List (Piece ℝ) := builtinS15Columns.map s15Piece

end Skyfield
