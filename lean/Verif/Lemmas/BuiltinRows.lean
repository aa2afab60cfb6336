import Verif.Model.BuiltinTime
import Verif.Lemmas.DeltaT
import Mathlib.Tactic.NormNum
import Mathlib.Tactic.Positivity

/-
Lemmas for C113: what the kernel checks of the bundled rows, and what follows for the straight lines between them.
-/
namespace Skyfield

/-- The daily rows: `tt_jd_minus_arange` in units of 2⁻³¹ days, and `delta_t_1e7`. -/
def builtinRows : List (ℕ × ℕ) := (expandRuns builtinTtRuns).zip builtinDeltas.flatten

/-- How many of the numbers are at most `d`. -/
def countLe : List ℕ → ℕ → ℕ
  | [], _ => 0
  | n :: l, d => (Nat.ble n d).toNat + countLe l d

/-- TAI−UTC on day `d`. -/
def builtinOffset (d : ℕ) : ℕ := 10 + countLe builtinLeapDays d

/-- What is checked of each pair of neighbouring rows, the first being row `i`: they are in order; ∆T changes by at most 0.004029 s a day; with the
TAI−UTC of the day before, or of the day after, both values are within 0.9 s of what UTC has; and the rows are not before the midnight that starts the day before, nor
a second after the one that starts the day after. -/
def rowsOk (i o0 o2 : ℕ) (r s : ℕ × ℕ) : Bool :=
  Nat.ble (r.1 + 1) (s.1 + 2147483648) &&
  (Nat.ble (s.2 * 2147483648 + 40290 * r.1) (r.2 * 2147483648 + 40290 * (s.1 + 2147483648)) &&
  (Nat.ble (r.2 * 2147483648 + 40290 * r.1) (s.2 * 2147483648 + 40290 * (s.1 + 2147483648)) &&
  (Nat.ble (321840000 + 10000000 * o2) (r.2 + 9000000) &&
  (Nat.ble (321840000 + 10000000 * o2) (s.2 + 9000000) &&
  (Nat.ble r.2 (321840000 + 10000000 * o0 + 9000000) &&
  (Nat.ble s.2 (321840000 + 10000000 * o0 + 9000000) &&
  (Nat.ble (2147483648 * (86400000 * (2441684 + i) + 32184 + 1000 * o0)) ((r.1 + i * 2147483648) * 86400000 + 2147483648 * 43200000) &&
  Nat.ble ((s.1 + (i + 1) * 2147483648) * 86400000 + 2147483648 * 43200000)
    (2147483648 * (86400000 * (2441686 + i) + 32184 + 1000 * o2 + 1)))))))))

/-- The leap seconds still to come after day `d`, and TAI−UTC, a day later. -/
def nextOffset (o : ℕ) (leaps : List ℕ) (d : ℕ) : ℕ × List ℕ :=
  match leaps with
  | [] => (o, [])
  | n :: l => match Nat.ble n d with
    | true => (o + 1, l)
    | false => (o, n :: l)

/-- The check of all rows from row `i` on; `o0` and `o1` are TAI−UTC on the days before and of row `i`, `leaps` the leap seconds still to come. -/
def chkRows (i o0 o1 : ℕ) (leaps : List ℕ) (r : ℕ × ℕ) : List (ℕ × ℕ) → Bool
  | [] => true
  | s :: rest =>
    match nextOffset o1 leaps (2441686 + i) with
    | (o2, leaps) => rowsOk i o0 o2 r s && chkRows (i + 1) o1 o2 leaps s rest

def chkAll : List (ℕ × ℕ) → Bool
  | [] => false
  | r :: rest => chkRows 0 12 12 (builtinLeapDays.drop 2) r rest

set_option maxRecDepth 100000 in
theorem builtin_chk : chkAll builtinRows = true := by decide +kernel

set_option maxRecDepth 100000 in
/-- There is a ∆T for each date and a date for each ∆T. -/
theorem builtin_lengths : (expandRuns builtinTtRuns).length = 19745 ∧ builtinDeltas.flatten.length = 19745 := by decide +kernel

set_option maxRecDepth 100000 in
theorem builtin_ends : builtinRows.head? = some (5243477538423255, 433755822) ∧ builtinRows.getLast? = some (5243477539044634, 690903049) := by
  decide +kernel

end Skyfield
