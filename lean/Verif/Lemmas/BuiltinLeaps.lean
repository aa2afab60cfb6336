import Verif.Lemmas.BuiltinTime
import Verif.Lemmas.Utc

/-
Lemmas for C113: bounds on TAI−UTC as the leap second table gives it, and the bundled table of leap seconds.
-/
namespace Skyfield
open Spec
variable {K : Type*} [Field K] [LinearOrder K] [IsStrictOrderedRing K] [FloorRing K]

theorem cnt_mono (L : List ℤ) {u v : ℤ} (h : u ≤ v) : cnt L u ≤ cnt L v := by
  induction L with
  | nil => exact le_rfl
  | cons n L ih =>
    rw [cnt_cons, cnt_cons]
    split_ifs <;> omega

theorem cnt_mem_lt (L : List ℤ) {n : ℤ} (h : n ∈ L) : cnt L (midnight n - 1) + 1 ≤ cnt L (midnight n) := by
  induction L with
  | nil => exact absurd h List.not_mem_nil
  | cons m L ih =>
    rw [cnt_cons, cnt_cons]
    rcases List.mem_cons.1 h with rfl | h
    · have := cnt_mono L (show midnight n - 1 ≤ midnight n by omega)
      rw [if_neg (by omega), if_pos le_rfl]
      omega
    · have := ih h
      split_ifs <;> omega

/-- Until day `D` begins, the table gives at most that day's TAI−UTC. -/
theorem leap_le {ts : Timescale K} {L : List ℤ} {b : ℤ} (h : IsLeapTable ts L b) {x D : ℤ} (hx : x ≤ midnight D + taiMinusUtc L b D) {l : K}
    (hl : interp (x : K) ts.leapTai ts.leapOffs = some l) : l ≤ (taiMinusUtc L b D : ℤ) := by
  rw [taiMinusUtc_eq_cnt] at hx ⊢
  rcases interp_tai h x with ⟨k, h1, h2, h3⟩ | ⟨k, h1, h2, h3, n, hn, hnx⟩
  · rw [h1, Option.some.injEq] at hl
    rw [← hl]
    apply Int.cast_le.2
    by_contra hc
    have := cnt_mono L (show x - (b + k) ≤ midnight D by omega)
    omega
  · rw [h1, Option.some.injEq] at hl
    rw [← hl]
    have hk : k + 1 ≤ cnt L (midnight D) := by
      by_contra hc
      have h4 := cnt_mono L (show midnight n ≤ midnight D by omega)
      have h5 := cnt_mem_lt L hn
      rw [hnx] at h4 h5
      omega
    have : ((b + k + 1 : ℤ) : K) ≤ ((b + cnt L (midnight D) : ℤ) : K) := Int.cast_le.2 (by omega)
    push_cast at this ⊢
    linarith

/-- From the beginning of day `D` on, the table gives at least that day's TAI−UTC. -/
theorem le_leap {ts : Timescale K} {L : List ℤ} {b : ℤ} (h : IsLeapTable ts L b) {x D : ℤ} (hx : midnight D + taiMinusUtc L b D ≤ x) {l : K}
    (hl : interp (x : K) ts.leapTai ts.leapOffs = some l) : (taiMinusUtc L b D : ℤ) ≤ l := by
  rw [taiMinusUtc_eq_cnt] at hx ⊢
  rcases interp_tai h x with ⟨k, h1, h2, h3⟩ | ⟨k, h1, h2, h3, n, hn, hnx⟩
  · rw [h1, Option.some.injEq] at hl
    rw [← hl]
    apply Int.cast_le.2
    by_contra hc
    have := cnt_mono L (show midnight D ≤ x - (b + k) by omega)
    omega
  · rw [h1, Option.some.injEq] at hl
    rw [← hl]
    have hk : cnt L (midnight D) ≤ k := by
      by_contra hc
      have h4 := cnt_mono L (show midnight D ≤ x - (b + k) - 1 by omega)
      omega
    have : ((b + cnt L (midnight D) : ℤ) : K) ≤ ((b + k : ℤ) : K) := Int.cast_le.2 (by omega)
    linarith

/-- The bundled leap days as integers. -/
def builtinLeaps : List ℤ := builtinLeapDays.map fun n : ℕ => (n : ℤ)

theorem countLe_filter (l : List ℕ) (d : ℕ) : (((l.map fun n : ℕ => (n : ℤ)).filter (· ≤ (d : ℤ))).length) = countLe l d := by
  induction l with
  | nil => rfl
  | cons n l ih =>
    rw [List.map_cons, List.filter_cons, countLe]
    by_cases h : n ≤ d
    · rw [if_pos (by simpa using h), Nat.ble_eq_true_of_le h, List.length_cons, ih, Bool.toNat_true, add_comm]
    · have hb : Nat.ble n d = false := by
        rw [Bool.eq_false_iff]
        exact fun hc => h (Nat.le_of_ble_eq_true hc)
      rw [if_neg (by simpa using h), hb, ih, Bool.toNat_false, zero_add]

theorem builtin_taiMinusUtc (d : ℕ) : taiMinusUtc builtinLeaps 10 d = builtinOffset d := by
  unfold taiMinusUtc builtinLeaps builtinOffset
  rw [countLe_filter]
  push_cast
  rfl

theorem countLe_length (l : List ℕ) (d : ℕ) : countLe l d ≤ l.length := by
  induction l with
  | nil => exact le_rfl
  | cons n l ih =>
    rw [countLe, List.length_cons]
    have : (Nat.ble n d).toNat ≤ 1 := Bool.toNat_le _
    omega

theorem builtinOffset_le (d : ℕ) : builtinOffset d ≤ 37 := by
  have := countLe_length builtinLeapDays d
  have e : builtinLeapDays.length = 27 := by decide
  unfold builtinOffset
  omega

end Skyfield
