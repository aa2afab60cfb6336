import Verif.Spec.Floats
import Mathlib.Data.Int.Log
import Mathlib.Tactic.Linarith
import Mathlib.Tactic.Ring
import Mathlib.Tactic.FieldSimp
import Mathlib.Tactic.Positivity
import Mathlib.Tactic.NormNum
import Mathlib.Tactic.LinearCombination

/- Lemmas on floating point numbers with a 53-bit significand and on rounding to nearest. -/
namespace Skyfield
open Spec

theorem zpow2_pos (e : ℤ) : (0:ℚ) < 2 ^ e := zpow_pos (by norm_num) e

/-- A significand of exactly `2^53` is allowed too: it is `2^52` times twice the power. -/
theorem isFloat_of_le {m e : ℤ} (h : |m| ≤ 2 ^ 53) : IsFloat ((m:ℚ) * 2 ^ e) := by
  rcases lt_or_eq_of_le h with h | h
  · exact ⟨m, e, h, rfl⟩
  · rcases abs_cases m with ⟨h1, _⟩ | ⟨h1, _⟩
    · refine ⟨2 ^ 52, e + 1, by norm_num, ?_⟩
      have : (m:ℚ) = 2 ^ 53 := by exact_mod_cast h1 ▸ h
      rw [this, zpow_add_one₀ (by norm_num)]; push_cast; ring
    · refine ⟨- 2 ^ 52, e + 1, by norm_num, ?_⟩
      have : (m:ℚ) = - 2 ^ 53 := by
        have : -m = 2 ^ 53 := h1 ▸ h
        have : m = - 2 ^ 53 := by omega
        exact_mod_cast this
      rw [this, zpow_add_one₀ (by norm_num)]; push_cast; ring

theorem isFloat_int {n : ℤ} (h : |n| ≤ 2 ^ 53) : IsFloat (n:ℚ) := by
  have := isFloat_of_le (e := 0) h
  simpa using this

theorem isFloat_neg {y : ℚ} (h : IsFloat y) : IsFloat (-y) := by
  obtain ⟨m, e, h1, h2⟩ := h
  exact ⟨-m, e, by rwa [abs_neg], by rw [h2]; push_cast; ring⟩

/-- Floating point numbers as large as `2^e` are multiples of `2^(e-52)`. -/
theorem float_multiple {y : ℚ} (h : IsFloat y) {e : ℤ} (he : 2 ^ e ≤ |y|) :
    ∃ k : ℤ, y = k * 2 ^ (e - 52) := by
  obtain ⟨m, k, h1, h2⟩ := h
  have hm : (|m| : ℚ) < 2 ^ (53:ℤ) := by
    have : ((|m| : ℤ) : ℚ) < ((2 ^ 53 : ℤ) : ℚ) := by exact_mod_cast h1
    rw [Int.cast_abs] at this
    calc (|m| : ℚ) < _ := this
      _ = 2 ^ (53:ℤ) := by norm_num
  have hk : e - 52 ≤ k := by
    have : (2:ℚ) ^ e < 2 ^ (53 + k) := by
      calc (2:ℚ) ^ e ≤ |y| := he
        _ = |(m:ℚ)| * 2 ^ k := by rw [h2, abs_mul, abs_of_pos (zpow2_pos k)]
        _ < 2 ^ (53:ℤ) * 2 ^ k := by
            exact mul_lt_mul_of_pos_right hm (zpow2_pos k)
        _ = 2 ^ (53 + k) := by rw [zpow_add₀ (by norm_num)]
    have := (zpow_lt_zpow_iff_right₀ (by norm_num : (1:ℚ) < 2)).1 this
    omega
  obtain ⟨j, hj⟩ : ∃ j : ℕ, k = (e - 52) + j := ⟨(k - (e - 52)).toNat, by omega⟩
  refine ⟨m * 2 ^ j, ?_⟩
  rw [h2, hj, zpow_add₀ (by norm_num)]
  push_cast
  rw [zpow_natCast]; ring

/-- Some float is within half a unit in the last place. -/
theorem exists_near (x : ℚ) {e : ℤ} (h : |x| ≤ 2 ^ (e + 1)) :
    ∃ y, IsFloat y ∧ |y - x| ≤ 2 ^ (e - 53) := by
  set c : ℚ := 2 ^ (e - 52) with hc
  have c0 : 0 < c := zpow2_pos _
  have hr := abs_sub_round (x / c)
  refine ⟨(round (x / c) : ℤ) * c, isFloat_of_le ?_, ?_⟩
  · have e1 : (2:ℚ) ^ (e + 1) = 2 ^ 53 * c := by
      rw [hc, show e + 1 = 53 + (e - 52) by ring, zpow_add₀ (by norm_num)]; norm_num
    have e2 : |x / c| ≤ 2 ^ 53 := by
      rw [abs_div, abs_of_pos c0, div_le_iff₀ c0]; rw [e1] at h; exact h
    have e3 := abs_le.1 e2
    rw [abs_le]
    constructor
    · have : ((-2 ^ 53 : ℤ) : ℚ) ≤ x / c := by push_cast; exact e3.1
      have h2 : round ((-2 ^ 53 : ℤ) : ℚ) ≤ round (x / c) := by
        rw [round_eq, round_eq]; exact Int.floor_le_floor (by linarith)
      rw [round_intCast] at h2; exact h2
    · have : x / c ≤ ((2 ^ 53 : ℤ) : ℚ) := by push_cast; exact e3.2
      have h2 : round (x / c) ≤ round ((2 ^ 53 : ℤ) : ℚ) := by
        rw [round_eq, round_eq]; exact Int.floor_le_floor (by linarith)
      rw [round_intCast] at h2; exact h2
  · have : (round (x / c) : ℚ) * c - x = -(x / c - round (x / c)) * c := by field_simp; ring
    rw [this, abs_mul, abs_neg, abs_of_pos c0]
    calc _ ≤ 1 / 2 * c := mul_le_mul_of_nonneg_right hr c0.le
      _ = 2 ^ (e - 53) := by
        rw [hc, show e - 52 = (e - 53) + 1 by ring, zpow_add_one₀ (by norm_num)]; ring

variable {fl : ℚ → ℚ}

theorem fl_exact (hf : RoundsToNearest fl) {x : ℚ} (h : IsFloat x) : fl x = x := by
  have := hf.nearest x x h
  rw [sub_self, abs_zero] at this
  have := abs_eq_zero.1 (le_antisymm this (abs_nonneg _))
  linarith

theorem fl_int (hf : RoundsToNearest fl) {n : ℤ} (h : |n| ≤ 2 ^ 53) : fl (n:ℚ) = n :=
  fl_exact hf (isFloat_int h)

theorem fl_zero (hf : RoundsToNearest fl) : fl 0 = 0 := by
  have := fl_int hf (n := 0) (by norm_num)
  simpa using this

/-- Absolute error for a magnitude below a power of two. -/
theorem fl_near (hf : RoundsToNearest fl) {x : ℚ} {e : ℤ} (h : |x| ≤ 2 ^ (e + 1)) :
    |fl x - x| ≤ 2 ^ (e - 53) := by
  obtain ⟨y, h1, h2⟩ := exists_near x h
  exact (hf.nearest x y h1).trans h2

/-- Relative error. -/
theorem fl_rel (hf : RoundsToNearest fl) (x : ℚ) : |fl x - x| ≤ |x| / 2 ^ 53 := by
  rcases eq_or_ne x 0 with rfl | hx
  · rw [fl_zero hf]; simp
  · have hp : 0 < |x| := abs_pos.2 hx
    have h1 := Int.zpow_log_le_self (b := 2) (by norm_num) hp
    have h2 := Int.lt_zpow_succ_log_self (b := 2) (by norm_num) |x|
    have h3 := fl_near hf (x := x) (e := Int.log 2 |x|) (by exact_mod_cast h2.le)
    refine h3.trans ?_
    rw [zpow_sub₀ (by norm_num)]
    have : (2:ℚ) ^ (53:ℤ) = 2 ^ 53 := by norm_num
    rw [this]
    gcongr
    exact_mod_cast h1

theorem fl_err (hf : RoundsToNearest fl) {x B : ℚ} (h : |x| ≤ B) : |fl x - x| ≤ B / 2 ^ 53 :=
  (fl_rel hf x).trans (by gcongr)

theorem fl_mono (hf : RoundsToNearest fl) {x y : ℚ} (h : x ≤ y) : fl x ≤ fl y := by
  rcases eq_or_lt_of_le h with rfl | h
  · exact le_rfl
  by_contra hc
  push Not at hc
  have h1 := hf.nearest x (fl y) (hf.float y)
  have h2 := hf.nearest y (fl x) (hf.float x)
  have a1 : (fl x - x) ^ 2 ≤ (fl y - x) ^ 2 := sq_le_sq.2 h1
  have a2 : (fl y - y) ^ 2 ≤ (fl x - y) ^ 2 := sq_le_sq.2 h2
  nlinarith [mul_pos (sub_pos.2 h) (sub_pos.2 hc)]

theorem fl_le (hf : RoundsToNearest fl) {x y : ℚ} (h : x ≤ y) (hy : IsFloat y) : fl x ≤ y := by
  have := fl_mono hf h; rwa [fl_exact hf hy] at this

theorem le_fl (hf : RoundsToNearest fl) {x y : ℚ} (h : y ≤ x) (hy : IsFloat y) : y ≤ fl x := by
  have := fl_mono hf h; rwa [fl_exact hf hy] at this

theorem fl_nonneg (hf : RoundsToNearest fl) {x : ℚ} (h : 0 ≤ x) : 0 ≤ fl x := by
  have := fl_mono hf h; rwa [fl_zero hf] at this

/-- Rounding does not change the sign, and only rounds zero to zero. -/
theorem fl_pos (hf : RoundsToNearest fl) {x : ℚ} (h : 0 < x) : 0 < fl x := by
  have := fl_rel hf x
  rw [abs_of_pos h, abs_le] at this
  have : x / 2 ^ 53 < x := by rw [div_lt_iff₀ (by norm_num)]; nlinarith
  linarith

theorem fl_neg_iff (hf : RoundsToNearest fl) {x : ℚ} : fl x < 0 ↔ x < 0 := by
  constructor
  · intro h; by_contra hc; push Not at hc; have := fl_nonneg hf hc; linarith
  · intro h
    have := fl_rel hf x
    rw [abs_of_neg h, abs_le] at this
    have : -x / 2 ^ 53 < -x := by rw [div_lt_iff₀ (by norm_num)]; nlinarith
    linarith

theorem fl_eq_zero_iff (hf : RoundsToNearest fl) {x : ℚ} : fl x = 0 ↔ x = 0 := by
  constructor
  · intro h
    rcases lt_trichotomy x 0 with h1 | h1 | h1
    · have := (fl_neg_iff hf).2 h1; linarith
    · exact h1
    · have := fl_pos hf h1; linarith
  · rintro rfl; exact fl_zero hf

/-- `fmod` of a nonnegative float by a positive integer is exact: the remainder is a float. -/
theorem isFloat_fmod {x : ℚ} (h : IsFloat x) (h0 : 0 ≤ x) {b : ℕ} (b0 : 0 < b) (hb : b ≤ 2 ^ 53) :
    IsFloat (x - b * ⌊x / b⌋) := by
  have bq : (b:ℚ) ≠ 0 := by positivity
  obtain ⟨m, e, h1, h2⟩ := h
  have hm : 0 ≤ m := by
    by_contra hc; push Not at hc
    have : (m:ℚ) < 0 := by exact_mod_cast hc
    have := mul_neg_of_neg_of_pos this (zpow2_pos e)
    linarith
  rcases le_or_gt 0 e with he | he
  · obtain ⟨j, rfl⟩ := Int.eq_ofNat_of_zero_le he
    have hx : x = ((m * 2 ^ j : ℤ) : ℚ) := by rw [h2]; push_cast; rw [zpow_natCast]
    generalize m * 2 ^ j = n at hx
    have hfl : ⌊x / (b:ℚ)⌋ = n / (b : ℤ) := by
      rw [hx]; exact Rat.floor_intCast_div_natCast n b
    have p : (0:ℤ) < b := by exact_mod_cast b0
    have key : x - b * ((n / (b:ℤ) : ℤ) : ℚ) = ((n % (b:ℤ) : ℤ) : ℚ) := by
      rw [hx, Int.emod_def]; push_cast; ring
    rw [hfl, key]
    refine isFloat_int ?_
    have b1 := Int.emod_nonneg n p.ne'
    have b2 := Int.emod_lt_of_pos n p
    rw [abs_of_nonneg b1]
    have : (b:ℤ) ≤ 2 ^ 53 := by exact_mod_cast hb
    omega
  · obtain ⟨j, hj⟩ : ∃ j : ℕ, e = -(j:ℤ) := ⟨e.natAbs, by omega⟩
    have hx : x / (b:ℚ) = (m:ℚ) / ((2 ^ j * b : ℕ) : ℚ) := by
      rw [h2, hj, zpow_neg, zpow_natCast]; push_cast; field_simp
    have hfl : ⌊x / (b:ℚ)⌋ = m / ((2 ^ j * b : ℕ) : ℤ) := by
      rw [hx]; exact Rat.floor_intCast_div_natCast m (2 ^ j * b)
    refine ⟨m % ((2 ^ j * b : ℕ) : ℤ), e, ?_, ?_⟩
    · have p : (0:ℤ) < ((2 ^ j * b : ℕ) : ℤ) := by positivity
      have b1 := Int.emod_nonneg m p.ne'
      have b2 : m % ((2 ^ j * b : ℕ) : ℤ) ≤ m := by
        have := Int.mul_ediv_add_emod m ((2 ^ j * b : ℕ) : ℤ)
        have q := Int.ediv_nonneg hm p.le
        have := mul_nonneg p.le q
        omega
      rw [abs_of_nonneg b1]
      rw [abs_of_nonneg hm] at h1
      omega
    · have e2 : (2:ℚ) ^ e = 1 / 2 ^ j := by rw [hj, zpow_neg, zpow_natCast, one_div]
      rw [hfl, h2, e2, Int.emod_def]
      push_cast
      field_simp

theorem isFloat_fract {x : ℚ} (h : IsFloat x) (h0 : 0 ≤ x) : IsFloat (x - ⌊x⌋) := by
  have := isFloat_fmod h h0 (b := 1) (by norm_num) (by norm_num)
  simpa using this

/-- Rounding to nearest exists: round the significand. -/
theorem exists_rounding : ∃ fl : ℚ → ℚ, RoundsToNearest fl := by
  have : ∀ x : ℚ, ∃ y, IsFloat y ∧ ∀ z, IsFloat z → |y - x| ≤ |z - x| := by
    intro x
    rcases eq_or_ne x 0 with rfl | hx
    · exact ⟨0, ⟨0, 0, by norm_num, by simp⟩, fun z _ => by simp⟩
    have hp : 0 < |x| := abs_pos.2 hx
    set e := Int.log 2 |x| with he
    have h1 : (2:ℚ) ^ e ≤ |x| := by
      have := Int.zpow_log_le_self (b := 2) (by norm_num) hp
      exact_mod_cast this
    have h2 : |x| ≤ (2:ℚ) ^ (e + 1) := by
      have := (Int.lt_zpow_succ_log_self (b := 2) (by norm_num) |x|).le
      exact_mod_cast this
    set c : ℚ := 2 ^ (e - 52) with hc
    have c0 : 0 < c := zpow2_pos _
    have near : ∀ k : ℤ, |(round (x / c) : ℚ) * c - x| ≤ |(k:ℚ) * c - x| := by
      intro k
      have := round_le (x / c) k
      have e1 : (round (x / c) : ℚ) * c - x = -(x / c - round (x / c)) * c := by field_simp; ring
      have e2 : (k : ℚ) * c - x = -(x / c - k) * c := by field_simp; ring
      rw [e1, e2, abs_mul, abs_mul, abs_neg, abs_neg]
      exact mul_le_mul_of_nonneg_right this (abs_nonneg _)
    have e1 : (2:ℚ) ^ (e + 1) = 2 ^ 53 * c := by
      rw [hc, show e + 1 = 53 + (e - 52) by ring, zpow_add₀ (by norm_num)]; norm_num
    have e0 : (2:ℚ) ^ e = 2 ^ 52 * c := by
      rw [hc, show e = 52 + (e - 52) by ring, zpow_add₀ (by norm_num)]; norm_num
    refine ⟨(round (x / c) : ℤ) * c, isFloat_of_le ?_, ?_⟩
    · have e2 : |x / c| ≤ 2 ^ 53 := by
        rw [abs_div, abs_of_pos c0, div_le_iff₀ c0]; rw [e1] at h2; exact h2
      have e3 := abs_le.1 e2
      rw [abs_le]
      constructor
      · have : ((-2 ^ 53 : ℤ) : ℚ) ≤ x / c := by push_cast; exact e3.1
        have h2 : round ((-2 ^ 53 : ℤ) : ℚ) ≤ round (x / c) := by
          rw [round_eq, round_eq]; exact Int.floor_le_floor (by linarith)
        rw [round_intCast] at h2; exact h2
      · have : x / c ≤ ((2 ^ 53 : ℤ) : ℚ) := by push_cast; exact e3.2
        have h2 : round (x / c) ≤ round ((2 ^ 53 : ℤ) : ℚ) := by
          rw [round_eq, round_eq]; exact Int.floor_le_floor (by linarith)
        rw [round_intCast] at h2; exact h2
    · intro z hz
      rcases le_or_gt ((2:ℚ) ^ e) |z| with hz2 | hz2
      · obtain ⟨k, rfl⟩ := float_multiple hz hz2
        exact near k
      · have low : |x| - 2 ^ e ≤ |z - x| := by
          have := abs_sub_abs_le_abs_sub x z
          rw [abs_sub_comm x z] at this
          linarith
        rcases abs_cases x with ⟨a1, a2⟩ | ⟨a1, a2⟩
        · refine (near (2 ^ 52)).trans ((le_of_eq ?_).trans low)
          have e0' : ((2 ^ 52 : ℤ) : ℚ) * c = 2 ^ e := by rw [e0]; norm_num
          rw [e0', abs_sub_comm, abs_of_nonneg (by linarith)]; linarith
        · refine (near (-2 ^ 52)).trans ((le_of_eq ?_).trans low)
          have e0' : ((-2 ^ 52 : ℤ) : ℚ) * c = -2 ^ e := by rw [e0]; push_cast; ring
          rw [e0', abs_of_nonneg (by linarith)]; linarith
  choose fl h using this
  exact ⟨fl, fun x => (h x).1, fun x y hy => (h x).2 y hy⟩

end Skyfield
