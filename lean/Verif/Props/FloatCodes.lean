import Verif.Model.FloatCodes
import Verif.Lemmas.FloatTime
import Mathlib.Tactic.NormNum.GCD
import Mathlib.Tactic.Positivity

/-
C87: angles brought into one turn, and the codes of seasons, phases and conjunctions, in floating point.
-/
namespace Skyfield
open Spec

variable {fl : ℚ → ℚ}

/-! ### Remainders -/

/-- `fmod` of a nonnegative float by a positive float is exact: the remainder is a float. -/
theorem isFloat_fmod_float {x b : ℚ} (hx : IsFloat x) (h0 : 0 ≤ x) (hb : IsFloat b) (b0 : 0 < b) :
    IsFloat (x - b * ⌊x / b⌋) := by
  obtain ⟨m, e, hm, rfl⟩ := hx
  obtain ⟨n, f, hn, rfl⟩ := hb
  have pos : ∀ (k g : ℤ), 0 < (k : ℚ) * 2 ^ g → 0 < k := fun k g h => by
    have := (mul_pos_iff_of_pos_right (zpow2_pos g)).1 h
    exact_mod_cast this
  have nonneg : ∀ (k g : ℤ), 0 ≤ (k : ℚ) * 2 ^ g → 0 ≤ k := fun k g h => by
    have := (mul_nonneg_iff_of_pos_right (zpow2_pos g)).1 h
    exact_mod_cast this
  have hn0 := pos n f b0
  have hm0 := nonneg m e h0
  -- both are multiples of the smaller power of two
  have main : ∀ (M N g : ℤ), 0 ≤ M → 0 < N → (M < 2 ^ 53 ∨ N < 2 ^ 53) →
      IsFloat ((M : ℚ) * 2 ^ g - (N : ℚ) * 2 ^ g * ⌊(M : ℚ) * 2 ^ g / ((N : ℚ) * 2 ^ g)⌋) := by
    intro M N g hM hN hlt
    have h2 : (2 : ℚ) ^ g ≠ 0 := (zpow2_pos g).ne'
    obtain ⟨j, hj⟩ := Int.eq_ofNat_of_zero_le hN.le
    have hfl : ⌊(M : ℚ) * 2 ^ g / ((N : ℚ) * 2 ^ g)⌋ = M / N := by
      rw [mul_div_mul_right _ _ h2, hj]
      exact Rat.floor_intCast_div_natCast M j
    rw [hfl]
    refine ⟨M % N, g, ?_, ?_⟩
    · have b1 := Int.emod_nonneg M hN.ne'
      have b2 := Int.emod_lt_of_pos M hN
      have b3 : M % N ≤ M := by
        have := Int.mul_ediv_add_emod M N
        have q := mul_nonneg hN.le (Int.ediv_nonneg hM hN.le)
        omega
      rw [abs_of_nonneg b1]
      rcases hlt with h | h <;> omega
    · rw [Int.emod_def]; push_cast; ring
  rcases le_total e f with h | h
  · obtain ⟨j, rfl⟩ := Int.le.dest h
    have hb' : (n : ℚ) * 2 ^ (e + (j : ℤ)) = ((n * 2 ^ j : ℤ) : ℚ) * 2 ^ e := by
      rw [zpow_add₀ (by norm_num), zpow_natCast]; push_cast; ring
    rw [hb']
    exact main m _ e hm0 (by positivity) (Or.inl (by rwa [abs_of_nonneg hm0] at hm))
  · obtain ⟨j, rfl⟩ := Int.le.dest h
    have hx' : (m : ℚ) * 2 ^ (f + (j : ℤ)) = ((m * 2 ^ j : ℤ) : ℚ) * 2 ^ f := by
      rw [zpow_add₀ (by norm_num), zpow_natCast]; push_cast; ring
    rw [hx']
    exact main _ n f (by positivity) hn0 (Or.inr (by rwa [abs_of_pos hn0] at hn))

theorem remainder_bounds {x b : ℚ} (b0 : 0 < b) : 0 ≤ x - b * ⌊x / b⌋ ∧ x - b * ⌊x / b⌋ < b := by
  have h1 := Int.floor_le (x / b)
  have h2 := Int.lt_floor_add_one (x / b)
  rw [le_div_iff₀ b0] at h1
  rw [div_lt_iff₀ b0] at h2
  constructor <;> linarith

/-- **C87.** `x % b` on floats, for a positive divisor, lies between zero and the divisor *inclusive*, and differs by at most a
rounding from `x` less a whole number of divisors. -/
theorem C87_modulo (hf : RoundsToNearest fl) {x b : ℚ} (hb : IsFloat b) (b0 : 0 < b) :
    0 ≤ modF fl x b ∧ modF fl x b ≤ b ∧ ∃ k : ℤ, |modF fl x b - (x - b * k)| ≤ b / 2 ^ 53 := by
  obtain ⟨h1, h2⟩ := remainder_bounds (x := x) b0
  refine ⟨fl_nonneg hf h1, fl_le hf h2.le hb, ⌊x / b⌋, ?_⟩
  exact fl_err hf (by rw [abs_of_nonneg h1]; exact h2.le)

/-- **C87.** For a float that is not negative `x % b` is exact, and less than the divisor. -/
theorem C87_modulo_exact (hf : RoundsToNearest fl) {x b : ℚ} (hx : IsFloat x) (x0 : 0 ≤ x) (hb : IsFloat b) (b0 : 0 < b) :
    modF fl x b < b ∧ ∃ k : ℤ, modF fl x b = x - b * k := by
  have e : modF fl x b = x - b * ⌊x / b⌋ := fl_exact hf (isFloat_fmod_float hx x0 hb b0)
  exact ⟨e ▸ (remainder_bounds b0).2, ⌊x / b⌋, e⟩

/-- A number just below a float rounds up to it. -/
theorem fl_below (hf : RoundsToNearest fl) {b d : ℚ} (hb : IsFloat b) (b0 : 0 < b) (d0 : 0 ≤ d) (hd : d ≤ b / 2 ^ 56) :
    fl (b - d) = b := by
  -- the spacing below `b` is at least `b / 2 ^ 53`
  obtain ⟨m, e, hm, he⟩ := hf.float (b - d)
  obtain ⟨n, f, hn, hf'⟩ := hb
  have hn0 : 0 < n := by
    rw [hf'] at b0
    have := (mul_pos_iff_of_pos_right (zpow2_pos f)).1 b0
    exact_mod_cast this
  have hnear := hf.nearest (b - d) b ⟨n, f, hn, hf'⟩
  rw [show b - (b - d) = d by ring, abs_of_nonneg d0, abs_le] at hnear
  by_contra hne
  have hle : fl (b - d) ≤ b := fl_le hf (by linarith) ⟨n, f, hn, hf'⟩
  have hlt : fl (b - d) < b := lt_of_le_of_ne hle hne
  have hpos : 0 < fl (b - d) := fl_pos hf (by
    have : b / 2 ^ 56 < b := by rw [div_lt_iff₀ (by norm_num)]; nlinarith
    linarith)
  have hm0 : 0 < m := by
    rw [he] at hpos
    have := (mul_pos_iff_of_pos_right (zpow2_pos e)).1 hpos
    exact_mod_cast this
  rw [abs_of_pos hm0] at hm
  rw [abs_of_pos hn0] at hn
  -- two floats that differ do so by at least the smaller of their units
  have hgap : fl (b - d) + b / 2 ^ 54 ≤ b ∨ fl (b - d) ≤ b / 2 := by
    rcases le_total e f with h | h
    · obtain ⟨j, rfl⟩ := Int.le.dest h
      have hb' : b = ((n * 2 ^ j : ℤ) : ℚ) * 2 ^ e := by
        rw [hf', zpow_add₀ (by norm_num), zpow_natCast]; push_cast; ring
      have hlt' : m < n * 2 ^ j := by
        rw [he, hb'] at hlt
        have := (mul_lt_mul_iff_left₀ (zpow2_pos e)).1 hlt
        exact_mod_cast this
      rcases lt_or_ge (n * 2 ^ j) (2 * m) with h2 | h2
      · left
        have h3 : (m : ℚ) + 1 ≤ ((n * 2 ^ j : ℤ) : ℚ) := by exact_mod_cast hlt'
        have h4 : ((n * 2 ^ j : ℤ) : ℚ) / 2 ^ 54 ≤ 1 := by
          rw [div_le_one (by norm_num)]
          have : n * 2 ^ j ≤ 2 ^ 54 := by omega
          exact_mod_cast this
        have h5 : (m : ℚ) + ((n * 2 ^ j : ℤ) : ℚ) / 2 ^ 54 ≤ ((n * 2 ^ j : ℤ) : ℚ) := by linarith
        rw [he, hb']
        calc (m : ℚ) * 2 ^ e + ((n * 2 ^ j : ℤ) : ℚ) * 2 ^ e / 2 ^ 54
            = (m + ((n * 2 ^ j : ℤ) : ℚ) / 2 ^ 54) * 2 ^ e := by ring
          _ ≤ _ := mul_le_mul_of_nonneg_right h5 (zpow2_pos e).le
      · right
        have h3 : (m : ℚ) ≤ ((n * 2 ^ j : ℤ) : ℚ) / 2 := by
          rw [le_div_iff₀ (by norm_num)]
          have : m * 2 ≤ n * 2 ^ j := by omega
          exact_mod_cast this
        rw [he, hb']
        calc (m : ℚ) * 2 ^ e ≤ ((n * 2 ^ j : ℤ) : ℚ) / 2 * 2 ^ e := mul_le_mul_of_nonneg_right h3 (zpow2_pos e).le
          _ = _ := by ring
    · left
      obtain ⟨j, rfl⟩ := Int.le.dest h
      have hx' : fl (b - d) = ((m * 2 ^ j : ℤ) : ℚ) * 2 ^ f := by
        rw [he, zpow_add₀ (by norm_num), zpow_natCast]; push_cast; ring
      have hlt' : m * 2 ^ j < n := by
        rw [hx', hf'] at hlt
        have := (mul_lt_mul_iff_left₀ (zpow2_pos f)).1 hlt
        exact_mod_cast this
      have h3 : ((m * 2 ^ j : ℤ) : ℚ) + 1 ≤ n := by exact_mod_cast hlt'
      have h4 : (n : ℚ) / 2 ^ 54 ≤ 1 := by
        rw [div_le_one (by norm_num)]
        have : n ≤ 2 ^ 54 := by omega
        exact_mod_cast this
      rw [hx', hf']
      calc ((m * 2 ^ j : ℤ) : ℚ) * 2 ^ f + (n : ℚ) * 2 ^ f / 2 ^ 54 = (((m * 2 ^ j : ℤ) : ℚ) + (n : ℚ) / 2 ^ 54) * 2 ^ f := by ring
        _ ≤ _ := mul_le_mul_of_nonneg_right (by linarith) (zpow2_pos f).le
  have e54 : b / 2 ^ 54 = 4 * (b / 2 ^ 56) := by ring
  have e56 : 0 < b / 2 ^ 56 := by positivity
  have e2 : 4 * (b / 2 ^ 56) < b / 2 := by
    have : b / 2 = 2 ^ 55 * (b / 2 ^ 56) := by ring
    rw [this]; nlinarith
  rcases hgap with h | h <;> linarith

/-- **C87.** An angle a tiny bit below zero becomes the whole turn: the result is not below the divisor. -/
theorem C87_modulo_reaches (hf : RoundsToNearest fl) {x b : ℚ} (hb : IsFloat b) (b0 : 0 < b) (hx : x < 0) (hx' : -x ≤ b / 2 ^ 56) :
    modF fl x b = b := by
  have h1 : b / 2 ^ 56 < b := by rw [div_lt_iff₀ (by norm_num)]; nlinarith
  have hfl : ⌊x / b⌋ = -1 := by
    rw [Int.floor_eq_iff]
    push_cast
    rw [le_div_iff₀ b0, div_lt_iff₀ b0]
    constructor <;> linarith
  have : modF fl x b = fl (b - -x) := by
    unfold modF divmodF
    simp only [hfl]
    congr 1
    push_cast
    ring
  rw [this]
  exact fl_below hf hb b0 (by linarith) hx'

/-- **C87.** And only such an angle does: if the result is the divisor, the angle was less than a rounding below a multiple of it. -/
theorem C87_modulo_full (hf : RoundsToNearest fl) {x b : ℚ} (hx : IsFloat x) (hb : IsFloat b) (b0 : 0 < b) (h : modF fl x b = b) :
    x < 0 ∧ ∃ k : ℤ, 0 < b * k - x ∧ b * k - x ≤ b / 2 ^ 53 := by
  refine ⟨?_, ⌊x / b⌋ + 1, ?_, ?_⟩
  · by_contra hc
    have := (C87_modulo_exact hf hx (not_lt.1 hc) hb b0).1
    linarith
  · have := (remainder_bounds (x := x) b0).2
    push_cast; linarith
  · obtain ⟨h1, h2⟩ := remainder_bounds (x := x) b0
    have h3 : |fl (x - b * ⌊x / b⌋) - (x - b * ⌊x / b⌋)| ≤ b / 2 ^ 53 := fl_err hf (by rw [abs_of_nonneg h1]; exact h2.le)
    have h4 : fl (x - b * ⌊x / b⌋) = b := h
    rw [h4, abs_le] at h3
    push_cast; linarith [h3.2]

/-! ### Angles -/

theorem isFloat_tauF (hf : RoundsToNearest fl) : IsFloat (tauF fl) := hf.float _
theorem tauF_positive (hf : RoundsToNearest fl) : 0 < tauF fl := fl_pos hf (by norm_num)

/-- **C87.** Longitudes and right ascensions lie between zero and a whole turn inclusive; sidereal time between 0 and 24 hours
inclusive, the Earth's rotation between 0 and 1 inclusive. -/
theorem C87_ranges (hf : RoundsToNearest fl) (x th jd fr : ℚ) :
    (0 ≤ longitudeF fl x ∧ longitudeF fl x ≤ tauF fl) ∧ (0 ≤ siderealHoursF fl x ∧ siderealHoursF fl x ≤ 24) ∧
    (0 ≤ earthRotationF fl th jd fr ∧ earthRotationF fl th jd fr ≤ 1) := by
  have h24 : IsFloat (24 : ℚ) := by exact_mod_cast isFloat_int (n := 24) (by norm_num)
  have h1 : IsFloat (1 : ℚ) := by exact_mod_cast isFloat_int (n := 1) (by norm_num)
  have a := C87_modulo hf (x := x) (isFloat_tauF hf) (tauF_positive hf)
  have b := C87_modulo hf (x := x) h24 (by norm_num)
  have c := C87_modulo hf (x := fl (fl (modF fl th 1 + modF fl jd 1) + fr)) h1 (by norm_num)
  exact ⟨⟨a.1, a.2.1⟩, ⟨b.1, b.2.1⟩, c.1, c.2.1⟩

/-- `pi`, as the float is, lies between 3 and 4. -/
theorem piF_bounds (hf : RoundsToNearest fl) : 3 ≤ piF fl ∧ piF fl ≤ 4 := by
  constructor
  · exact le_fl hf (by norm_num) (by exact_mod_cast isFloat_int (n := 3) (by norm_num))
  · exact fl_le hf (by norm_num) (by exact_mod_cast isFloat_int (n := 4) (by norm_num))

theorem isFloat_quarter {y : ℚ} (h : IsFloat y) : IsFloat (y / 4) := by
  obtain ⟨m, e, hm, rfl⟩ := h
  refine ⟨m, e - 2, hm, ?_⟩
  rw [zpow_sub₀ (by norm_num)]
  norm_num
  ring

/-- A number between two and eight rounds to the multiple of its unit that it is nearest to. -/
theorem fl_in_binade (hf : RoundsToNearest fl) {x : ℚ} {e c : ℤ} (h0 : 2 ^ e ≤ x) (h1 : IsFloat ((2 : ℚ) ^ e)) (hc : |c| < 2 ^ 53)
    (hx : |c * 2 ^ (e - 52) - x| < 2 ^ (e - 52) / 2) : fl x = c * 2 ^ (e - 52) := by
  have u := zpow2_pos (e - 52)
  have hn := hf.nearest x _ ⟨c, e - 52, hc, rfl⟩
  have hp := zpow2_pos e
  have hle : (2 : ℚ) ^ e ≤ fl x := le_fl hf h0 h1
  obtain ⟨k, hk⟩ := float_multiple (hf.float x) (e := e) (by rwa [abs_of_nonneg (by linarith)])
  rw [hk] at hn ⊢
  have h3 : |((k - c : ℤ) : ℚ) * 2 ^ (e - 52)| < 2 ^ (e - 52) := by
    have := abs_sub_le ((k : ℚ) * 2 ^ (e - 52)) x (c * 2 ^ (e - 52))
    rw [abs_sub_comm x] at this
    have e1 : ((k - c : ℤ) : ℚ) * 2 ^ (e - 52) = k * 2 ^ (e - 52) - c * 2 ^ (e - 52) := by push_cast; ring
    rw [e1]
    linarith
  rw [abs_mul, abs_of_pos u] at h3
  have h4 : |((k - c : ℤ) : ℚ)| < 1 := by
    by_contra hc'
    have := mul_le_mul_of_nonneg_right (not_lt.1 hc') u.le
    linarith
  have h5 : |k - c| < 1 := by exact_mod_cast h4
  have h6 : k = c := by
    rw [Int.abs_lt_one_iff] at h5
    omega
  rw [h6]

/-- The floats that `pi` and `tau` stand for. -/
theorem piF_eq (hf : RoundsToNearest fl) : piF fl = 7074237752028440 / 2 ^ 51 := by
  unfold piF
  rw [fl_in_binade hf (e := 1) (c := 7074237752028440) (by norm_num) ⟨1, 1, by norm_num, by norm_num⟩ (by norm_num)
    (by rw [abs_lt]; norm_num [zpow_neg])]
  norm_num [zpow_neg]

theorem tauF_eq (hf : RoundsToNearest fl) : tauF fl = 7074237752028440 / 2 ^ 50 := by
  unfold tauF
  rw [fl_in_binade hf (e := 2) (c := 7074237752028440) (by norm_num) ⟨1, 2, by norm_num, by norm_num⟩ (by norm_num)
    (by rw [abs_lt]; norm_num [zpow_neg])]
  norm_num [zpow_neg]

/-- **C87.** The float `tau` is exactly twice the float `pi`. -/
theorem C87_tau_is_two_pi (hf : RoundsToNearest fl) : tauF fl = 2 * piF fl := by
  rw [piF_eq hf, tauF_eq hf]; norm_num

/-- **C87.** Hour angles and the longitudes of places lie between minus and plus half a turn inclusive, the phase of the Moon between
zero and a whole turn inclusive. -/
theorem C87_half_turns (hf : RoundsToNearest fl) (x m s : ℚ) :
    (-piF fl ≤ normpiF fl x ∧ normpiF fl x ≤ piF fl) ∧ (0 ≤ moonPhaseF fl m s ∧ moonPhaseF fl m s ≤ tauF fl) := by
  have hp : IsFloat (piF fl) := hf.float _
  have e := C87_tau_is_two_pi hf
  obtain ⟨a, b, -⟩ := C87_modulo hf (x := x) (isFloat_tauF hf) (tauF_positive hf)
  obtain ⟨c, d, -⟩ := C87_modulo hf (x := fl (m - s)) (isFloat_tauF hf) (tauF_positive hf)
  refine ⟨⟨le_fl hf (by linarith) (isFloat_neg hp), fl_le hf (by linarith) hp⟩, c, d⟩

/-- **C87.** The side of the meridian (`meridian_transits`) is the true one, except within a few roundings of the meridian: if the code
is 1 the right ascensions differ, up to whole turns, by at least zero and at most half a turn, if it is 0 by half a turn to
a whole one, each within `tau / 2⁵²`. -/
theorem C87_meridian (hf : RoundsToNearest fl) (ra1 ra2 : ℚ) (h1 : 0 ≤ ra1 ∧ ra1 ≤ tauF fl) (h2 : 0 ≤ ra2 ∧ ra2 ≤ tauF fl) :
    ∃ k : ℤ, ∃ r : ℚ, |r - (ra1 - ra2 - tauF fl * k)| ≤ tauF fl / 2 ^ 52 ∧
      (westOfMeridianAtF fl ra1 ra2 = true → 0 ≤ r ∧ r < tauF fl / 2) ∧
      (westOfMeridianAtF fl ra1 ra2 = false → tauF fl / 2 ≤ r ∧ r ≤ tauF fl) := by
  have e := C87_tau_is_two_pi hf
  obtain ⟨a, b, k, hk⟩ := C87_modulo hf (x := fl (ra1 - ra2)) (isFloat_tauF hf) (tauF_positive hf)
  refine ⟨k, modF fl (fl (ra1 - ra2)) (tauF fl), ?_, ?_, ?_⟩
  · have h3 := fl_err hf (x := ra1 - ra2) (B := tauF fl) (by rw [abs_le]; constructor <;> linarith)
    rw [abs_le] at hk h3 ⊢
    have : tauF fl / 2 ^ 52 = tauF fl / 2 ^ 53 + tauF fl / 2 ^ 53 := by ring
    rw [this]
    constructor <;> linarith
  · intro h
    have : modF fl (fl (ra1 - ra2)) (tauF fl) < piF fl := by simpa [westOfMeridianAtF] using h
    exact ⟨a, by linarith⟩
  · intro h
    have : piF fl ≤ modF fl (fl (ra1 - ra2)) (tauF fl) := by simpa [westOfMeridianAtF] using h
    exact ⟨by linarith, b⟩

/-! ### Codes -/

theorem astypeInt_int (n : ℤ) : astypeInt (n : ℚ) = n := by
  unfold astypeInt
  split <;> simp

theorem code_eq (hf : RoundsToNearest fl) (x q : ℚ) {n : ℕ} (n0 : 0 < n) (hn : n ≤ 2 ^ 53) :
    astypeInt (modF fl (floorDivF fl x q) n) = ⌊x / q⌋ % n := by
  unfold modF floorDivF
  have h1 : (divmodF fl x q).1 = ((⌊x / q⌋ : ℤ) : ℚ) := rfl
  rw [h1, divmodF_int hf _ n0 hn]
  exact astypeInt_int _

/-- **C87.** In floating point too the codes of the seasons, of the Moon's phases and of the solar terms are in range, and name
the quarter (or the twenty-fourth) of the turn in which the longitude lies. -/
theorem C87_codes (hf : RoundsToNearest fl) (slon mlon : ℚ) :
    seasonAtF fl slon = ⌊slon / (tauF fl / 4)⌋ % 4 ∧
    moonPhaseAtF fl mlon slon = ⌊fl (mlon - slon) / (tauF fl / 4)⌋ % 4 ∧
    solarTermAtF fl slon = ⌊slon / fl (tauF fl / 24)⌋ % 24 ∧
    (0 ≤ seasonAtF fl slon ∧ seasonAtF fl slon ≤ 3) ∧ (0 ≤ moonPhaseAtF fl mlon slon ∧ moonPhaseAtF fl mlon slon ≤ 3) ∧
    (0 ≤ solarTermAtF fl slon ∧ solarTermAtF fl slon ≤ 23) := by
  have q : fl (tauF fl / 4) = tauF fl / 4 := fl_exact hf (isFloat_quarter (isFloat_tauF hf))
  have e1 : seasonAtF fl slon = ⌊slon / (tauF fl / 4)⌋ % 4 := by
    have := code_eq hf slon (fl (tauF fl / 4)) (n := 4) (by norm_num) (by norm_num)
    rw [q] at this
    unfold seasonAtF
    rw [q]
    exact_mod_cast this
  have e2 : moonPhaseAtF fl mlon slon = ⌊fl (mlon - slon) / (tauF fl / 4)⌋ % 4 := by
    have := code_eq hf (fl (mlon - slon)) (fl (tauF fl / 4)) (n := 4) (by norm_num) (by norm_num)
    rw [q] at this
    unfold moonPhaseAtF
    rw [q]
    exact_mod_cast this
  have e3 : solarTermAtF fl slon = ⌊slon / fl (tauF fl / 24)⌋ % 24 := by
    have := code_eq hf slon (fl (tauF fl / 24)) (n := 24) (by norm_num) (by norm_num)
    unfold solarTermAtF
    exact_mod_cast this
  refine ⟨e1, e2, e3, ?_, ?_, ?_⟩
  · rw [e1]; omega
  · rw [e2]; omega
  · rw [e3]; omega

/-- **C87.** A longitude that was brought to the whole turn counts as zero: it is in the first season. -/
theorem C87_whole_turn_is_spring (hf : RoundsToNearest fl) : seasonAtF fl (tauF fl) = seasonAtF fl 0 := by
  have h := tauF_positive hf
  rw [(C87_codes hf (tauF fl) 0).1, (C87_codes hf 0 0).1]
  have : tauF fl / (tauF fl / 4) = (4 : ℤ) := by push_cast; field_simp
  rw [this, Int.floor_intCast]
  simp

/-- **C87.** The side of the Sun on which a planet stands (`oppositions_conjunctions`) is coded 0, 1 or 2, where 2 is neither of the
two documented values; it comes out only if the longitudes differ by less than a rounding from a multiple of a turn. -/
theorem C87_conjunction_code (hf : RoundsToNearest fl) (slon tlon : ℚ) :
    0 ≤ leadingOrTrailingF fl slon tlon ∧ leadingOrTrailingF fl slon tlon ≤ 2 ∧
    (leadingOrTrailingF fl slon tlon = 2 →
      ∃ k : ℤ, 0 < 2 * k - fl (fl (slon - tlon) / piF fl) ∧ 2 * k - fl (fl (slon - tlon) / piF fl) ≤ 2 / 2 ^ 53) := by
  have h2 : IsFloat (2 : ℚ) := by exact_mod_cast isFloat_int (n := 2) (by norm_num)
  obtain ⟨a, b, -⟩ := C87_modulo hf (x := fl (fl (slon - tlon) / piF fl)) h2 (by norm_num)
  have e : leadingOrTrailingF fl slon tlon = ⌊modF fl (fl (fl (slon - tlon) / piF fl)) 2⌋ := by
    unfold leadingOrTrailingF astypeInt
    rw [if_pos a]
  rw [e]
  refine ⟨Int.floor_nonneg.2 a, ?_, ?_⟩
  · have := Int.floor_mono b
    rwa [show ⌊(2 : ℚ)⌋ = 2 from by rw [show (2 : ℚ) = ((2 : ℤ) : ℚ) by norm_num, Int.floor_intCast]] at this
  · intro h
    have : (2 : ℚ) ≤ modF fl (fl (fl (slon - tlon) / piF fl)) 2 := by
      have := Int.floor_le (modF fl (fl (fl (slon - tlon) / piF fl)) 2)
      rw [h] at this
      exact_mod_cast this
    exact (C87_modulo_full hf (hf.float _) h2 (by norm_num) (le_antisymm b this)).2

/-- **C87** (a defect). Whenever the planet's longitude exceeds the Sun's by a positive amount of at most 2⁻⁵⁴, the code is 2: an event
with this value cannot be looked up among the two names of `CONJUNCTIONS`. -/
theorem C87_conjunction_code_two (hf : RoundsToNearest fl) (slon tlon : ℚ) (h : slon < tlon) (h' : tlon - slon ≤ 1 / 2 ^ 54) :
    leadingOrTrailingF fl slon tlon = 2 := by
  have h2 : IsFloat (2 : ℚ) := by exact_mod_cast isFloat_int (n := 2) (by norm_num)
  obtain ⟨p3, p4⟩ := piF_bounds hf
  obtain ⟨d, hd⟩ : ∃ d, d = fl (slon - tlon) := ⟨_, rfl⟩
  have hd0 : d < 0 := by rw [hd]; exact (fl_neg_iff hf).2 (by linarith)
  have hd1 : -(1 / 2 ^ 54) ≤ d := by
    rw [hd]
    refine le_fl hf (by linarith) ⟨-1, -54, by norm_num, by norm_num [zpow_neg]⟩
  have hp : 0 < piF fl := by linarith
  have hq0 : fl (d / piF fl) < 0 := (fl_neg_iff hf).2 (div_neg_of_neg_of_pos hd0 hp)
  have hq1 : -(1 / 2 ^ 55) ≤ fl (d / piF fl) := by
    refine le_fl hf ?_ ⟨-1, -55, by norm_num, by norm_num [zpow_neg]⟩
    rw [le_div_iff₀ hp]
    norm_num at hd1 ⊢
    linarith
  have hm : modF fl (fl (d / piF fl)) 2 = 2 := C87_modulo_reaches hf h2 (by norm_num) hq0 (by norm_num at hq1 ⊢; linarith)
  unfold leadingOrTrailingF
  rw [← hd, hm]
  exact_mod_cast astypeInt_int 2

/-- Two neighbouring floats near a quarter of a radian: the planet leads by 2⁻⁵⁴. -/
example : IsFloat (1 / 4) ∧ IsFloat (1 / 4 + 1 / 2 ^ 54) ∧ (1 / 4 : ℚ) < 1 / 4 + 1 / 2 ^ 54 ∧
    ∃ fl : ℚ → ℚ, RoundsToNearest fl ∧ leadingOrTrailingF fl (1 / 4) (1 / 4 + 1 / 2 ^ 54) = 2 := by
  refine ⟨⟨1, -2, by norm_num, by norm_num [zpow_neg]⟩, ⟨2 ^ 52 + 1, -54, by norm_num, by norm_num [zpow_neg]⟩, by norm_num, ?_⟩
  obtain ⟨fl, hf⟩ := exists_rounding
  exact ⟨fl, hf, C87_conjunction_code_two hf _ _ (by norm_num) (by norm_num)⟩

/-- A right ascension that comes out as a whole turn. -/
example : ∃ fl : ℚ → ℚ, RoundsToNearest fl ∧ longitudeF fl (-(1 / 2 ^ 60)) = tauF fl := by
  obtain ⟨fl, hf⟩ := exists_rounding
  have h : 6 ≤ tauF fl := le_fl hf (by norm_num) (by exact_mod_cast isFloat_int (n := 6) (by norm_num))
  refine ⟨fl, hf, C87_modulo_reaches hf (isFloat_tauF hf) (tauF_positive hf) (by norm_num) ?_⟩
  norm_num
  linarith

end Skyfield
