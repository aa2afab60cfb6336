import Verif.Model.Spherical
import Verif.Lemmas.Linear
import Mathlib.Analysis.SpecialFunctions.Trigonometric.Basic

/-
Facts about `%` and `arctan2`.
-/
namespace Skyfield

section
variable {K : Type*} [Field K] [LinearOrder K] [IsStrictOrderedRing K] [FloorRing K]

theorem pyMod_nonneg' (a : K) {b : K} (hb : 0 < b) : 0 ≤ pyMod a b := by
  unfold pyMod
  have h := Int.floor_le (a / b)
  rw [le_div_iff₀ hb] at h
  linarith [mul_comm b (⌊a / b⌋ : K)]

theorem pyMod_lt' (a : K) {b : K} (hb : 0 < b) : pyMod a b < b := by
  unfold pyMod
  have h := Int.lt_floor_add_one (a / b)
  rw [div_lt_iff₀ hb] at h
  linarith [mul_comm b (⌊a / b⌋ : K)]

theorem pyMod_unique' (a : K) {b x : K} (n : ℤ) (hb : 0 < b) (h0 : 0 ≤ x) (h1 : x < b) (h : a = x + b * n) :
    pyMod a b = x := by
  unfold pyMod
  have : ⌊a / b⌋ = n := by
    rw [Int.floor_eq_iff]
    constructor
    · rw [le_div_iff₀ hb, h]; nlinarith
    · rw [div_lt_iff₀ hb, h]; nlinarith
  rw [this, h]; ring

theorem pyMod_eq_sub' (a b : K) : ∃ n : ℤ, pyMod a b = a - b * n := ⟨_, rfl⟩
end

theorem tau_pos : 0 < tau := by unfold tau; positivity

theorem cos_pyMod_tau (a : ℝ) : Real.cos (pyMod a tau) = Real.cos a := by
  unfold pyMod tau
  rw [mul_comm]
  exact Real.cos_sub_int_mul_two_pi a _

theorem sin_pyMod_tau (a : ℝ) : Real.sin (pyMod a tau) = Real.sin a := by
  unfold pyMod tau
  rw [mul_comm]
  exact Real.sin_sub_int_mul_two_pi a _

theorem norm_mk (x y : ℝ) : ‖(⟨x, y⟩ : ℂ)‖ = hypot x y := by
  unfold hypot
  rw [Complex.norm_eq_sqrt_sq_add_sq]
  simp [pow_two]

theorem hypot_nonneg (x y : ℝ) : 0 ≤ hypot x y := Real.sqrt_nonneg _

theorem hypot_mul_self (x y : ℝ) : hypot x y * hypot x y = x * x + y * y :=
  Real.mul_self_sqrt (by nlinarith [mul_self_nonneg x, mul_self_nonneg y])

theorem hypot_mul_cos_arctan2 (y x : ℝ) : hypot x y * Real.cos (arctan2 y x) = x := by
  rw [← norm_mk]; exact Complex.norm_mul_cos_arg _

theorem hypot_mul_sin_arctan2 (y x : ℝ) : hypot x y * Real.sin (arctan2 y x) = y := by
  rw [← norm_mk]; exact Complex.norm_mul_sin_arg _

theorem arctan2_polar {r θ : ℝ} (hr : 0 < r) (h1 : -Real.pi < θ) (h2 : θ ≤ Real.pi) :
    arctan2 (r * Real.sin θ) (r * Real.cos θ) = θ := by
  have := Complex.arg_mul_cos_add_sin_mul_I hr ⟨h1, h2⟩
  refine Eq.trans ?_ this
  unfold arctan2
  congr 1
  apply Complex.ext <;> simp [Complex.cos_ofReal_re, Complex.sin_ofReal_re, Complex.cos_ofReal_im, Complex.sin_ofReal_im]

theorem arctan2_zero_zero : arctan2 0 0 = 0 := Complex.arg_zero

theorem arctan2_mem (y x : ℝ) : -Real.pi < arctan2 y x ∧ arctan2 y x ≤ Real.pi := Complex.arg_mem_Ioc _

theorem hypot_polar {r θ : ℝ} (hr : 0 ≤ r) : hypot (r * Real.cos θ) (r * Real.sin θ) = r := by
  unfold hypot
  rw [show r * Real.cos θ * (r * Real.cos θ) + r * Real.sin θ * (r * Real.sin θ) = r * r by
    linear_combination (r * r) * Real.sin_sq_add_cos_sq θ]
  exact Real.sqrt_mul_self hr

theorem hypot_hypot (x y z : ℝ) : hypot (hypot x y) z = (⟨x, y, z⟩ : Vec3).length := by
  unfold hypot Vec3.length
  rw [Real.mul_self_sqrt (by nlinarith [mul_self_nonneg x, mul_self_nonneg y])]

theorem arctan2_abs_le (y : ℝ) {x : ℝ} (hx : 0 ≤ x) : |arctan2 y x| ≤ Real.pi / 2 :=
  Complex.abs_arg_le_pi_div_two_iff.2 hx

theorem arctan2_nonneg {y : ℝ} (hy : 0 ≤ y) (x : ℝ) : 0 ≤ arctan2 y x := Complex.arg_nonneg_iff.2 hy

end Skyfield
