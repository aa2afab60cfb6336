import Mathlib.Analysis.Complex.Exponential
import Mathlib.Analysis.Complex.Trigonometric
import Mathlib.Analysis.SpecialFunctions.Trigonometric.Bounds
import Mathlib.Analysis.Real.Pi.Bounds
import Mathlib.Tactic

/-
Numerical values of sines and cosines, from the Taylor series with its remainder.
-/
namespace Skyfield

/-- The Taylor polynomials of degree 14 and 15. -/
noncomputable def cosPoly (x : ℝ) : ℝ :=
  1 - x ^ 2 / 2 + x ^ 4 / 24 - x ^ 6 / 720 + x ^ 8 / 40320 - x ^ 10 / 3628800 + x ^ 12 / 479001600 - x ^ 14 / 87178291200
noncomputable def sinPoly (x : ℝ) : ℝ :=
  x - x ^ 3 / 6 + x ^ 5 / 120 - x ^ 7 / 5040 + x ^ 9 / 362880 - x ^ 11 / 39916800 + x ^ 13 / 6227020800 - x ^ 15 / 1307674368000

theorem exp_taylor (x : ℝ) (hx : |x| ≤ 1) :
    ‖Complex.exp (x * Complex.I) - (cosPoly x + sinPoly x * Complex.I)‖ ≤ 1e-13 := by
  have h := Complex.exp_bound (x := x * Complex.I) (by simpa using hx) (n := 16) (by norm_num)
  have e : ∑ m ∈ Finset.range 16, ((x : ℂ) * Complex.I) ^ m / (m.factorial : ℂ) = cosPoly x + sinPoly x * Complex.I := by
    have i2 : Complex.I ^ 2 = -1 := Complex.I_sq
    have i3 : Complex.I ^ 3 = -Complex.I := by rw [pow_succ, i2]; ring
    have i4 : Complex.I ^ 4 = 1 := by rw [show (4 : ℕ) = 2 * 2 from rfl, pow_mul, i2]; ring
    have key : ∀ k, Complex.I ^ (k + 4) = Complex.I ^ k := fun k => by rw [pow_add, i4, mul_one]
    have i5 : Complex.I ^ 5 = Complex.I := by rw [key 1, pow_one]
    have i6 : Complex.I ^ 6 = -1 := by rw [key 2, i2]
    have i7 : Complex.I ^ 7 = -Complex.I := by rw [key 3, i3]
    have i8 : Complex.I ^ 8 = 1 := by rw [key 4, i4]
    have i9 : Complex.I ^ 9 = Complex.I := by rw [key 5, i5]
    have i10 : Complex.I ^ 10 = -1 := by rw [key 6, i6]
    have i11 : Complex.I ^ 11 = -Complex.I := by rw [key 7, i7]
    have i12 : Complex.I ^ 12 = 1 := by rw [key 8, i8]
    have i13 : Complex.I ^ 13 = Complex.I := by rw [key 9, i9]
    have i14 : Complex.I ^ 14 = -1 := by rw [key 10, i10]
    have i15 : Complex.I ^ 15 = -Complex.I := by rw [key 11, i11]
    simp only [Finset.sum_range_succ, Finset.sum_range_zero, mul_pow, pow_zero, pow_one, i2, i3, i4, i5, i6, i7, i8, i9, i10, i11, i12,
      i13, i14, i15, Nat.factorial, cosPoly, sinPoly]
    push_cast
    ring
  rw [e] at h
  refine h.trans ?_
  have h1 : ‖(x : ℂ) * Complex.I‖ ≤ 1 := by simpa using hx
  calc ‖(x : ℂ) * Complex.I‖ ^ 16 * (((16 : ℕ).succ : ℝ) * ((16 : ℕ).factorial * (16 : ℕ) : ℝ)⁻¹)
      ≤ 1 * (((16 : ℕ).succ : ℝ) * ((16 : ℕ).factorial * (16 : ℕ) : ℝ)⁻¹) := by
        gcongr
        exact pow_le_one₀ (norm_nonneg _) h1
    _ ≤ 1e-13 := by norm_num [Nat.factorial]

theorem cos_taylor (x : ℝ) (hx : |x| ≤ 1) : |Real.cos x - cosPoly x| ≤ 1e-13 := by
  refine le_trans ?_ (exp_taylor x hx)
  refine le_trans (le_of_eq ?_) (Complex.abs_re_le_norm _)
  congr 1
  simp [Complex.exp_ofReal_mul_I_re]

theorem sin_taylor (x : ℝ) (hx : |x| ≤ 1) : |Real.sin x - sinPoly x| ≤ 1e-13 := by
  refine le_trans ?_ (exp_taylor x hx)
  refine le_trans (le_of_eq ?_) (Complex.abs_im_le_norm _)
  congr 1
  simp [Complex.exp_ofReal_mul_I_im]

/-- The cosine and sine of a number near `y`. -/
theorem trig_near {x y c s δ ε : ℝ} (hy : |y| ≤ 1) (hx : |x - y| ≤ δ) (hc : |cosPoly y - c| ≤ ε) (hs : |sinPoly y - s| ≤ ε)
    (h : δ + 1e-13 + ε ≤ 2e-13) : |Real.cos x - c| ≤ 2e-13 ∧ |Real.sin x - s| ≤ 2e-13 := by
  have h1 : |Real.cos x - Real.cos y| ≤ δ := by
    refine le_trans ?_ hx
    have := Real.abs_cos_sub_cos_le x y
    exact this
  have h2 : |Real.sin x - Real.sin y| ≤ δ := by
    refine le_trans ?_ hx
    exact Real.abs_sin_sub_sin_le x y
  have h3 := cos_taylor y hy
  have h4 := sin_taylor y hy
  rw [abs_le] at h1 h2 h3 h4 hc hs
  constructor <;> rw [abs_le] <;> constructor <;> linarith [h1.1, h1.2, h2.1, h2.2, h3.1, h3.2, h4.1, h4.2, hc.1, hc.2, hs.1, hs.2]

end Skyfield
