import Verif.Model.Propagate
import Mathlib.Analysis.SpecialFunctions.Trigonometric.Deriv
import Mathlib.Analysis.Calculus.Deriv.Pow
import Mathlib.Tactic

/-! Lemmas on the Stumpff functions and the universal functions U_k(x) = x^k c_k(f x²). -/
namespace Skyfield
open Real

/-- U0 .. U3 of universal-variable two-body theory. -/
noncomputable def uni0 (f x : ℝ) : ℝ := (stumpff (f * x * x)).c0
noncomputable def uni1 (f x : ℝ) : ℝ := x * (stumpff (f * x * x)).c1
noncomputable def uni2 (f x : ℝ) : ℝ := x * x * (stumpff (f * x * x)).c2
noncomputable def uni3 (f x : ℝ) : ℝ := x ^ 3 * (stumpff (f * x * x)).c3

theorem stumpff_zero : stumpff 0 = ⟨1, 1, 1 / 2, 1 / 6⟩ := by
  simp [stumpff]

theorem stumpff_pos {y : ℝ} (h : 0 < y) :
    stumpff y = ⟨cos √y, sin √y / √y, (1 - cos √y) / y, (1 - sin √y / √y) / y⟩ := by
  simp [stumpff, h, not_lt.2 h.le, abs_of_pos h]

theorem stumpff_neg {y : ℝ} (h : y < 0) :
    stumpff y = ⟨cosh √(-y), sinh √(-y) / √(-y), (1 - cosh √(-y)) / y, (1 - sinh √(-y) / √(-y)) / y⟩ := by
  simp [stumpff, h, abs_of_neg h]

theorem sqrt_fxx {f : ℝ} (hf : 0 ≤ f) (x : ℝ) : √(f * x * x) = √f * |x| := by
  rw [mul_assoc, sqrt_mul hf, Real.sqrt_mul_self_eq_abs]

theorem uni_pos {f : ℝ} (hf : 0 < f) (x : ℝ) :
    uni0 f x = cos (√f * x) ∧ uni1 f x = sin (√f * x) / √f ∧ uni2 f x = (1 - cos (√f * x)) / f ∧
      uni3 f x = (x - sin (√f * x) / √f) / f := by
  have hs : 0 < √f := sqrt_pos.2 hf
  have hsq : √f * √f = f := mul_self_sqrt hf.le
  rcases eq_or_ne x 0 with rfl | hx
  · simp [uni0, uni1, uni2, uni3, stumpff_zero]
  have hy : 0 < f * x * x := by rw [mul_assoc]; exact mul_pos hf (mul_self_pos.2 hx)
  have hc : cos (√f * |x|) = cos (√f * x) := by
    rcases abs_choice x with h | h <;> rw [h]
    rw [mul_neg, cos_neg]
  have hsin : sin (√f * |x|) / (√f * |x|) = sin (√f * x) / (√f * x) := by
    rcases abs_choice x with h | h <;> rw [h]
    rw [mul_neg, sin_neg, neg_div_neg_eq]
  have e := stumpff_pos hy
  rw [sqrt_fxx hf.le, hc, hsin] at e
  have hf0 := hf.ne'
  refine ⟨?_, ?_, ?_, ?_⟩
  · rw [uni0, e]
  · rw [uni1, e]; field_simp
  · rw [uni2, e]; field_simp
  · rw [uni3, e]; field_simp

theorem uni_zero (x : ℝ) : uni0 0 x = 1 ∧ uni1 0 x = x ∧ uni2 0 x = x ^ 2 / 2 ∧ uni3 0 x = x ^ 3 / 6 := by
  simp only [uni0, uni1, uni2, uni3, zero_mul, stumpff_zero]
  refine ⟨trivial, ?_, ?_, ?_⟩ <;> ring

theorem uni_neg {f : ℝ} (hf : f < 0) (x : ℝ) :
    uni0 f x = cosh (√(-f) * x) ∧ uni1 f x = sinh (√(-f) * x) / √(-f) ∧ uni2 f x = (1 - cosh (√(-f) * x)) / f ∧
      uni3 f x = (x - sinh (√(-f) * x) / √(-f)) / f := by
  have hf' : 0 < -f := by linarith
  have hs : 0 < √(-f) := sqrt_pos.2 hf'
  have hsq : √(-f) * √(-f) = -f := mul_self_sqrt hf'.le
  rcases eq_or_ne x 0 with rfl | hx
  · simp [uni0, uni1, uni2, uni3, stumpff_zero]
  have hy : f * x * x < 0 := by
    rw [mul_assoc]; exact mul_neg_of_neg_of_pos hf (mul_self_pos.2 hx)
  have hc : cosh (√(-f) * |x|) = cosh (√(-f) * x) := by
    rcases abs_choice x with h | h <;> rw [h]
    rw [mul_neg, cosh_neg]
  have hsin : sinh (√(-f) * |x|) / (√(-f) * |x|) = sinh (√(-f) * x) / (√(-f) * x) := by
    rcases abs_choice x with h | h <;> rw [h]
    rw [mul_neg, sinh_neg, neg_div_neg_eq]
  have e := stumpff_neg hy
  have ey : -(f * x * x) = -f * x * x := by ring
  rw [ey, sqrt_fxx hf'.le, hc, hsin] at e
  have hf0 := hf.ne
  refine ⟨?_, ?_, ?_, ?_⟩
  · rw [uni0, e]
  · rw [uni1, e]; field_simp
  · rw [uni2, e]; field_simp
  · rw [uni3, e]; field_simp

/-- The two algebraic identities of the universal functions. -/
theorem uni_identities (f x : ℝ) :
    uni0 f x = 1 - f * uni2 f x ∧ uni1 f x = x - f * uni3 f x ∧
      uni1 f x ^ 2 = uni2 f x * (1 + uni0 f x) := by
  rcases lt_trichotomy f 0 with hf | rfl | hf
  · obtain ⟨h0, h1, h2, h3⟩ := uni_neg hf x
    have hf' : 0 < -f := by linarith
    have hs : 0 < √(-f) := sqrt_pos.2 hf'
    have hsq : √(-f) ^ 2 = -f := sq_sqrt hf'.le
    have hf0 := hf.ne
    rw [h0, h1, h2, h3]
    refine ⟨by field_simp; ring, by field_simp; ring, ?_⟩
    have := cosh_sq (√(-f) * x)
    rw [div_pow, hsq]
    field_simp
    linarith
  · obtain ⟨h0, h1, h2, h3⟩ := uni_zero x
    rw [h0, h1, h2, h3]
    refine ⟨by ring, by ring, by ring⟩
  · obtain ⟨h0, h1, h2, h3⟩ := uni_pos hf x
    have hs : 0 < √f := sqrt_pos.2 hf
    have hsq : √f ^ 2 = f := sq_sqrt hf.le
    have hf0 := hf.ne'
    rw [h0, h1, h2, h3]
    refine ⟨by field_simp; ring, by field_simp; ring, ?_⟩
    have := sin_sq_add_cos_sq (√f * x)
    rw [div_pow, hsq]
    field_simp
    linarith

theorem uni_at_zero (f : ℝ) : uni0 f 0 = 1 ∧ uni1 f 0 = 0 ∧ uni2 f 0 = 0 ∧ uni3 f 0 = 0 := by
  simp [uni0, uni1, uni2, uni3, stumpff_zero]

/-- Derivatives of the universal functions. -/
theorem uni_deriv (f x : ℝ) :
    HasDerivAt (uni0 f) (-f * uni1 f x) x ∧ HasDerivAt (uni1 f) (uni0 f x) x ∧
      HasDerivAt (uni2 f) (uni1 f x) x ∧ HasDerivAt (uni3 f) (uni2 f x) x := by
  rcases lt_trichotomy f 0 with hf | rfl | hf
  · have hf' : 0 < -f := by linarith
    have hs : 0 < √(-f) := sqrt_pos.2 hf'
    have hsq : √(-f) ^ 2 = -f := sq_sqrt hf'.le
    have hf0 := hf.ne
    obtain ⟨h0, h1, h2, h3⟩ := uni_neg hf x
    have e0 : uni0 f = fun x => cosh (√(-f) * x) := funext fun x => (uni_neg hf x).1
    have e1 : uni1 f = fun x => sinh (√(-f) * x) / √(-f) := funext fun x => (uni_neg hf x).2.1
    have e2 : uni2 f = fun x => (1 - cosh (√(-f) * x)) / f := funext fun x => (uni_neg hf x).2.2.1
    have e3 : uni3 f = fun x => (x - sinh (√(-f) * x) / √(-f)) / f := funext fun x => (uni_neg hf x).2.2.2
    have hl : HasDerivAt (fun x => √(-f) * x) √(-f) x := by
      simpa using (hasDerivAt_id x).const_mul √(-f)
    have dc := hl.cosh
    have ds := hl.sinh
    rw [h0, h1, h2, e0, e1, e2, e3]
    refine ⟨dc.congr_deriv ?_, (ds.div_const _).congr_deriv ?_, ((dc.const_sub 1).div_const _).congr_deriv ?_,
      (((hasDerivAt_id x).sub (ds.div_const _)).div_const _).congr_deriv ?_⟩
    · field_simp; linear_combination sinh (√(-f) * x) * hsq
    · field_simp
    · field_simp; linear_combination -sinh (√(-f) * x) * hsq
    · field_simp
  · have e0 : uni0 0 = fun _ => (1 : ℝ) := funext fun x => (uni_zero x).1
    have e1 : uni1 0 = fun x => x := funext fun x => (uni_zero x).2.1
    have e2 : uni2 0 = fun x => x ^ 2 / 2 := funext fun x => (uni_zero x).2.2.1
    have e3 : uni3 0 = fun x => x ^ 3 / 6 := funext fun x => (uni_zero x).2.2.2
    rw [e0, e1, e2, e3]
    refine ⟨(hasDerivAt_const x (1:ℝ)).congr_deriv (by simp), hasDerivAt_id x,
      ((hasDerivAt_pow 2 x).div_const 2).congr_deriv ?_, ((hasDerivAt_pow 3 x).div_const 6).congr_deriv ?_⟩
    · norm_num
    · norm_num; ring
  · have hs : 0 < √f := sqrt_pos.2 hf
    have hsq : √f ^ 2 = f := sq_sqrt hf.le
    have hf0 := hf.ne'
    obtain ⟨h0, h1, h2, h3⟩ := uni_pos hf x
    have e0 : uni0 f = fun x => cos (√f * x) := funext fun x => (uni_pos hf x).1
    have e1 : uni1 f = fun x => sin (√f * x) / √f := funext fun x => (uni_pos hf x).2.1
    have e2 : uni2 f = fun x => (1 - cos (√f * x)) / f := funext fun x => (uni_pos hf x).2.2.1
    have e3 : uni3 f = fun x => (x - sin (√f * x) / √f) / f := funext fun x => (uni_pos hf x).2.2.2
    have hl : HasDerivAt (fun x => √f * x) √f x := by
      simpa using (hasDerivAt_id x).const_mul √f
    have dc := hl.cos
    have ds := hl.sin
    rw [h0, h1, h2, e0, e1, e2, e3]
    refine ⟨dc.congr_deriv ?_, (ds.div_const _).congr_deriv ?_, ((dc.const_sub 1).div_const _).congr_deriv ?_,
      (((hasDerivAt_id x).sub (ds.div_const _)).div_const _).congr_deriv ?_⟩
    · field_simp; linear_combination -sin (√f * x) * hsq
    · field_simp
    · field_simp; linear_combination sin (√f * x) * hsq
    · field_simp

end Skyfield
