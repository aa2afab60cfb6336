import Verif.Props.Rotations
import Mathlib.Analysis.SpecialFunctions.Trigonometric.Bounds
import Mathlib.Analysis.Calculus.Deriv.MeanValue
import Mathlib.Tactic.LinearCombination

/-
How far apart two matrices are, as functions of a vector.
-/
namespace Skyfield
open Real

/-- Specification: the two matrices send every vector to vectors no further apart than `ε` times its length. -/
def NearMatrices (ε : ℝ) (m n : Mat3) : Prop := ∀ v : Vec3, (m.mulVec v - n.mulVec v).length ≤ ε * v.length

namespace NearMatrices

theorem mono {ε δ : ℝ} {m n : Mat3} (h : NearMatrices ε m n) (he : ε ≤ δ) : NearMatrices δ m n := fun v =>
  (h v).trans (mul_le_mul_of_nonneg_right he (Vec3.length_nonneg v))

theorem symm {ε : ℝ} {m n : Mat3} (h : NearMatrices ε m n) : NearMatrices ε n m := fun v => by
  rw [Vec3.length_sub_comm]; exact h v

theorem refl (m : Mat3) : NearMatrices 0 m m := fun v => by
  have : m.mulVec v - m.mulVec v = 0 := by ext <;> simp
  rw [this, Vec3.length_zero, zero_mul]

/-- Products of rotations. -/
theorem mul {ε δ : ℝ} {m m' n n' : Mat3} (hm : NearMatrices ε m m') (hn : NearMatrices δ n n') (hi : IsIsometry m) (hi' : IsIsometry n') :
    NearMatrices (ε + δ) (m.mul n) (m'.mul n') := fun v => by
  rw [Mat3.mul_mulVec, Mat3.mul_mulVec]
  have e : m.mulVec (n.mulVec v) - m'.mulVec (n'.mulVec v) =
      m.mulVec (n.mulVec v - n'.mulVec v) + (m.mulVec (n'.mulVec v) - m'.mulVec (n'.mulVec v)) := by
    rw [Mat3.mulVec_sub]
    ext <;> simp
  rw [e]
  refine (Vec3.length_add_le _ _).trans ?_
  rw [hi.length]
  have h1 := hn v
  have h2 := hm (n'.mulVec v)
  rw [hi'.length] at h2
  linarith

/-- A fixed matrix on the right, nearly a rotation. -/
theorem mul_right {ε : ℝ} {m m' n : Mat3} {k : ℝ} (he : 0 ≤ ε) (hm : NearMatrices ε m m') (hn : ∀ v, (n.mulVec v).length ≤ k * v.length) :
    NearMatrices (ε * k) (m.mul n) (m'.mul n) := fun v => by
  rw [Mat3.mul_mulVec, Mat3.mul_mulVec]
  refine (hm _).trans ?_
  have := mul_le_mul_of_nonneg_left (hn v) he
  linarith

/-- The transposes are no further apart. -/
theorem transpose {ε : ℝ} {m n : Mat3} (h : NearMatrices ε m n) : NearMatrices ε m.transpose n.transpose := fun w => by
  set z := m.transpose.mulVec w - n.transpose.mulVec w with hz
  have e : z.dot z = w.dot (m.mulVec z - n.mulVec z) := by
    rw [Vec3.dot_sub w, Mat3.dot_mulVec, Mat3.dot_mulVec, ← Vec3.sub_dot]
  have h1 := Vec3.dot_le w (m.mulVec z - n.mulVec z)
  rw [← e, ← Vec3.length_sq] at h1
  have h2 := mul_le_mul_of_nonneg_left (h z) (Vec3.length_nonneg w)
  rcases (Vec3.length_nonneg z).eq_or_lt with h0 | h0
  · have hw := Vec3.length_nonneg w
    by_cases hε : 0 ≤ ε
    · rw [← h0]; positivity
    · rcases hw.eq_or_lt with h3 | h3
      · rw [← h0, ← h3, mul_zero]
      · have := (Vec3.length_nonneg _).trans (h w)
        nlinarith
  · have h3 : z.length * z.length ≤ z.length * (ε * w.length) := by nlinarith
    exact le_of_mul_le_mul_left h3 h0

end NearMatrices

theorem chord_sq (a b : ℝ) : (cos a - cos b) ^ 2 + (sin a - sin b) ^ 2 ≤ (a - b) ^ 2 := by
  have e : (cos a - cos b) ^ 2 + (sin a - sin b) ^ 2 = 2 - 2 * cos (a - b) := by
    rw [cos_sub]
    linear_combination sin_sq_add_cos_sq a + sin_sq_add_cos_sq b
  rw [e]
  have := one_sub_sq_div_two_le_cos (x := a - b)
  linarith

/-- Two vectors of the plane, one turned by either angle. -/
theorem turn_plane (a b x y : ℝ) : ((cos a - cos b) * x - (sin a - sin b) * y) ^ 2 + ((sin a - sin b) * x + (cos a - cos b) * y) ^ 2 ≤
    (a - b) ^ 2 * (x ^ 2 + y ^ 2) := by
  have e : ((cos a - cos b) * x - (sin a - sin b) * y) ^ 2 + ((sin a - sin b) * x + (cos a - cos b) * y) ^ 2 =
      ((cos a - cos b) ^ 2 + (sin a - sin b) ^ 2) * (x ^ 2 + y ^ 2) := by ring
  rw [e]
  exact mul_le_mul_of_nonneg_right (chord_sq a b) (by positivity)

private theorem length_le_of_sq {w v : Vec3} {k : ℝ} (hk : 0 ≤ k) (h : w.x ^ 2 + w.y ^ 2 + w.z ^ 2 ≤ k ^ 2 * (v.x ^ 2 + v.y ^ 2 + v.z ^ 2)) :
    w.length ≤ k * v.length := by
  have hv := Vec3.length_sq v
  have hw := Vec3.length_sq w
  have h1 : w.length ^ 2 ≤ (k * v.length) ^ 2 := by
    rw [mul_pow, hv, hw]
    unfold Vec3.dot
    linarith
  exact (pow_le_pow_iff_left₀ (Vec3.length_nonneg w) (mul_nonneg hk (Vec3.length_nonneg v)) (by norm_num)).1 h1

theorem near_rotX (a b : ℝ) : NearMatrices |a - b| (rotX a) (rotX b) := fun v => by
  apply length_le_of_sq (abs_nonneg _)
  have h := turn_plane a b v.y v.z
  have h0 : 0 ≤ (a - b) ^ 2 * v.x ^ 2 := by positivity
  rw [sq_abs]
  simp only [rotX, Mat3.mulVec, Vec3.dot, Vec3.sub_x, Vec3.sub_y, Vec3.sub_z]
  linarith

theorem near_rotY (a b : ℝ) : NearMatrices |a - b| (rotY a) (rotY b) := fun v => by
  apply length_le_of_sq (abs_nonneg _)
  have h := turn_plane a b v.z v.x
  have h0 : 0 ≤ (a - b) ^ 2 * v.y ^ 2 := by positivity
  rw [sq_abs]
  simp only [rotY, Mat3.mulVec, Vec3.dot, Vec3.sub_x, Vec3.sub_y, Vec3.sub_z]
  linarith

theorem near_rotZ (a b : ℝ) : NearMatrices |a - b| (rotZ a) (rotZ b) := fun v => by
  apply length_le_of_sq (abs_nonneg _)
  have h := turn_plane a b v.x v.y
  have h0 : 0 ≤ (a - b) ^ 2 * v.z ^ 2 := by positivity
  rw [sq_abs]
  simp only [rotZ, Mat3.mulVec, Vec3.dot, Vec3.sub_x, Vec3.sub_y, Vec3.sub_z]
  linarith

/-- A small turn is nearly a step along the tangent. -/
theorem rotZ_tangent (φ : ℝ) (v : Vec3) :
    ((rotZ φ).mulVec v - v - φ • (⟨-v.y, v.x, 0⟩ : Vec3)).length ≤ φ ^ 2 / 2 * v.length := by
  apply length_le_of_sq (by positivity)
  have hc0 := one_sub_sq_div_two_le_cos (x := φ)
  -- |e^{iφ} - 1 - iφ|² = 2 - 2 cos φ + φ² - 2 φ sin φ ≤ φ⁴ / 4
  have key : (cos φ - 1) ^ 2 + (sin φ - φ) ^ 2 ≤ (φ ^ 2 / 2) ^ 2 := by
    wlog h : 0 ≤ φ generalizing φ with H
    · have := H (-φ) (by rw [cos_neg]; linarith) (by linarith)
      rw [cos_neg, sin_neg] at this
      nlinarith
    · have e : (cos φ - 1) ^ 2 + (sin φ - φ) ^ 2 = 2 * (1 - cos φ) + φ ^ 2 - 2 * φ * sin φ := by
        linear_combination sin_sq_add_cos_sq φ
      let f : ℝ → ℝ := fun x => x ^ 4 / 4 - (2 * (1 - cos x) + x ^ 2 - 2 * x * sin x)
      have hd : ∀ x, HasDerivAt f (x ^ 3 - 2 * x * (1 - cos x)) x := by
        intro x
        have h4 := ((hasDerivAt_pow 4 x).div_const 4)
        have h5 := (((hasDerivAt_const x (1 : ℝ)).sub (hasDerivAt_cos x)).const_mul 2)
        have h6 := (((hasDerivAt_id x).const_mul 2).mul (hasDerivAt_sin x))
        have := h4.sub ((h5.add (hasDerivAt_pow 2 x)).sub h6)
        refine this.congr_deriv ?_
        simp
        ring
      have hm : MonotoneOn f (Set.Ici 0) := by
        apply monotoneOn_of_deriv_nonneg (convex_Ici 0)
        · exact fun x _ => (hd x).continuousAt.continuousWithinAt
        · exact fun x _ => (hd x).differentiableAt.differentiableWithinAt
        · intro x hx
          rw [interior_Ici, Set.mem_Ioi] at hx
          rw [(hd x).deriv]
          have := one_sub_sq_div_two_le_cos (x := x)
          nlinarith
      have h0 := hm (Set.mem_Ici.2 le_rfl) (Set.mem_Ici.2 h) h
      simp only [f] at h0
      simp at h0
      rw [e]
      nlinarith
  have e : ∀ x y : ℝ, ((cos φ - 1) * x - (sin φ - φ) * y) ^ 2 + ((sin φ - φ) * x + (cos φ - 1) * y) ^ 2 =
      ((cos φ - 1) ^ 2 + (sin φ - φ) ^ 2) * (x ^ 2 + y ^ 2) := by intro x y; ring
  have h1 := mul_le_mul_of_nonneg_right key (by positivity : (0 : ℝ) ≤ v.x ^ 2 + v.y ^ 2)
  rw [← e] at h1
  have h0 : 0 ≤ (φ ^ 2 / 2) ^ 2 * v.z ^ 2 := by positivity
  simp only [rotZ, Mat3.mulVec, Vec3.dot, Vec3.sub_x, Vec3.sub_y, Vec3.sub_z, Vec3.smul_x, Vec3.smul_y, Vec3.smul_z]
  nlinarith

end Skyfield
