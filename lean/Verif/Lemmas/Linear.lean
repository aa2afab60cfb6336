import Verif.Model.Linear
import Mathlib.Tactic.Ring
import Mathlib.Tactic.Linarith
import Mathlib.Tactic.Positivity
import Mathlib.Tactic.LinearCombination
import Mathlib.Tactic.FieldSimp

/-
Elementary facts about vectors and matrices.
-/
namespace Skyfield
namespace Vec3

instance : AddCommGroup Vec3 where
  add_assoc a b c := by ext <;> simp <;> ring
  zero_add a := by ext <;> simp
  add_zero a := by ext <;> simp
  add_comm a b := by ext <;> simp <;> ring
  neg_add_cancel a := by ext <;> simp
  sub_eq_add_neg a b := by ext <;> simp <;> ring
  nsmul := nsmulRec
  zsmul := zsmulRec

theorem length_nonneg (v : Vec3) : 0 ≤ v.length := Real.sqrt_nonneg _

theorem dot_self_nonneg (v : Vec3) : 0 ≤ v.dot v := by
  unfold dot; nlinarith [sq_nonneg v.x, sq_nonneg v.y, sq_nonneg v.z]

theorem length_eq (v : Vec3) : v.length = √(v.dot v) := rfl

theorem length_sq (v : Vec3) : v.length ^ 2 = v.dot v := by
  rw [length_eq, Real.sq_sqrt (dot_self_nonneg v)]

theorem length_mul_self (v : Vec3) : v.length * v.length = v.dot v := by
  rw [← pow_two, length_sq]

theorem dot_comm (u v : Vec3) : u.dot v = v.dot u := by unfold dot; ring

theorem dot_add (u v w : Vec3) : u.dot (v + w) = u.dot v + u.dot w := by simp [dot]; ring
theorem add_dot (u v w : Vec3) : (u + v).dot w = u.dot w + v.dot w := by simp [dot]; ring
theorem dot_sub (u v w : Vec3) : u.dot (v - w) = u.dot v - u.dot w := by simp [dot]; ring
theorem sub_dot (u v w : Vec3) : (u - v).dot w = u.dot w - v.dot w := by simp [dot]; ring
theorem dot_smul (k : ℝ) (u v : Vec3) : u.dot (k • v) = k * u.dot v := by simp [dot]; ring
theorem smul_dot (k : ℝ) (u v : Vec3) : (k • u).dot v = k * u.dot v := by simp [dot]; ring
theorem dot_neg (u v : Vec3) : u.dot (-v) = -u.dot v := by simp [dot]; ring
theorem neg_dot (u v : Vec3) : (-u).dot v = -u.dot v := by simp [dot]; ring
theorem dot_zero (u : Vec3) : u.dot 0 = 0 := by simp [dot]
theorem zero_dot (u : Vec3) : (0 : Vec3).dot u = 0 := by simp [dot]

theorem dot_self_eq_zero {v : Vec3} : v.dot v = 0 ↔ v = 0 := by
  constructor
  · intro h
    unfold dot at h
    have hx : v.x * v.x = 0 := by nlinarith [mul_self_nonneg v.x, mul_self_nonneg v.y, mul_self_nonneg v.z]
    have hy : v.y * v.y = 0 := by nlinarith [mul_self_nonneg v.x, mul_self_nonneg v.y, mul_self_nonneg v.z]
    have hz : v.z * v.z = 0 := by nlinarith [mul_self_nonneg v.x, mul_self_nonneg v.y, mul_self_nonneg v.z]
    ext
    · simpa using hx
    · simpa using hy
    · simpa using hz
  · rintro rfl; exact dot_zero 0

theorem length_eq_zero {v : Vec3} : v.length = 0 ↔ v = 0 := by
  rw [← dot_self_eq_zero, ← length_mul_self, mul_self_eq_zero]

theorem length_pos {v : Vec3} (h : v ≠ 0) : 0 < v.length :=
  lt_of_le_of_ne (length_nonneg v) fun e => h (length_eq_zero.1 e.symm)

theorem length_zero : (0 : Vec3).length = 0 := length_eq_zero.2 rfl

/-- Lagrange's identity. -/
theorem lagrange (u v : Vec3) : (u.cross v).dot (u.cross v) = u.dot u * v.dot v - u.dot v ^ 2 := by
  simp [dot, cross]; ring

theorem dot_sq_le (u v : Vec3) : u.dot v ^ 2 ≤ u.dot u * v.dot v := by
  have := dot_self_nonneg (u.cross v)
  rw [lagrange] at this
  linarith

theorem abs_dot_le (u v : Vec3) : |u.dot v| ≤ u.length * v.length := by
  apply abs_le_of_sq_le_sq _ (mul_nonneg (length_nonneg u) (length_nonneg v))
  rw [mul_pow, length_sq, length_sq]
  exact dot_sq_le u v

theorem dot_le (u v : Vec3) : u.dot v ≤ u.length * v.length := (le_abs_self _).trans (abs_dot_le u v)

theorem neg_le_dot (u v : Vec3) : -(u.length * v.length) ≤ u.dot v := (abs_le.1 (abs_dot_le u v)).1

theorem length_add_le (u v : Vec3) : (u + v).length ≤ u.length + v.length := by
  apply le_of_sq_le_sq _ (add_nonneg (length_nonneg u) (length_nonneg v))
  have := dot_le u v
  have e1 := length_sq u
  have e2 := length_sq v
  rw [length_sq, dot_add, add_dot, add_dot, dot_comm v u]
  nlinarith

theorem length_neg (v : Vec3) : (-v).length = v.length := by
  unfold length; simp

theorem length_sub_comm (u v : Vec3) : (u - v).length = (v - u).length := by
  rw [← length_neg (u - v)]
  congr 1
  ext <;> simp

theorem length_smul (k : ℝ) (v : Vec3) : (k • v).length = |k| * v.length := by
  rw [length_eq, smul_dot, dot_smul, ← mul_assoc, ← pow_two, Real.sqrt_mul (sq_nonneg k), Real.sqrt_sq_eq_abs,
    length_eq]

theorem length_smul_of_nonneg {k : ℝ} (hk : 0 ≤ k) (v : Vec3) : (k • v).length = k * v.length := by
  rw [length_smul, abs_of_nonneg hk]

theorem abs_length_sub_le (u v : Vec3) : |u.length - v.length| ≤ (u - v).length := by
  have h1 := length_add_le (u - v) v
  have h2 := length_add_le (v - u) u
  rw [sub_add_cancel] at h1 h2
  rw [length_sub_comm v u] at h2
  rw [abs_le]
  constructor <;> linarith

theorem cross_dot_left (u v : Vec3) : (u.cross v).dot u = 0 := by simp [dot, cross]; ring
theorem cross_dot_right (u v : Vec3) : (u.cross v).dot v = 0 := by simp [dot, cross]; ring

end Vec3

namespace Mat3

@[simp] theorem add_r1 (m n : Mat3) : (m + n).r1 = m.r1 + n.r1 := rfl
@[simp] theorem add_r2 (m n : Mat3) : (m + n).r2 = m.r2 + n.r2 := rfl
@[simp] theorem add_r3 (m n : Mat3) : (m + n).r3 = m.r3 + n.r3 := rfl

theorem mul_mulVec (m n : Mat3) (v : Vec3) : (m.mul n).mulVec v = m.mulVec (n.mulVec v) := by
  ext <;> simp [mul, mulVec, transpose, Vec3.dot] <;> ring

theorem mul_assoc (a b c : Mat3) : (a.mul b).mul c = a.mul (b.mul c) := by
  ext <;> simp [mul, transpose, Vec3.dot] <;> ring

theorem transpose_mul (m n : Mat3) : (m.mul n).transpose = n.transpose.mul m.transpose := by
  ext <;> simp [mul, transpose, Vec3.dot] <;> ring

theorem transpose_transpose (m : Mat3) : m.transpose.transpose = m := rfl

theorem one_mul (m : Mat3) : one.mul m = m := by
  ext <;> simp [mul, transpose, Vec3.dot, one]

theorem mul_one (m : Mat3) : m.mul one = m := by
  ext <;> simp [mul, transpose, Vec3.dot, one]

theorem one_mulVec (v : Vec3) : one.mulVec v = v := by
  ext <;> simp [mulVec, Vec3.dot, one]

theorem dot_mulVec (m : Mat3) (u v : Vec3) : u.dot (m.mulVec v) = (m.transpose.mulVec u).dot v := by
  simp [mulVec, transpose, Vec3.dot]; ring

theorem mulVec_add (m : Mat3) (u v : Vec3) : m.mulVec (u + v) = m.mulVec u + m.mulVec v := by
  ext <;> simp [mulVec, Vec3.dot] <;> ring

theorem mulVec_sub (m : Mat3) (u v : Vec3) : m.mulVec (u - v) = m.mulVec u - m.mulVec v := by
  ext <;> simp [mulVec, Vec3.dot] <;> ring

theorem mulVec_smul (m : Mat3) (k : ℝ) (v : Vec3) : m.mulVec (k • v) = k • m.mulVec v := by
  ext <;> simp [mulVec, Vec3.dot] <;> ring

theorem add_mulVec (m n : Mat3) (v : Vec3) : (m + n).mulVec v = m.mulVec v + n.mulVec v := by
  ext <;> simp [mulVec, Vec3.dot] <;> ring

theorem det_mul (m n : Mat3) : (m.mul n).det = m.det * n.det := by
  simp [det, mul, transpose, Vec3.dot, Vec3.cross]; ring

theorem det_transpose (m : Mat3) : m.transpose.det = m.det := by
  simp [det, transpose, Vec3.dot, Vec3.cross]; ring

theorem det_one : one.det = 1 := by
  simp [det, one, Vec3.dot, Vec3.cross]

end Mat3
end Skyfield
