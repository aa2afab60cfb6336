import Verif.Model.Rotations
import Verif.Lemmas.Linear
import Mathlib.Tactic.NormNum

/-
C35: rotations preserve lengths and angles.
-/
namespace Skyfield
open Real

/-- Specification.  To within the relative error `ε`, the matrix preserves dot products (so lengths and angles) and its
transpose undoes it. -/
structure IsometryUpTo (ε : ℝ) (m : Mat3) : Prop where
  dot : ∀ u v : Vec3, |(m.mulVec u).dot (m.mulVec v) - u.dot v| ≤ ε * (u.length * v.length)
  undo : ∀ v : Vec3, (m.transpose.mulVec (m.mulVec v) - v).length ≤ ε * v.length
  undo' : ∀ v : Vec3, (m.mulVec (m.transpose.mulVec v) - v).length ≤ ε * v.length

/-- Specification: dot products (so lengths and angles) are preserved and the transpose undoes the matrix, exactly. -/
structure IsIsometry (m : Mat3) : Prop where
  dot : ∀ u v : Vec3, (m.mulVec u).dot (m.mulVec v) = u.dot v
  undo : ∀ v : Vec3, m.transpose.mulVec (m.mulVec v) = v
  undo' : ∀ v : Vec3, m.mulVec (m.transpose.mulVec v) = v

theorem IsIsometry.length {m : Mat3} (h : IsIsometry m) (v : Vec3) : (m.mulVec v).length = v.length := by
  rw [Vec3.length_eq, h.dot, Vec3.length_eq]

theorem isIsometry_of (m : Mat3) (h1 : m.transpose.mul m = Mat3.one) (h2 : m.mul m.transpose = Mat3.one) :
    IsIsometry m where
  dot u v := by
    rw [Mat3.dot_mulVec, ← Mat3.mul_mulVec, h1, Mat3.one_mulVec]
  undo v := by rw [← Mat3.mul_mulVec, h1, Mat3.one_mulVec]
  undo' v := by rw [← Mat3.mul_mulVec, h2, Mat3.one_mulVec]

theorem IsIsometry.matrix {m : Mat3} (h : IsIsometry m) :
    m.transpose.mul m = Mat3.one ∧ m.mul m.transpose = Mat3.one := by
  have key : ∀ n : Mat3, (∀ v, n.mulVec v = v) → n = Mat3.one := by
    intro n hn
    have h1 := hn ⟨1, 0, 0⟩
    have h2 := hn ⟨0, 1, 0⟩
    have h3 := hn ⟨0, 0, 1⟩
    simp [Mat3.mulVec, Vec3.dot] at h1 h2 h3
    ext <;> simp [Mat3.one, h1, h2, h3]
  constructor
  · exact key _ fun v => by rw [Mat3.mul_mulVec, h.undo]
  · exact key _ fun v => by rw [Mat3.mul_mulVec, h.undo']

theorem IsIsometry.mul {m n : Mat3} (hm : IsIsometry m) (hn : IsIsometry n) : IsIsometry (m.mul n) where
  dot u v := by rw [Mat3.mul_mulVec, Mat3.mul_mulVec, hm.dot, hn.dot]
  undo v := by rw [Mat3.transpose_mul, Mat3.mul_mulVec, Mat3.mul_mulVec, hm.undo, hn.undo]
  undo' v := by rw [Mat3.transpose_mul, Mat3.mul_mulVec, Mat3.mul_mulVec, hn.undo', hm.undo']

theorem IsIsometry.transpose {m : Mat3} (hm : IsIsometry m) : IsIsometry m.transpose where
  dot u v := by rw [Mat3.dot_mulVec, Mat3.transpose_transpose, hm.undo']
  undo v := by rw [Mat3.transpose_transpose, hm.undo']
  undo' v := by rw [Mat3.transpose_transpose, hm.undo]

theorem isIsometry_one : IsIsometry Mat3.one := by
  refine isIsometry_of _ ?_ ?_ <;> ext <;> simp [Mat3.one, Mat3.mul, Mat3.transpose, Vec3.dot]

/-! ### Axis rotations -/

/-- **C35.** Rotation about the x axis, for every angle. -/
theorem C35_rot_x (θ : ℝ) : IsIsometry (rotX θ) := by
  have h := sin_sq_add_cos_sq θ
  refine isIsometry_of _ ?_ ?_ <;>
    ext <;> simp [rotX, Mat3.one, Mat3.mul, Mat3.transpose, Vec3.dot] <;>
    first | linear_combination h | ring

/-- **C35.** Rotation about the y axis, for every angle. -/
theorem C35_rot_y (θ : ℝ) : IsIsometry (rotY θ) := by
  have h := sin_sq_add_cos_sq θ
  refine isIsometry_of _ ?_ ?_ <;>
    ext <;> simp [rotY, Mat3.one, Mat3.mul, Mat3.transpose, Vec3.dot] <;>
    first | linear_combination h | ring

/-- **C35.** Rotation about the z axis, for every angle. -/
theorem C35_rot_z (θ : ℝ) : IsIsometry (rotZ θ) := by
  have h := sin_sq_add_cos_sq θ
  refine isIsometry_of _ ?_ ?_ <;>
    ext <;> simp [rotZ, Mat3.one, Mat3.mul, Mat3.transpose, Vec3.dot] <;>
    first | linear_combination h | ring

theorem det_rotX (θ : ℝ) : (rotX θ).det = 1 := by
  have h := sin_sq_add_cos_sq θ
  simp [rotX, Mat3.det, Vec3.dot, Vec3.cross]; linear_combination h

theorem det_rotY (θ : ℝ) : (rotY θ).det = 1 := by
  have h := sin_sq_add_cos_sq θ
  simp [rotY, Mat3.det, Vec3.dot, Vec3.cross]; linear_combination h

theorem det_rotZ (θ : ℝ) : (rotZ θ).det = 1 := by
  have h := sin_sq_add_cos_sq θ
  simp [rotZ, Mat3.det, Vec3.dot, Vec3.cross]; linear_combination h

/-- **C35.** Each axis rotation turns by the given angle, counterclockwise seen from the positive axis. -/
theorem C35_rot_direction (θ : ℝ) :
    (rotX θ).mulVec ⟨0, 1, 0⟩ = ⟨0, cos θ, sin θ⟩ ∧ (rotX θ).mulVec ⟨1, 0, 0⟩ = ⟨1, 0, 0⟩ ∧
    (rotY θ).mulVec ⟨0, 0, 1⟩ = ⟨sin θ, 0, cos θ⟩ ∧ (rotY θ).mulVec ⟨0, 1, 0⟩ = ⟨0, 1, 0⟩ ∧
    (rotZ θ).mulVec ⟨1, 0, 0⟩ = ⟨cos θ, sin θ, 0⟩ ∧ (rotZ θ).mulVec ⟨0, 0, 1⟩ = ⟨0, 0, 1⟩ := by
  simp [rotX, rotY, rotZ, Mat3.mulVec, Vec3.dot]

/-! ### Precession and nutation -/

/-- The precession matrix written out in the code is the product of four axis rotations its comment gives. -/
theorem precessionFrom_eq (e p w c : ℝ) :
    precessionFrom e p w c = (rotZ (-c)).mul ((rotX w).mul ((rotZ p).mul (rotX (-e)))) := by
  ext <;> simp [precessionFrom, rotX, rotZ, Mat3.mul, Mat3.transpose, Vec3.dot] <;> ring

/-- **C35.** Precession to any date. -/
theorem C35_precession (jd : ℝ) : IsIsometry (computePrecession jd) ∧ (computePrecession jd).det = 1 := by
  unfold computePrecession
  simp only
  rw [precessionFrom_eq]
  refine ⟨(C35_rot_z _).mul ((C35_rot_x _).mul ((C35_rot_z _).mul (C35_rot_x _))), ?_⟩
  rw [Mat3.det_mul, Mat3.det_mul, Mat3.det_mul, det_rotX, det_rotX, det_rotZ, det_rotZ]
  norm_num

/-- **C35.** At the epoch J2000 precession does nothing. -/
theorem C35_precession_epoch : computePrecession t0 = Mat3.one := by
  have h := sin_sq_add_cos_sq (84381.406 * asec2rad)
  unfold computePrecession precessionAngles
  simp only [sub_self, zero_div, mul_zero, zero_add, zero_mul]
  rw [precessionFrom_eq]
  ext <;> simp [rotX, rotZ, Mat3.mul, Mat3.transpose, Vec3.dot, Mat3.one] <;> first | linear_combination h | ring

theorem buildNutationMatrix_eq (m t p : ℝ) :
    buildNutationMatrix m t p = (rotX t).mul ((rotZ p).mul (rotX (-m))) := by
  ext <;> simp [buildNutationMatrix, rotX, rotZ, Mat3.mul, Mat3.transpose, Vec3.dot] <;> ring

/-- **C35.** Nutation with any angles. -/
theorem C35_nutation (m t p : ℝ) :
    IsIsometry (buildNutationMatrix m t p) ∧ (buildNutationMatrix m t p).det = 1 := by
  rw [buildNutationMatrix_eq]
  refine ⟨(C35_rot_x _).mul ((C35_rot_z _).mul (C35_rot_x _)), ?_⟩
  rw [Mat3.det_mul, Mat3.det_mul, det_rotX, det_rotX, det_rotZ]
  norm_num

/-- **C35.** Polar motion with any angles. -/
theorem C35_polar_motion (s x y : ℝ) :
    IsIsometry (SkyTime.polarMotionMatrix s x y) ∧ (SkyTime.polarMotionMatrix s x y).det = 1 := by
  unfold SkyTime.polarMotionMatrix Mat3.mul3
  refine ⟨((C35_rot_x _).mul (C35_rot_y _)).mul (C35_rot_z _), ?_⟩
  rw [Mat3.det_mul, Mat3.det_mul, det_rotX, det_rotY, det_rotZ]
  norm_num

/-! ### The frame bias -/

theorem isometryUpTo_of_dot {ε : ℝ} {m : Mat3}
    (h : ∀ u v : Vec3, |(m.mulVec u).dot (m.mulVec v) - u.dot v| ≤ ε * (u.length * v.length))
    (h' : ∀ u v : Vec3, |(m.transpose.mulVec u).dot (m.transpose.mulVec v) - u.dot v| ≤ ε * (u.length * v.length)) :
    IsometryUpTo ε m := by
  have key : ∀ m : Mat3, (∀ u v : Vec3, |(m.mulVec u).dot (m.mulVec v) - u.dot v| ≤ ε * (u.length * v.length)) →
      ∀ v, (m.transpose.mulVec (m.mulVec v) - v).length ≤ ε * v.length := by
    intro m h v
    have hw := h (m.transpose.mulVec (m.mulVec v) - v) v
    have e : (m.mulVec (m.transpose.mulVec (m.mulVec v) - v)).dot (m.mulVec v)
        - (m.transpose.mulVec (m.mulVec v) - v).dot v =
        (m.transpose.mulVec (m.mulVec v) - v).length * (m.transpose.mulVec (m.mulVec v) - v).length := by
      rw [Vec3.length_mul_self, Vec3.dot_comm (m.mulVec _), Mat3.dot_mulVec,
        Vec3.dot_comm (m.transpose.mulVec (m.mulVec v) - v) v, ← Vec3.sub_dot]
    rw [e] at hw
    rcases (Vec3.length_nonneg (m.transpose.mulVec (m.mulVec v) - v)).eq_or_lt with h0 | h0
    · rw [← h0] at hw ⊢
      have := h v v
      by_contra hc
      push Not at hc
      have hv := Vec3.length_nonneg v
      have := (abs_nonneg _).trans this
      rcases hv.eq_or_lt with hv0 | hv0
      · rw [← hv0] at hc; simp at hc
      · have := mul_neg_of_neg_of_pos hc hv0
        nlinarith
    · rw [abs_of_nonneg (mul_self_nonneg _)] at hw
      have : (m.transpose.mulVec (m.mulVec v) - v).length * (m.transpose.mulVec (m.mulVec v) - v).length ≤
          (m.transpose.mulVec (m.mulVec v) - v).length * (ε * v.length) := by linarith
      exact le_of_mul_le_mul_left this h0
  exact ⟨h, key m h, key m.transpose h'⟩

/-- If every entry of `mᵀ m` is within `η` of the identity, dot products are preserved up to `3 η`. -/
theorem dot_of_entries {η : ℝ} {m : Mat3} (hη : 0 ≤ η)
    (h11 : |m.r1.x ^ 2 + m.r2.x ^ 2 + m.r3.x ^ 2 - 1| ≤ η) (h22 : |m.r1.y ^ 2 + m.r2.y ^ 2 + m.r3.y ^ 2 - 1| ≤ η)
    (h33 : |m.r1.z ^ 2 + m.r2.z ^ 2 + m.r3.z ^ 2 - 1| ≤ η)
    (h12 : |m.r1.x * m.r1.y + m.r2.x * m.r2.y + m.r3.x * m.r3.y| ≤ η)
    (h13 : |m.r1.x * m.r1.z + m.r2.x * m.r2.z + m.r3.x * m.r3.z| ≤ η)
    (h23 : |m.r1.y * m.r1.z + m.r2.y * m.r2.z + m.r3.y * m.r3.z| ≤ η) (u v : Vec3) :
    |(m.mulVec u).dot (m.mulVec v) - u.dot v| ≤ 3 * η * (u.length * v.length) := by
  generalize e11 : m.r1.x ^ 2 + m.r2.x ^ 2 + m.r3.x ^ 2 - 1 = a at h11
  generalize e22 : m.r1.y ^ 2 + m.r2.y ^ 2 + m.r3.y ^ 2 - 1 = b at h22
  generalize e33 : m.r1.z ^ 2 + m.r2.z ^ 2 + m.r3.z ^ 2 - 1 = c at h33
  generalize e12 : m.r1.x * m.r1.y + m.r2.x * m.r2.y + m.r3.x * m.r3.y = d at h12
  generalize e13 : m.r1.x * m.r1.z + m.r2.x * m.r2.z + m.r3.x * m.r3.z = e at h13
  generalize e23 : m.r1.y * m.r1.z + m.r2.y * m.r2.z + m.r3.y * m.r3.z = f at h23
  have eq : (m.mulVec u).dot (m.mulVec v) - u.dot v =
      u.x * (a * v.x + d * v.y + e * v.z) + u.y * (d * v.x + b * v.y + f * v.z)
        + u.z * (e * v.x + f * v.y + c * v.z) := by
    simp only [Mat3.mulVec, Vec3.dot]
    rw [← e11, ← e22, ← e33, ← e12, ← e13, ← e23]
    ring
  rw [eq]
  have sumabs : ∀ w : Vec3, |w.x| + |w.y| + |w.z| ≤ √3 * w.length := by
    intro w
    have h := Vec3.dot_le ⟨1, 1, 1⟩ ⟨|w.x|, |w.y|, |w.z|⟩
    have e1 : (⟨1, 1, 1⟩ : Vec3).length = √3 := by unfold Vec3.length; norm_num
    have e2 : (⟨|w.x|, |w.y|, |w.z|⟩ : Vec3).length = w.length := by
      unfold Vec3.length; simp [abs_mul_abs_self]
    rw [e1, e2] at h
    simpa [Vec3.dot] using h
  have row : ∀ p q r : ℝ, |p| ≤ η → |q| ≤ η → |r| ≤ η →
      |p * v.x + q * v.y + r * v.z| ≤ η * (|v.x| + |v.y| + |v.z|) := by
    intro p q r hp hq hr
    calc |p * v.x + q * v.y + r * v.z| ≤ |p * v.x| + |q * v.y| + |r * v.z| := abs_add_three _ _ _
      _ = |p| * |v.x| + |q| * |v.y| + |r| * |v.z| := by rw [abs_mul, abs_mul, abs_mul]
      _ ≤ η * |v.x| + η * |v.y| + η * |v.z| := by gcongr
      _ = _ := by ring
  have hs3 : √3 * √3 = 3 := Real.mul_self_sqrt (by norm_num)
  calc _ ≤ |u.x * (a * v.x + d * v.y + e * v.z)| + |u.y * (d * v.x + b * v.y + f * v.z)|
        + |u.z * (e * v.x + f * v.y + c * v.z)| := abs_add_three _ _ _
    _ = |u.x| * |a * v.x + d * v.y + e * v.z| + |u.y| * |d * v.x + b * v.y + f * v.z|
        + |u.z| * |e * v.x + f * v.y + c * v.z| := by rw [abs_mul, abs_mul, abs_mul]
    _ ≤ |u.x| * (η * (|v.x| + |v.y| + |v.z|)) + |u.y| * (η * (|v.x| + |v.y| + |v.z|))
        + |u.z| * (η * (|v.x| + |v.y| + |v.z|)) := by
        gcongr
        · exact row a d e h11 h12 h13
        · exact row d b f h12 h22 h23
        · exact row e f c h13 h23 h33
    _ = η * ((|u.x| + |u.y| + |u.z|) * (|v.x| + |v.y| + |v.z|)) := by ring
    _ ≤ η * ((√3 * u.length) * (√3 * v.length)) := by
        apply mul_le_mul_of_nonneg_left _ hη
        apply mul_le_mul (sumabs u) (sumabs v)
        · positivity
        · exact mul_nonneg (Real.sqrt_nonneg _) (Vec3.length_nonneg _)
    _ = η * (√3 * √3) * (u.length * v.length) := by ring
    _ = _ := by rw [hs3]; ring

theorem isometryUpTo_of_entries {η : ℝ} {m : Mat3} (hη : 0 ≤ η)
    (h : ∀ n, n = m ∨ n = m.transpose → |n.r1.x ^ 2 + n.r2.x ^ 2 + n.r3.x ^ 2 - 1| ≤ η ∧
      |n.r1.y ^ 2 + n.r2.y ^ 2 + n.r3.y ^ 2 - 1| ≤ η ∧ |n.r1.z ^ 2 + n.r2.z ^ 2 + n.r3.z ^ 2 - 1| ≤ η ∧
      |n.r1.x * n.r1.y + n.r2.x * n.r2.y + n.r3.x * n.r3.y| ≤ η ∧
      |n.r1.x * n.r1.z + n.r2.x * n.r2.z + n.r3.x * n.r3.z| ≤ η ∧
      |n.r1.y * n.r1.z + n.r2.y * n.r2.z + n.r3.y * n.r3.z| ≤ η) : IsometryUpTo (3 * η) m := by
  obtain ⟨a1, a2, a3, a4, a5, a6⟩ := h m (Or.inl rfl)
  obtain ⟨b1, b2, b3, b4, b5, b6⟩ := h m.transpose (Or.inr rfl)
  exact isometryUpTo_of_dot (dot_of_entries hη a1 a2 a3 a4 a5 a6) (dot_of_entries hη b1 b2 b3 b4 b5 b6)

/-- **C35.** The fixed matrix from the ICRS to the mean equator of J2000, which the code assembles to second order only, is
a rotation to within 2·10⁻¹⁴. -/
theorem C35_bias : IsometryUpTo 2e-14 icrsToJ2000 := by
  have h : IsometryUpTo (3 * (2e-14 / 3)) icrsToJ2000 := by
    apply isometryUpTo_of_entries (by norm_num)
    rintro n (rfl | rfl) <;> simp only [icrsToJ2000, asec2rad, Mat3.transpose] <;>
      refine ⟨?_, ?_, ?_, ?_, ?_, ?_⟩ <;> rw [abs_le] <;> constructor <;> norm_num
  rwa [mul_div_cancel₀ _ (by norm_num)] at h

/-- **C35, limitation.** ... but not exactly. -/
theorem C35_bias_not_exact : ¬ IsIsometry icrsToJ2000 := by
  intro h
  have := h.dot ⟨1, 0, 0⟩ ⟨0, 1, 0⟩
  simp only [Mat3.mulVec, Vec3.dot, icrsToJ2000, asec2rad] at this
  norm_num at this

/-- **C35.** The frames given by a fixed matrix of 17 digits are rotations to within 10⁻¹⁴. -/
theorem C35_fixed_frames :
    IsometryUpTo 1e-14 b1950Matrix ∧ IsometryUpTo 1e-14 eclipJ2000Matrix ∧ IsometryUpTo 1e-14 galacticMatrix := by
  have e : (3 * (1e-14 / 3) : ℝ) = 1e-14 := by norm_num
  rw [← e]
  refine ⟨?_, ?_, ?_⟩
  · apply isometryUpTo_of_entries (by norm_num)
    rintro n (rfl | rfl) <;> simp only [b1950Matrix, Mat3.transpose] <;>
      refine ⟨?_, ?_, ?_, ?_, ?_, ?_⟩ <;> rw [abs_le] <;> constructor <;> norm_num
  · apply isometryUpTo_of_entries (by norm_num)
    rintro n (rfl | rfl) <;> simp only [eclipJ2000Matrix, Mat3.transpose] <;>
      refine ⟨?_, ?_, ?_, ?_, ?_, ?_⟩ <;> rw [abs_le] <;> constructor <;> norm_num
  · apply isometryUpTo_of_entries (by norm_num)
    rintro n (rfl | rfl) <;> simp only [galacticMatrix, Mat3.transpose] <;>
      refine ⟨?_, ?_, ?_, ?_, ?_, ?_⟩ <;> rw [abs_le] <;> constructor <;> norm_num

/-! ### Frames of date -/

theorem IsometryUpTo.mul_left {ε : ℝ} {m n : Mat3} (hm : IsIsometry m) (hn : IsometryUpTo ε n) :
    IsometryUpTo ε (m.mul n) where
  dot u v := by rw [Mat3.mul_mulVec, Mat3.mul_mulVec, hm.dot]; exact hn.dot u v
  undo v := by
    rw [Mat3.transpose_mul, Mat3.mul_mulVec, Mat3.mul_mulVec, hm.undo]; exact hn.undo v
  undo' v := by
    rw [Mat3.transpose_mul, Mat3.mul_mulVec, Mat3.mul_mulVec]
    have h := hn.undo' (m.transpose.mulVec v)
    rw [hm.transpose.length] at h
    rw [← hm.length, Mat3.mulVec_sub, hm.undo'] at h
    exact h

theorem isometryUpTo_M (t : SkyTime) : IsometryUpTo 2e-14 t.M := by
  unfold SkyTime.M Mat3.mul3
  rw [Mat3.mul_assoc]
  exact IsometryUpTo.mul_left (C35_nutation _ _ _).1 (IsometryUpTo.mul_left (C35_precession _).1 C35_bias)

/-- **C35.** For every date, all values of the nutation angles and the sidereal time, and with or without polar motion,
every date-dependent frame of the library preserves dot products (lengths, angles) to within a relative 2·10⁻¹⁴, and
its transpose undoes it to the same accuracy. -/
theorem C35_frames (t : SkyTime) (era theta lat lon : ℝ) :
    IsometryUpTo 2e-14 (meanEquatorRotation t) ∧ IsometryUpTo 2e-14 (trueEquatorRotation t) ∧
    IsometryUpTo 2e-14 (tirsRotation t) ∧ IsometryUpTo 2e-14 (itrsRotation t) ∧
    IsometryUpTo 2e-14 (eclipticRotation t) ∧ IsometryUpTo 2e-14 (cirsRotation t era) ∧
    IsometryUpTo 2e-14 (temeRotation t theta) ∧ IsometryUpTo 2e-14 (horizonRotation lat lon t) := by
  have hM := isometryUpTo_M t
  have hitrs : IsometryUpTo 2e-14 (itrsRotation t) := by
    unfold itrsRotation
    simp only
    split
    · exact IsometryUpTo.mul_left (C35_polar_motion _ _ _).1 (IsometryUpTo.mul_left (C35_rot_z _) hM)
    · exact IsometryUpTo.mul_left (C35_rot_z _) hM
  have hlatlon : IsIsometry (latlonRotation lat lon) := by
    refine IsIsometry.mul ?_ (C35_rot_z _)
    have h := sin_sq_add_cos_sq lat
    refine isIsometry_of _ ?_ ?_ <;>
      ext <;> simp [latRotation, Mat3.flipRows, rotY, Mat3.one, Mat3.mul, Mat3.transpose, Vec3.dot] <;>
      first | linear_combination h | ring
  exact ⟨IsometryUpTo.mul_left (C35_precession _).1 C35_bias, hM, IsometryUpTo.mul_left (C35_rot_z _) hM, hitrs,
    IsometryUpTo.mul_left (C35_rot_x _) hM, IsometryUpTo.mul_left (C35_rot_z _) hM,
    IsometryUpTo.mul_left (C35_rot_z _) hM, IsometryUpTo.mul_left hlatlon hitrs⟩

/-- **C35.** The exact rotation of a geographic horizon. -/
theorem C35_horizon (lat lon : ℝ) : IsIsometry (latlonRotation lat lon) ∧ (latlonRotation lat lon).det = -1 ∧
    -- the local vertical, north and east are the third, first and second axis
    (latlonRotation lat lon).mulVec ⟨cos lat * cos lon, cos lat * sin lon, sin lat⟩ = ⟨0, 0, 1⟩ ∧
    (latlonRotation lat lon).mulVec ⟨-sin lat * cos lon, -sin lat * sin lon, cos lat⟩ = ⟨1, 0, 0⟩ ∧
    (latlonRotation lat lon).mulVec ⟨-sin lon, cos lon, 0⟩ = ⟨0, 1, 0⟩ := by
  have h1 := sin_sq_add_cos_sq lat
  have h2 := sin_sq_add_cos_sq lon
  refine ⟨?_, ?_, ?_, ?_, ?_⟩
  · refine IsIsometry.mul ?_ (C35_rot_z _)
    refine isIsometry_of _ ?_ ?_ <;>
      ext <;> simp [latRotation, Mat3.flipRows, rotY, Mat3.one, Mat3.mul, Mat3.transpose, Vec3.dot] <;>
      first | linear_combination h1 | ring
  · unfold latlonRotation
    rw [Mat3.det_mul, det_rotZ]
    simp [latRotation, Mat3.flipRows, rotY, Mat3.det, Vec3.dot, Vec3.cross]
    linear_combination -h1
  · ext <;> simp [latlonRotation, latRotation, Mat3.flipRows, rotY, rotZ, Mat3.mul, Mat3.mulVec, Mat3.transpose, Vec3.dot]
    · linear_combination (-sin lat * cos lat) * h2
    · ring
    · linear_combination h1 + cos lat ^ 2 * h2
  · ext <;> simp [latlonRotation, latRotation, Mat3.flipRows, rotY, rotZ, Mat3.mul, Mat3.mulVec, Mat3.transpose, Vec3.dot]
    · linear_combination h1 + sin lat ^ 2 * h2
    · ring
    · linear_combination (-sin lat * cos lat) * h2
  · ext <;> simp [latlonRotation, latRotation, Mat3.flipRows, rotY, rotZ, Mat3.mul, Mat3.mulVec, Mat3.transpose, Vec3.dot]
    · ring
    · linear_combination h2
    · ring

/-! ### Planetary frames -/

theorem isIsometry_axis (a : Axis) (θ : ℝ) : IsIsometry (axisRotation a θ) ∧ (axisRotation a θ).det = 1 := by
  cases a
  · exact ⟨C35_rot_x θ, det_rotX θ⟩
  · exact ⟨C35_rot_y θ, det_rotY θ⟩
  · exact ⟨C35_rot_z θ, det_rotZ θ⟩

theorem isIsometry_foldl (scale : ℝ) (l : List (ℝ × Axis)) (m : Mat3) (hm : IsIsometry m ∧ m.det = 1) :
    IsIsometry (l.foldl (fun m p => (axisRotation p.2 (p.1 * scale)).mul m) m) ∧
    (l.foldl (fun m p => (axisRotation p.2 (p.1 * scale)).mul m) m).det = 1 := by
  induction l generalizing m with
  | nil => exact hm
  | cons p l ih =>
    rw [List.foldl_cons]
    apply ih
    have h := isIsometry_axis p.2 (p.1 * scale)
    exact ⟨h.1.mul hm.1, by rw [Mat3.det_mul, h.2, hm.2, one_mul]⟩

/-- **C35.** The orientation of a planet or moon: for any angles, and any list of axis rotations in its frame definition. -/
theorem C35_planet (scale : ℝ) (l : List (ℝ × Axis)) (ra dec w : ℝ) :
    IsIsometry (planetRotation none ra dec w) ∧ IsIsometry (planetRotation (some (anglesMatrix scale l)) ra dec w) ∧
    (planetRotation (some (anglesMatrix scale l)) ra dec w).det = 1 := by
  have h : IsIsometry (planetRotation none ra dec w) := (C35_rot_z _).mul ((C35_rot_x _).mul (C35_rot_z _))
  have hd : (planetRotation none ra dec w).det = 1 := by
    unfold planetRotation
    simp only
    rw [Mat3.det_mul, Mat3.det_mul, det_rotZ, det_rotX, det_rotZ]; norm_num
  have h2 := isIsometry_foldl scale l Mat3.one ⟨isIsometry_one, Mat3.det_one⟩
  refine ⟨h, h2.1.mul h, ?_⟩
  have : planetRotation (some (anglesMatrix scale l)) ra dec w
      = (anglesMatrix scale l).mul (planetRotation none ra dec w) := rfl
  rw [this, Mat3.det_mul, hd, mul_one]
  exact h2.2

/-- **C35.** The horizon of a place on a planet: its sky is seen in a mirrored (azimuth clockwise) but undistorted frame. -/
theorem C35_planet_horizon (lat lon : ℝ) (frame : Mat3) (h : IsIsometry frame) (hd : frame.det = 1) :
    IsIsometry (planetHorizonRotation lat lon frame) ∧ (planetHorizonRotation lat lon frame).det = -1 := by
  have hflip : ∀ r : Mat3, (⟨r.r1, -r.r2, r.r3⟩ : Mat3) = (⟨⟨1, 0, 0⟩, ⟨0, -1, 0⟩, ⟨0, 0, 1⟩⟩ : Mat3).mul r := by
    intro r; ext <;> simp [Mat3.mul, Mat3.transpose, Vec3.dot]
  unfold planetHorizonRotation
  simp only
  rw [hflip]
  constructor
  · refine IsIsometry.mul ?_ (((C35_rot_y _).mul (C35_rot_z _)).mul h)
    refine isIsometry_of _ ?_ ?_ <;> ext <;> simp [Mat3.one, Mat3.mul, Mat3.transpose, Vec3.dot]
  · unfold Mat3.mul3
    rw [Mat3.det_mul, Mat3.det_mul, Mat3.det_mul, det_rotY, det_rotZ, hd]
    simp [Mat3.det, Vec3.dot, Vec3.cross]

/-- Non-vacuity: an inexact bound of zero is what `IsIsometry` says. -/
example (m : Mat3) : IsIsometry m ↔ IsometryUpTo 0 m := by
  constructor
  · intro h
    exact ⟨fun u v => by rw [h.dot]; simp, fun v => by rw [h.undo, sub_self, Vec3.length_zero]; simp,
      fun v => by rw [h.undo', sub_self, Vec3.length_zero]; simp⟩
  · intro h
    refine ⟨fun u v => ?_, fun v => ?_, fun v => ?_⟩
    · have := h.dot u v
      rw [zero_mul, abs_nonpos_iff, sub_eq_zero] at this; exact this
    · have := h.undo v
      rw [zero_mul] at this
      exact sub_eq_zero.1 (Vec3.length_eq_zero.1 (le_antisymm this (Vec3.length_nonneg _)))
    · have := h.undo' v
      rw [zero_mul] at this
      exact sub_eq_zero.1 (Vec3.length_eq_zero.1 (le_antisymm this (Vec3.length_nonneg _)))

end Skyfield
