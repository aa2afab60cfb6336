import Verif.Props.Frames
import Mathlib.Analysis.SpecialFunctions.Trigonometric.Bounds

/-
C38, with polar motion loaded: how far the velocity read in the Earth-fixed frame is from the derivative of the coordinates read.
-/
namespace Skyfield

private theorem rotX_cross (a : ℝ) (u v : Vec3) : (rotX a).mulVec (u.cross v) = ((rotX a).mulVec u).cross ((rotX a).mulVec v) := by
  have h := Real.sin_sq_add_cos_sq a
  ext <;> simp [rotX, Mat3.mulVec, Vec3.dot, Vec3.cross]
  · linear_combination (u.z * v.y - u.y * v.z) * h
  · ring
  · ring

private theorem rotY_cross (a : ℝ) (u v : Vec3) : (rotY a).mulVec (u.cross v) = ((rotY a).mulVec u).cross ((rotY a).mulVec v) := by
  have h := Real.sin_sq_add_cos_sq a
  ext <;> simp [rotY, Mat3.mulVec, Vec3.dot, Vec3.cross]
  · ring
  · linear_combination (u.x * v.z - u.z * v.x) * h
  · ring

private theorem rotZ_cross (a : ℝ) (u v : Vec3) : (rotZ a).mulVec (u.cross v) = ((rotZ a).mulVec u).cross ((rotZ a).mulVec v) := by
  have h := Real.sin_sq_add_cos_sq a
  ext <;> simp [rotZ, Mat3.mulVec, Vec3.dot, Vec3.cross]
  · ring
  · ring
  · linear_combination (u.y * v.x - u.x * v.y) * h

private theorem polar_cross (s x y : ℝ) (u v : Vec3) : (SkyTime.polarMotionMatrix s x y).mulVec (u.cross v) =
    ((SkyTime.polarMotionMatrix s x y).mulVec u).cross ((SkyTime.polarMotionMatrix s x y).mulVec v) := by
  unfold SkyTime.polarMotionMatrix Mat3.mul3
  simp only [Mat3.mul_mulVec, rotX_cross, rotY_cross, rotZ_cross]

/-- Times during which Earth turns at the library's constant rate about an axis that stays put, and the crust stays askew by the same
small angles. -/
structure UniformWobble (t : ℝ → SkyTime) (s sprime x y : ℝ) : Prop where
  axis : ∀ s', (t s').M = (t s).M
  polar : ∀ s', (t s').polar = some (sprime, x, y)
  turns : HasDerivAt (fun s' => (t s').gast * tau / 24) (dayS' * angvel) s

/-- Where the axis of rotation points, seen from the crust. -/
noncomputable def wobblePole (x y : ℝ) : Vec3 :=
  ⟨Real.sin (x * asec2rad), -(Real.cos (x * asec2rad) * Real.sin (y * asec2rad)), Real.cos (x * asec2rad) * Real.cos (y * asec2rad)⟩

private theorem polar_pole (s x y : ℝ) : (SkyTime.polarMotionMatrix s x y).mulVec ⟨0, 0, 1⟩ = wobblePole x y := by
  unfold SkyTime.polarMotionMatrix Mat3.mul3 wobblePole
  rw [Mat3.mul_mulVec, Mat3.mul_mulVec]
  ext <;> simp [rotX, rotY, rotZ, Mat3.mulVec, Vec3.dot] <;> ring

/-- **C38.** With polar motion loaded, the velocity read in the Earth-fixed frame takes the Earth to turn about the frame's own z axis
and not about the axis of rotation: the derivative of the coordinates read is the velocity read plus Earth's rate times the cross
product of the coordinates with the difference of the two axes. -/
theorem C38_polar_motion_velocity (t : ℝ → SkyTime) (s sprime x y : ℝ) (ht : UniformWobble t s sprime x y) (p : ℝ → Vec3) (v : Vec3)
    (h : MovesWith p s v) :
    MovesWith (fun s' => frameXyz itrsFrame (t s') (p s')) s
      ((frameXyzAndVelocity itrsFrame (t s) (p s) v).2 +
        (dayS' * angvel) • (frameXyz itrsFrame (t s) (p s)).cross (wobblePole x y - ⟨0, 0, 1⟩)) := by
  have hu : UniformRotation (fun s' => { t s' with polar := none }) s := ⟨ht.axis, fun _ => rfl, ht.turns⟩
  have h1 := ((C38_earth_fixed_velocity _ s hu p v h).1).mulVec (SkyTime.polarMotionMatrix sprime x y)
  have hr : ∀ s', itrsRotation (t s') = (SkyTime.polarMotionMatrix sprime x y).mul (tirsRotation { t s' with polar := none }) := by
    intro s'
    unfold itrsRotation tirsRotation
    rw [ht.polar s']
    rfl
  have e1 : (fun s' => frameXyz itrsFrame (t s') (p s')) = fun s' => (SkyTime.polarMotionMatrix sprime x y).mulVec
      (frameXyz tirsFrame { t s' with polar := none } (p s')) := by
    funext s'
    simp only [frameXyz, itrsFrame, tirsFrame, hr, Mat3.mul_mulVec]
  rw [e1]
  refine cast (congrArg _ ?_) h1
  simp only [frameXyzAndVelocity, itrsFrame, tirsFrame, frameXyz, hr, Mat3.mul_mulVec]
  obtain ⟨q, hq⟩ : ∃ q, q = (tirsRotation { t s with polar := none }).mulVec (p s) := ⟨_, rfl⟩
  obtain ⟨u, hu⟩ : ∃ u, u = (tirsRotation { t s with polar := none }).mulVec v := ⟨_, rfl⟩
  rw [← hq, ← hu]
  have a : ∀ w : Vec3, itrsAngvelMatrix.mulVec w = (dayS' * angvel) • w.cross ⟨0, 0, 1⟩ := by
    intro w
    ext <;> simp [itrsAngvelMatrix, Mat3.mulVec, Vec3.dot, Vec3.cross]
  rw [a, a, Mat3.mulVec_add, Mat3.mulVec_smul, polar_cross, polar_pole]
  ext <;> simp [Vec3.cross] <;> ring

private theorem cross_le (u v : Vec3) : (u.cross v).length ≤ u.length * v.length := by
  unfold Vec3.length
  rw [← Real.sqrt_mul (by nlinarith [mul_self_nonneg u.x, mul_self_nonneg u.y, mul_self_nonneg u.z])]
  apply Real.sqrt_le_sqrt
  simp only [Vec3.cross]
  nlinarith [mul_self_nonneg (u.x * v.x + u.y * v.y + u.z * v.z)]

private theorem pole_le (x y : ℝ) : (wobblePole x y - ⟨0, 0, 1⟩).length ≤ √(x ^ 2 + y ^ 2) * asec2rad := by
  have ha : 0 ≤ asec2rad := by unfold asec2rad; norm_num
  have e : √(x ^ 2 + y ^ 2) * asec2rad = √((x * asec2rad) ^ 2 + (y * asec2rad) ^ 2) := by
    rw [mul_pow, mul_pow, ← add_mul, Real.sqrt_mul (by positivity), Real.sqrt_sq ha]
  rw [e]
  unfold Vec3.length
  apply Real.sqrt_le_sqrt
  have e2 : (wobblePole x y - ⟨0, 0, 1⟩ : Vec3) = ⟨Real.sin (x * asec2rad), -(Real.cos (x * asec2rad) * Real.sin (y * asec2rad)),
      Real.cos (x * asec2rad) * Real.cos (y * asec2rad) - 1⟩ := by
    unfold wobblePole; ext <;> simp
  rw [e2]
  generalize x * asec2rad = a
  generalize y * asec2rad = b
  have h1 := Real.one_sub_sq_div_two_le_cos (x := a + b)
  have h2 := Real.one_sub_sq_div_two_le_cos (x := a - b)
  rw [Real.cos_add] at h1
  rw [Real.cos_sub] at h2
  have sa := Real.sin_sq_add_cos_sq a
  have sb := Real.sin_sq_add_cos_sq b
  show Real.sin a * Real.sin a + -(Real.cos a * Real.sin b) * -(Real.cos a * Real.sin b) +
    (Real.cos a * Real.cos b - 1) * (Real.cos a * Real.cos b - 1) ≤ a ^ 2 + b ^ 2
  have e3 : Real.sin a * Real.sin a + -(Real.cos a * Real.sin b) * -(Real.cos a * Real.sin b) +
    (Real.cos a * Real.cos b - 1) * (Real.cos a * Real.cos b - 1) = 2 - 2 * (Real.cos a * Real.cos b) := by
    linear_combination sa + Real.cos a ^ 2 * sb
  rw [e3]
  nlinarith

/-- **C38.** So the velocity read is off by at most Earth's rate, times the distance from Earth's center, times the angle of the wobble
(at sea level, two millimetres per second for an arcsecond). -/
theorem C38_polar_motion_error (t : ℝ → SkyTime) (s sprime x y : ℝ) (ht : UniformWobble t s sprime x y) (p : ℝ → Vec3) (v : Vec3)
    (h : MovesWith p s v) :
    ∃ w, MovesWith (fun s' => frameXyz itrsFrame (t s') (p s')) s w ∧
      (w - (frameXyzAndVelocity itrsFrame (t s) (p s) v).2).length ≤
        dayS' * angvel * (frameXyz itrsFrame (t s) (p s)).length * (√(x ^ 2 + y ^ 2) * asec2rad) := by
  refine ⟨_, C38_polar_motion_velocity t s sprime x y ht p v h, ?_⟩
  have hw : 0 ≤ dayS' * angvel := by unfold dayS' angvel; norm_num
  have e : ∀ a b : Vec3, a + b - a = b := by intro a b; ext <;> simp
  rw [e, Vec3.length_smul_of_nonneg hw, mul_assoc (dayS' * angvel)]
  refine mul_le_mul_of_nonneg_left ((cross_le _ _).trans ?_) hw
  exact mul_le_mul_of_nonneg_left (pole_le x y) (Vec3.length_nonneg _)

/-- Finding (C38): and it is off.  For an object above the pole of the crust, when the pole of rotation is away from it along the
meridian of Greenwich by less than half a turn, the velocity read is not the derivative of the coordinates read. -/
theorem C38_polar_motion_velocity_differs (t : ℝ → SkyTime) (s sprime x y : ℝ) (ht : UniformWobble t s sprime x y) (p : ℝ → Vec3)
    (v : Vec3) (h : MovesWith p s v) (d : ℝ) (hd : d ≠ 0) (hp : frameXyz itrsFrame (t s) (p s) = ⟨0, 0, d⟩) (hx : x ≠ 0)
    (hx' : |x * asec2rad| < Real.pi) :
    ¬ MovesWith (fun s' => frameXyz itrsFrame (t s') (p s')) s (frameXyzAndVelocity itrsFrame (t s) (p s) v).2 := by
  intro hm
  have h1 := (C38_polar_motion_velocity t s sprime x y ht p v h).2.1
  have h2 := hm.2.1
  have e := h1.unique h2
  rw [hp] at e
  have e2 : dayS' * angvel * (d * Real.sin (x * asec2rad)) = 0 := by
    have : ((dayS' * angvel) • (⟨0, 0, d⟩ : Vec3).cross (wobblePole x y - ⟨0, 0, 1⟩)).y =
        dayS' * angvel * (d * Real.sin (x * asec2rad)) := by simp [Vec3.cross, wobblePole]
    rw [← this]
    have e3 : ∀ a b : Vec3, (a + b).y = a.y + b.y := fun _ _ => rfl
    rw [e3] at e
    linarith
  have hw : dayS' * angvel ≠ 0 := by unfold dayS' angvel; norm_num
  have ha : asec2rad ≠ 0 := by unfold asec2rad; norm_num
  have hs : Real.sin (x * asec2rad) = 0 := by
    rcases mul_eq_zero.1 e2 with h | h
    · exact absurd h hw
    · exact (mul_eq_zero.1 h).resolve_left hd
  rw [abs_lt] at hx'
  rcases lt_or_gt_of_ne (mul_ne_zero hx ha) with h0 | h0
  · have := Real.sin_neg_of_neg_of_neg_pi_lt h0 hx'.1
    linarith
  · have := Real.sin_pos_of_pos_of_lt_pi h0 hx'.2
    linarith

/-- Such times exist: Earth turning uniformly, with a wobble of 0.2 and 0.3 arcseconds; and an object at rest in the crust's frame above
its pole is one to which the finding applies. -/
example : UniformWobble (fun s => ⟨0, s * (dayS' * angvel) * 24 / tau, 0, 0, some (0, 1/5, 3/10)⟩) 0 0 (1/5) (3/10) where
  axis _ := rfl
  polar _ := rfl
  turns := by
    have ht : tau ≠ 0 := by unfold tau; positivity
    have e : (fun s : ℝ => s * (dayS' * angvel) * 24 / tau * tau / 24) = fun s => s * (dayS' * angvel) := by
      funext s; field_simp
    show HasDerivAt (fun s : ℝ => s * (dayS' * angvel) * 24 / tau * tau / 24) _ _
    rw [e]
    simpa using (hasDerivAt_id (0 : ℝ)).mul_const (dayS' * angvel)

end Skyfield
