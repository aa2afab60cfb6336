import Verif.Model.Elements
import Verif.Props.Kepler
import Verif.Props.Spherical
import Mathlib.Tactic.LinearCombination

/-
Turning vectors within a plane, and the orientation elements of an orbit.
-/
namespace Skyfield
open Real

/-- `b` points in the direction of `a` turned by `θ` around the unit vector `k`. -/
def Turned (k : Vec3) (θ : ℝ) (a b : Vec3) : Prop :=
  a.length • b = b.length • (cos θ • a + sin θ • k.cross a)

theorem Vec3.ext_iff' {u v : Vec3} : u = v ↔ u.x = v.x ∧ u.y = v.y ∧ u.z = v.z := Vec3.ext_iff

/-- In the plane across `k`, `b` resolved along `a` and `k × a`. -/
theorem plane_resolve {k a b : Vec3} (hk : k.dot k = 1) (ha : k.dot a = 0) (hb : k.dot b = 0) :
    a.dot a • b = a.dot b • a + k.dot (a.cross b) • k.cross a := by
  simp only [Vec3.dot] at hk ha hb
  ext
  · simp only [Vec3.dot, Vec3.cross, Vec3.smul_x, Vec3.add_x]; grind
  · simp only [Vec3.dot, Vec3.cross, Vec3.smul_y, Vec3.add_y]; grind
  · simp only [Vec3.dot, Vec3.cross, Vec3.smul_z, Vec3.add_z]; grind

theorem plane_triple_sq {k a b : Vec3} (hk : k.dot k = 1) (ha : k.dot a = 0) (hb : k.dot b = 0) :
    k.dot (a.cross b) ^ 2 = a.dot a * b.dot b - a.dot b ^ 2 := by
  simp only [Vec3.dot] at hk ha hb
  simp only [Vec3.dot, Vec3.cross]
  grind

theorem triple_eq_sin {k a b : Vec3} (hk : k.dot k = 1) (ha : k.dot a = 0) (hb : k.dot b = 0) (ha0 : a ≠ 0) (hb0 : b ≠ 0) :
    (0 ≤ k.dot (a.cross b) → k.dot (a.cross b) = a.length * b.length * sin (angleBetween a b)) ∧
    (k.dot (a.cross b) ≤ 0 → k.dot (a.cross b) = -(a.length * b.length * sin (angleBetween a b))) := by
  obtain ⟨h1, h2, h3⟩ := C37_angle a b ha0 hb0
  have la := Vec3.length_pos ha0
  have lb := Vec3.length_pos hb0
  have hs := sin_nonneg_of_nonneg_of_le_pi h2 h3
  have hsq := plane_triple_sq hk ha hb
  have h4 := sin_sq_add_cos_sq (angleBetween a b)
  have h5 : a.dot b = a.length * b.length * cos (angleBetween a b) := by rw [h1]; field_simp
  rw [← Vec3.length_sq a, ← Vec3.length_sq b, h5] at hsq
  have h6 : k.dot (a.cross b) ^ 2 = (a.length * b.length * sin (angleBetween a b)) ^ 2 := by
    rw [hsq]; linear_combination (a.length * b.length) ^ 2 * (-h4)
  have h7 : 0 ≤ a.length * b.length * sin (angleBetween a b) := by positivity
  rcases sq_eq_sq_iff_eq_or_eq_neg.1 h6 with h | h
  · exact ⟨fun _ => h, fun h' => by linarith⟩
  · exact ⟨fun h' => by linarith, fun _ => h⟩

/-- The angle between two vectors, with the sign of the side on which the second lies, turns the first into the second. -/
theorem turned_of_side {k a b : Vec3} (hk : k.dot k = 1) (ha : k.dot a = 0) (hb : k.dot b = 0) (ha0 : a ≠ 0) (hb0 : b ≠ 0) :
    (0 ≤ k.dot (a.cross b) → Turned k (angleBetween a b) a b) ∧
    (k.dot (a.cross b) ≤ 0 → Turned k (-angleBetween a b) a b) := by
  obtain ⟨h1, h2, h3⟩ := C37_angle a b ha0 hb0
  obtain ⟨t1, t2⟩ := triple_eq_sin hk ha hb ha0 hb0
  have la := Vec3.length_pos ha0
  have lb := Vec3.length_pos hb0
  have hr := plane_resolve hk ha hb
  have h5 : a.dot b = a.length * b.length * cos (angleBetween a b) := by rw [h1]; field_simp
  rw [← Vec3.length_sq a, h5] at hr
  rw [Vec3.ext_iff'] at hr
  simp only [Vec3.smul_x, Vec3.smul_y, Vec3.smul_z, Vec3.add_x, Vec3.add_y, Vec3.add_z] at hr
  obtain ⟨rx, ry, rz⟩ := hr
  constructor
  · intro h
    rw [t1 h] at rx ry rz
    unfold Turned
    ext
    · simp only [Vec3.smul_x, Vec3.add_x]; apply mul_left_cancel₀ la.ne'; linear_combination rx
    · simp only [Vec3.smul_y, Vec3.add_y]; apply mul_left_cancel₀ la.ne'; linear_combination ry
    · simp only [Vec3.smul_z, Vec3.add_z]; apply mul_left_cancel₀ la.ne'; linear_combination rz
  · intro h
    rw [t2 h] at rx ry rz
    unfold Turned
    rw [cos_neg, sin_neg]
    ext
    · simp only [Vec3.smul_x, Vec3.add_x]; apply mul_left_cancel₀ la.ne'; linear_combination rx
    · simp only [Vec3.smul_y, Vec3.add_y]; apply mul_left_cancel₀ la.ne'; linear_combination ry
    · simp only [Vec3.smul_z, Vec3.add_z]; apply mul_left_cancel₀ la.ne'; linear_combination rz

theorem turned_congr {k a b : Vec3} {θ θ' : ℝ} (hc : cos θ = cos θ') (hs : sin θ = sin θ') (h : Turned k θ a b) :
    Turned k θ' a b := by
  unfold Turned at *; rwa [← hc, ← hs]

theorem turned_mod {k a b : Vec3} {θ : ℝ} (h : Turned k θ a b) : Turned k (pyMod θ tau) a b :=
  turned_congr (cos_pyMod_tau θ).symm (sin_pyMod_tau θ).symm h

theorem sin_cos_normpi (x : ℝ) : sin (normpi x) = sin x ∧ cos (normpi x) = cos x := by
  obtain ⟨-, -, k, hk⟩ := normpi_mem x
  constructor
  · conv_rhs => rw [hk]
    rw [sin_add_int_mul_two_pi]
  · conv_rhs => rw [hk]
    rw [cos_add_int_mul_two_pi]

theorem turned_normpi {k a b : Vec3} {θ : ℝ} (h : Turned k θ a b) : Turned k (normpi θ) a b :=
  turned_congr (sin_cos_normpi θ).2.symm (sin_cos_normpi θ).1.symm h

/-- Turns around the same pole add. -/
theorem turned_trans {k a b c : Vec3} {θ φ : ℝ} (hk : k.dot k = 1) (ha : k.dot a = 0) (hb0 : b ≠ 0) (h1 : Turned k θ a b)
    (h2 : Turned k φ b c) : Turned k (θ + φ) a c := by
  have lb := (Vec3.length_pos hb0).ne'
  unfold Turned at *
  rw [cos_add, sin_add]
  have kk : k.cross (k.cross a) = -a := by
    simp only [Vec3.dot] at hk ha
    ext
    · simp only [Vec3.cross, Vec3.neg_x]; grind
    · simp only [Vec3.cross, Vec3.neg_y]; grind
    · simp only [Vec3.cross, Vec3.neg_z]; grind
  have h3 : a.length • k.cross b = b.length • (cos θ • k.cross a - sin θ • a) := by
    have : a.length • k.cross b = k.cross (a.length • b) := (Vec3.cross_smul _ _ _).symm
    rw [this, h1, Vec3.cross_smul, Vec3.cross_add, Vec3.cross_smul, Vec3.cross_smul, kk]
    ext <;> simp only [Vec3.smul_x, Vec3.smul_y, Vec3.smul_z, Vec3.add_x, Vec3.add_y, Vec3.add_z, Vec3.sub_x, Vec3.sub_y,
      Vec3.sub_z, Vec3.neg_x, Vec3.neg_y, Vec3.neg_z] <;> ring
  rw [Vec3.ext_iff'] at h1 h2 h3 ⊢
  simp only [Vec3.smul_x, Vec3.smul_y, Vec3.smul_z, Vec3.add_x, Vec3.add_y, Vec3.add_z, Vec3.sub_x, Vec3.sub_y,
    Vec3.sub_z] at h1 h2 h3 ⊢
  obtain ⟨a1, a2, a3⟩ := h1
  obtain ⟨b1, b2, b3⟩ := h2
  obtain ⟨c1, c2, c3⟩ := h3
  refine ⟨?_, ?_, ?_⟩
  · apply mul_left_cancel₀ lb
    linear_combination a.length * b1 + c.length * cos φ * a1 + c.length * sin φ * c1
  · apply mul_left_cancel₀ lb
    linear_combination a.length * b2 + c.length * cos φ * a2 + c.length * sin φ * c2
  · apply mul_left_cancel₀ lb
    linear_combination a.length * b3 + c.length * cos φ * a3 + c.length * sin φ * c3

/-! ### Inclination and node -/

theorem unit_z_ne : (⟨0, 0, 1⟩ : Vec3) ≠ 0 := fun h => by
  have := congrArg Vec3.z h; simp at this

theorem unit_z_length : (⟨0, 0, 1⟩ : Vec3).length = 1 := by
  unfold Vec3.length; norm_num

theorem inclination_facts {h : Vec3} (hh : h ≠ 0) :
    0 ≤ inclinationOf h ∧ inclinationOf h ≤ π ∧ h.length * cos (inclinationOf h) = h.z ∧
      h.length * sin (inclinationOf h) = hypot h.x h.y := by
  obtain ⟨h1, h2, h3⟩ := C37_angle h ⟨0, 0, 1⟩ hh unit_z_ne
  have lh := Vec3.length_pos hh
  have hc : h.length * cos (inclinationOf h) = h.z := by
    unfold inclinationOf; rw [h1, unit_z_length]; simp only [Vec3.dot]; field_simp; ring
  refine ⟨h2, h3, hc, ?_⟩
  have hs := sin_nonneg_of_nonneg_of_le_pi h2 h3
  have h4 := sin_sq_add_cos_sq (inclinationOf h)
  have h5 : (h.length * sin (inclinationOf h)) ^ 2 = hypot h.x h.y ^ 2 := by
    have e1 := Vec3.length_sq h
    have e2 := hypot_mul_self h.x h.y
    simp only [Vec3.dot] at e1
    rw [sq (hypot _ _), e2]
    have : (h.length * cos (inclinationOf h)) ^ 2 = h.z ^ 2 := by rw [hc]
    linear_combination h.length ^ 2 * h4 - this + e1
  exact (sq_eq_sq₀ (mul_nonneg lh.le hs) (hypot_nonneg _ _)).1 h5

/-- The angular momentum points to the pole of the plane with the reported inclination and node. -/
theorem pole_eq {h : Vec3} (hh : h ≠ 0) :
    h = h.length • poleDir (longitudeOfAscendingNode (inclinationOf h) h) (inclinationOf h) := by
  obtain ⟨i0, i1, hc, hs⟩ := inclination_facts hh
  set i := inclinationOf h with hi
  set Om := longitudeOfAscendingNode i h with hOm
  have key : hypot h.x h.y * cos Om = -h.y ∧ hypot h.x h.y * sin Om = h.x := by
    by_cases h0 : i = 0
    · have hz : hypot h.x h.y = 0 := by rw [← hs, h0, sin_zero, mul_zero]
      have hm := hypot_mul_self h.x h.y
      rw [hz] at hm
      have hx : h.x = 0 := by nlinarith [mul_self_nonneg h.x, mul_self_nonneg h.y]
      have hy : h.y = 0 := by nlinarith [mul_self_nonneg h.x, mul_self_nonneg h.y]
      rw [hz, hx, hy]; simp
    · have e : Om = pyMod (arctan2 h.x (-h.y)) tau := by rw [hOm]; unfold longitudeOfAscendingNode; rw [if_pos h0]
      rw [e, cos_pyMod_tau, sin_pyMod_tau]
      have e2 : hypot h.x h.y = hypot (-h.y) h.x := by unfold hypot; congr 1; ring
      rw [e2]
      exact ⟨hypot_mul_cos_arctan2 _ _, hypot_mul_sin_arctan2 _ _⟩
  ext
  · simp only [poleDir, Vec3.smul_x]; linear_combination -key.2 - sin Om * hs
  · simp only [poleDir, Vec3.smul_y]; linear_combination key.1 + cos Om * hs
  · simp only [poleDir, Vec3.smul_z]; linear_combination -hc

theorem pole_unit (Om i : ℝ) : (poleDir Om i).dot (poleDir Om i) = 1 := by
  have h1 := sin_sq_add_cos_sq Om
  have h2 := sin_sq_add_cos_sq i
  simp only [poleDir, Vec3.dot]; grind

theorem pole_dot_node (Om i : ℝ) : (poleDir Om i).dot (nodeDir Om) = 0 := by
  simp only [poleDir, nodeDir, Vec3.dot]; ring

theorem pole_cross_node (Om i : ℝ) : (poleDir Om i).cross (nodeDir Om) = aheadDir Om i := by
  have h1 := sin_sq_add_cos_sq Om
  ext <;> simp only [poleDir, nodeDir, aheadDir, Vec3.cross] <;> grind

theorem node_length (Om : ℝ) : (nodeDir Om).length = 1 := by
  have h1 := sin_sq_add_cos_sq Om
  rw [Vec3.length_eq]
  have : (nodeDir Om).dot (nodeDir Om) = 1 := by simp only [nodeDir, Vec3.dot]; linarith
  rw [this, sqrt_one]

theorem node_ne (Om : ℝ) : nodeDir Om ≠ 0 := fun h => by
  have := node_length Om; rw [h, Vec3.length_zero] at this; norm_num at this

/-- A vector turned by `u` from the node points to the argument of latitude `u`. -/
theorem turned_node {Om i u : ℝ} {b : Vec3} (h : Turned (poleDir Om i) u (nodeDir Om) b) : b = b.length • planeDir Om i u := by
  unfold Turned at h
  rw [node_length, pole_cross_node] at h
  rw [planeDir, ← h]
  ext <;> simp

/-! ### The three vectors of an osculating orbit -/

namespace Osculating

theorem pos_ne {o : Osculating} (hh : o.hVec ≠ 0) : o.pos ≠ 0 := fun h => hh (by
  unfold hVec; rw [h]; ext <;> simp [Vec3.cross])

theorem h_dot_pos (o : Osculating) : o.hVec.dot o.pos = 0 := Vec3.cross_dot_left _ _
theorem h_dot_vel (o : Osculating) : o.hVec.dot o.vel = 0 := Vec3.cross_dot_right _ _

theorem h_dot_e (o : Osculating) : o.hVec.dot o.eVec = 0 := by
  unfold eVec eccentricityVector
  simp only
  rw [Vec3.dot_smul, Vec3.dot_sub, Vec3.dot_smul, Vec3.dot_smul, h_dot_pos, h_dot_vel]; ring

theorem h_dot_h (o : Osculating) : o.hVec.dot o.hVec = o.pos.dot o.pos * o.vel.dot o.vel - o.pos.dot o.vel ^ 2 :=
  Vec3.lagrange _ _

/-- The eccentricity vector against the position: the equation of the orbit. -/
theorem e_dot_pos {o : Osculating} (hm : 0 < o.mu) (hh : o.hVec ≠ 0) :
    o.eVec.dot o.pos = o.latusRectum - o.pos.length := by
  have lr := Vec3.length_pos (pos_ne hh)
  have h1 := Vec3.length_sq o.pos
  have h2 := Vec3.length_sq o.vel
  have h3 := Vec3.length_sq o.hVec
  have h4 := o.h_dot_h
  unfold eVec eccentricityVector latusRectum semiLatusRectum
  simp only
  rw [Vec3.smul_dot, Vec3.sub_dot, Vec3.smul_dot, Vec3.smul_dot, h2, h3, h4, Vec3.dot_comm o.vel o.pos, ← h1]
  field_simp
  ring

theorem latusRectum_pos {o : Osculating} (hm : 0 < o.mu) (hh : o.hVec ≠ 0) : 0 < o.latusRectum := by
  have := Vec3.length_pos hh
  unfold latusRectum semiLatusRectum; positivity

/-- The position lies ahead of periapsis exactly when it is moving outwards. -/
theorem h_dot_e_cross {o : Osculating} (hm : 0 < o.mu) :
    o.hVec.dot (o.eVec.cross o.pos) = o.latusRectum * o.pos.dot o.vel := by
  have h3 := Vec3.length_sq o.hVec
  unfold latusRectum semiLatusRectum
  rw [h3]
  have : o.eVec.cross o.pos = (o.pos.dot o.vel / o.mu) • o.hVec := by
    unfold eVec eccentricityVector hVec
    simp only
    ext <;> simp only [Vec3.cross, Vec3.smul_x, Vec3.smul_y, Vec3.smul_z, Vec3.sub_x, Vec3.sub_y, Vec3.sub_z] <;> ring
  rw [this, Vec3.dot_smul]; field_simp

/-- The pole of the orbit. -/
theorem h_eq {o : Osculating} (hh : o.hVec ≠ 0) : o.hVec = o.hVec.length • poleDir o.ascendingNode o.inclination := pole_eq hh

theorem pole_dot {o : Osculating} (hh : o.hVec ≠ 0) (b : Vec3) :
    o.hVec.dot b = o.hVec.length * (poleDir o.ascendingNode o.inclination).dot b := by
  conv_lhs => rw [h_eq hh]
  rw [Vec3.smul_dot]

theorem pole_dot_zero {o : Osculating} (hh : o.hVec ≠ 0) {b : Vec3} (hb : o.hVec.dot b = 0) :
    (poleDir o.ascendingNode o.inclination).dot b = 0 := by
  rw [pole_dot hh] at hb
  exact (mul_eq_zero.1 hb).resolve_left (Vec3.length_pos hh).ne'

/-- The node vector is the unit vector to the ascending node, or zero for an orbit in the reference plane. -/
theorem node_cases {o : Osculating} (hh : o.hVec ≠ 0) :
    (o.nVec = nodeDir o.ascendingNode ∧ 0 < sin o.inclination) ∨
    (o.nVec = 0 ∧ o.hVec.x = 0 ∧ o.hVec.y = 0 ∧ o.ascendingNode = 0 ∧
      (o.inclination = 0 ∧ 0 < o.hVec.z ∨ o.inclination = π ∧ o.hVec.z < 0)) := by
  obtain ⟨i0, i1, hc, hs⟩ := inclination_facts hh
  have lh := Vec3.length_pos hh
  have hlen : (⟨-o.hVec.y, o.hVec.x, 0⟩ : Vec3).length = hypot o.hVec.x o.hVec.y := by
    unfold Vec3.length hypot; congr 1; ring
  by_cases h0 : hypot o.hVec.x o.hVec.y = 0
  · right
    have hm := hypot_mul_self o.hVec.x o.hVec.y
    rw [h0] at hm
    have hx : o.hVec.x = 0 := by nlinarith [mul_self_nonneg o.hVec.x, mul_self_nonneg o.hVec.y]
    have hy : o.hVec.y = 0 := by nlinarith [mul_self_nonneg o.hVec.x, mul_self_nonneg o.hVec.y]
    refine ⟨?_, hx, hy, ?_, ?_⟩
    · unfold nVec nodeVector
      simp only
      rw [hlen, h0, if_neg (by simp)]
      ext <;> simp [hx, hy]
    · unfold ascendingNode longitudeOfAscendingNode
      split
      · rw [hx, hy, neg_zero, arctan2_zero_zero]
        exact pyMod_unique' 0 0 tau_pos le_rfl tau_pos (by simp)
      · rfl
    · rw [h0] at hs
      have hs0 : sin (inclinationOf o.hVec) = 0 := (mul_eq_zero.1 hs).resolve_left lh.ne'
      rcases eq_or_lt_of_le i0 with h | h
      · left
        refine ⟨h.symm, ?_⟩
        rw [← h, cos_zero, mul_one] at hc
        rw [← hc]; exact lh
      · right
        have hpi : inclinationOf o.hVec = π := by
          by_contra hne
          exact absurd hs0 (sin_pos_of_pos_of_lt_pi h (lt_of_le_of_ne i1 hne)).ne'
        refine ⟨hpi, ?_⟩
        rw [hpi, cos_pi] at hc
        linarith
  · left
    have hpos : 0 < hypot o.hVec.x o.hVec.y := lt_of_le_of_ne (hypot_nonneg _ _) (Ne.symm h0)
    have hsp : 0 < sin o.inclination := by
      by_contra hn
      have : o.hVec.length * sin (inclinationOf o.hVec) ≤ 0 :=
        mul_nonpos_of_nonneg_of_nonpos lh.le (not_lt.1 hn)
      linarith
    refine ⟨?_, hsp⟩
    have hp := h_eq hh
    have hs' : o.hVec.length * sin o.inclination = hypot o.hVec.x o.hVec.y := hs
    rw [Vec3.ext_iff'] at hp
    simp only [poleDir, Vec3.smul_x, Vec3.smul_y] at hp
    unfold nVec nodeVector
    simp only
    rw [hlen, if_pos h0]
    ext
    · simp only [nodeDir, Vec3.smul_x]
      rw [one_div, inv_mul_eq_iff_eq_mul₀ h0, ← hs']
      linear_combination -hp.2.1
    · simp only [nodeDir, Vec3.smul_y]
      rw [one_div, inv_mul_eq_iff_eq_mul₀ h0, ← hs']
      linear_combination hp.1
    · simp [nodeDir]

/-- A vector in the plane of the orbit, with the side of the node line on which it lies. -/
theorem side_of_node {Om i : ℝ} {b : Vec3} (hb : (poleDir Om i).dot b = 0) :
    b.z = sin i * (poleDir Om i).dot ((nodeDir Om).cross b) := by
  have h1 := sin_sq_add_cos_sq Om
  have h2 := sin_sq_add_cos_sq i
  simp only [poleDir, Vec3.dot] at hb
  simp only [poleDir, nodeDir, Vec3.dot, Vec3.cross]
  grind

/-- A vector in the reference plane turned from the x axis by its longitude. -/
theorem turned_equatorial {i : ℝ} {b : Vec3} (hz : b.z = 0) :
    (i = 0 → Turned (poleDir 0 i) (pyMod (arctan2 b.y b.x) tau) (nodeDir 0) b) ∧
    (i = π → Turned (poleDir 0 i) (pyMod (-pyMod (arctan2 b.y b.x) tau) tau) (nodeDir 0) b) := by
  have hl : b.length = hypot b.x b.y := by unfold Vec3.length hypot; rw [hz]; ring_nf
  have h1 := hypot_mul_cos_arctan2 b.y b.x
  have h2 := hypot_mul_sin_arctan2 b.y b.x
  constructor
  · intro hi
    apply turned_mod
    unfold Turned
    rw [node_length, pole_cross_node, hl, hi]
    ext <;> simp [nodeDir, aheadDir, h1, h2, hz]
  · intro hi
    apply turned_mod
    apply turned_congr (θ := -arctan2 b.y b.x) (by rw [cos_neg, cos_neg, cos_pyMod_tau]) (by rw [sin_neg, sin_neg, sin_pyMod_tau])
    unfold Turned
    rw [node_length, pole_cross_node, hl, hi]
    ext <;> simp [nodeDir, aheadDir, h1, h2, hz]

/-- The argument of periapsis turns the node into the direction of periapsis. -/
theorem turned_periapsis {o : Osculating} (hh : o.hVec ≠ 0) (he : 1e-15 ≤ o.eccentricity) :
    Turned (poleDir o.ascendingNode o.inclination) o.periapsisArgument (nodeDir o.ascendingNode) o.eVec := by
  have hk := pole_unit o.ascendingNode o.inclination
  have he0 : o.eVec ≠ 0 := fun h => by
    unfold eccentricity at he; rw [h, Vec3.length_zero] at he; norm_num at he
  have hb := pole_dot_zero hh o.h_dot_e
  unfold periapsisArgument argumentOfPeriapsis
  rw [if_neg (show ¬ o.eVec.length < 1e-15 from not_lt.2 he)]
  rcases node_cases hh with ⟨hn, hs⟩ | ⟨hn, hx, hy, hOm, hi⟩
  · rw [hn, node_length, if_neg (by norm_num)]
    simp only
    have hside := side_of_node hb
    obtain ⟨t1, t2⟩ := turned_of_side hk (pole_dot_node _ _) hb (node_ne o.ascendingNode) he0
    by_cases hz : o.eVec.z > 0
    · rw [if_pos hz]
      apply t1
      rw [hside] at hz
      exact (pos_of_mul_pos_right hz hs.le).le
    · rw [if_neg hz]
      apply turned_mod
      apply t2
      rw [hside] at hz
      by_contra hc
      exact hz (mul_pos hs (not_le.1 hc))
  · rw [hn, Vec3.length_zero, if_pos (by norm_num)]
    simp only
    have hez : o.eVec.z = 0 := by
      have := o.h_dot_e
      simp only [Vec3.dot, hx, hy, zero_mul, zero_add] at this
      refine (mul_eq_zero.1 this).resolve_left ?_
      rcases hi with ⟨_, h⟩ | ⟨_, h⟩
      · exact h.ne'
      · exact h.ne
    obtain ⟨t1, t2⟩ := turned_equatorial (i := o.inclination) hez
    rw [hOm]
    rcases hi with ⟨hi, hz⟩ | ⟨hi, hz⟩
    · rw [if_pos (show (o.pos.cross o.vel).z ≥ 0 from hz.le)]; exact t1 hi
    · rw [if_neg (show ¬ (o.pos.cross o.vel).z ≥ 0 from not_le.2 hz)]; exact t2 hi

/-- The true anomaly turns the direction of periapsis into the position. -/
theorem turned_position {o : Osculating} (hm : 0 < o.mu) (hh : o.hVec ≠ 0) (he : 1e-15 < o.eccentricity) :
    Turned (poleDir o.ascendingNode o.inclination) o.trueAnomaly o.eVec o.pos := by
  have hk := pole_unit o.ascendingNode o.inclination
  have he0 : o.eVec ≠ 0 := fun h => by
    unfold eccentricity at he; rw [h, Vec3.length_zero] at he; norm_num at he
  have hside := h_dot_e_cross hm (o := o)
  rw [pole_dot hh] at hside
  have lh := Vec3.length_pos hh
  have lp := latusRectum_pos hm hh
  obtain ⟨t1, t2⟩ := turned_of_side hk (pole_dot_zero hh o.h_dot_e) (pole_dot_zero hh o.h_dot_pos) he0 (pos_ne hh)
  have key : Turned (poleDir o.ascendingNode o.inclination)
      (if o.pos.dot o.vel > 0 then angleBetween o.eVec o.pos else pyMod (-angleBetween o.eVec o.pos) tau) o.eVec o.pos := by
    by_cases hz : o.pos.dot o.vel > 0
    · rw [if_pos hz]
      apply t1
      have : 0 < o.hVec.length * (poleDir o.ascendingNode o.inclination).dot (o.eVec.cross o.pos) := by
        rw [hside]; exact mul_pos lp hz
      exact (pos_of_mul_pos_right this lh.le).le
    · rw [if_neg hz]
      apply turned_mod
      apply t2
      by_contra hc
      have : 0 < o.latusRectum * o.pos.dot o.vel := by rw [← hside]; exact mul_pos lh (not_le.1 hc)
      exact hz (pos_of_mul_pos_right this lp.le)
  unfold trueAnomaly trueAnomalyOf
  simp only
  rw [if_pos (show o.eVec.length > 1e-15 from he)]
  split
  · convert key
  · apply turned_normpi; convert key

/-- On a circular orbit the true anomaly is measured from the node. -/
theorem turned_circular {o : Osculating} (hm : 0 < o.mu) (hh : o.hVec ≠ 0) (he : o.eVec = 0) :
    Turned (poleDir o.ascendingNode o.inclination) o.trueAnomaly (nodeDir o.ascendingNode) o.pos := by
  have hk := pole_unit o.ascendingNode o.inclination
  have hb := pole_dot_zero hh o.h_dot_pos
  have lr := Vec3.length_pos (pos_ne hh)
  have lh := Vec3.length_pos hh
  unfold trueAnomaly trueAnomalyOf
  simp only
  rw [he, Vec3.length_zero, if_pos (show (0 : ℝ) < 1 - 1e-15 by norm_num), if_neg (by norm_num)]
  rcases node_cases hh with ⟨hn, hs⟩ | ⟨hn, hx, hy, hOm, hi⟩
  · rw [hn, node_length, if_neg (by norm_num)]
    have hside := side_of_node hb
    obtain ⟨t1, t2⟩ := turned_of_side hk (pole_dot_node _ _) hb (node_ne o.ascendingNode) (pos_ne hh)
    by_cases hz : o.pos.z ≥ 0
    · rw [if_pos hz]
      apply t1
      rw [hside] at hz
      exact nonneg_of_mul_nonneg_right hz hs
    · rw [if_neg hz]
      apply turned_mod
      apply t2
      rw [hside] at hz
      by_contra hc
      exact hz (mul_nonneg hs.le (not_le.1 hc).le)
  · rw [hn, Vec3.length_zero, if_pos (by norm_num), hOm]
    -- the circular orbit: position across velocity
    have hperp : o.pos.dot o.vel = 0 := by
      have h1 := h_dot_e_cross hm (o := o)
      have e0 : (0 : Vec3).cross o.pos = 0 := by ext <;> simp [Vec3.cross]
      rw [he, e0, Vec3.dot_zero] at h1
      exact (mul_eq_zero.1 h1.symm).resolve_left (latusRectum_pos hm hh).ne'
    have hz0 : o.hVec.z ≠ 0 := by
      rcases hi with ⟨_, h⟩ | ⟨_, h⟩
      · exact h.ne'
      · exact h.ne
    have hpz : o.pos.z = 0 := by
      have := o.h_dot_pos
      simp only [Vec3.dot, hx, hy, zero_mul, zero_add] at this
      exact (mul_eq_zero.1 this).resolve_left hz0
    have hl : o.pos.length ^ 2 = o.pos.x ^ 2 + o.pos.y ^ 2 := by
      rw [Vec3.length_sq]; simp only [Vec3.dot, hpz]; ring
    -- velocity along x against the y coordinate
    have hvx : o.vel.x * o.pos.length ^ 2 = -(o.pos.y * o.hVec.z) := by
      have : o.hVec.z = o.pos.x * o.vel.y - o.pos.y * o.vel.x := rfl
      rw [hl, this]
      simp only [Vec3.dot, hpz] at hperp
      linear_combination o.pos.x * hperp
    have hxl : -o.pos.length ≤ o.pos.x ∧ o.pos.x ≤ o.pos.length :=
      abs_le.1 (abs_le_of_sq_le_sq (by rw [hl]; nlinarith [sq_nonneg o.pos.y]) lr.le)
    have c1 : cos (arccos (o.pos.x / o.pos.length)) = o.pos.x / o.pos.length :=
      cos_arccos (by rw [le_div_iff₀ lr]; linarith [hxl.1]) (by rw [div_le_one₀ lr]; exact hxl.2)
    have s1 := sin_nonneg_of_nonneg_of_le_pi (arccos_nonneg (o.pos.x / o.pos.length)) (arccos_le_pi _)
    have s2 : (o.pos.length * sin (arccos (o.pos.x / o.pos.length))) ^ 2 = o.pos.y ^ 2 := by
      have h4 := sin_sq_add_cos_sq (arccos (o.pos.x / o.pos.length))
      rw [c1] at h4
      have : o.pos.length ^ 2 * (o.pos.x / o.pos.length) ^ 2 = o.pos.x ^ 2 := by field_simp
      linear_combination o.pos.length ^ 2 * h4 - this + hl
    have s3 : 0 ≤ o.pos.length * sin (arccos (o.pos.x / o.pos.length)) := mul_nonneg lr.le s1
    have cl : o.pos.length * cos (arccos (o.pos.x / o.pos.length)) = o.pos.x := by rw [c1]; field_simp
    set A := arccos (o.pos.x / o.pos.length) with hA
    rcases hi with ⟨hi, hz⟩ | ⟨hi, hz⟩
    · by_cases hv : o.vel.x < 0
      · rw [if_pos hv]
        have hy : 0 < o.pos.y := by
          have : o.vel.x * o.pos.length ^ 2 < 0 := mul_neg_of_neg_of_pos hv (by positivity)
          rw [hvx] at this
          exact pos_of_mul_pos_left (by linarith) hz.le
        have hyy : o.pos.length * sin A = o.pos.y := (sq_eq_sq₀ s3 hy.le).1 s2
        unfold Turned
        rw [node_length, pole_cross_node, hi]
        ext <;> simp [nodeDir, aheadDir, hpz, cl, hyy]
      · rw [if_neg hv]
        have hy : o.pos.y ≤ 0 := by
          by_contra hc
          have : 0 ≤ o.vel.x * o.pos.length ^ 2 := mul_nonneg (not_lt.1 hv) (by positivity)
          rw [hvx] at this
          have := mul_pos (not_le.1 hc) hz
          linarith
        have hyy : o.pos.length * sin A = -o.pos.y := (sq_eq_sq₀ s3 (by linarith)).1 (by rw [s2]; ring)
        apply turned_mod
        unfold Turned
        rw [node_length, pole_cross_node, hi]
        ext <;> simp [nodeDir, aheadDir, hpz, cl, hyy]
    · by_cases hv : o.vel.x < 0
      · rw [if_pos hv]
        have hy : o.pos.y ≤ 0 := by
          by_contra hc
          have : o.vel.x * o.pos.length ^ 2 < 0 := mul_neg_of_neg_of_pos hv (by positivity)
          rw [hvx] at this
          have := mul_neg_of_pos_of_neg (not_le.1 hc) hz
          linarith
        have hyy : o.pos.length * sin A = -o.pos.y := (sq_eq_sq₀ s3 (by linarith)).1 (by rw [s2]; ring)
        unfold Turned
        rw [node_length, pole_cross_node, hi]
        ext <;> simp [nodeDir, aheadDir, hpz, cl, hyy]
      · rw [if_neg hv]
        have hy : 0 ≤ o.pos.y := by
          by_contra hc
          have : 0 ≤ o.vel.x * o.pos.length ^ 2 := mul_nonneg (not_lt.1 hv) (by positivity)
          rw [hvx] at this
          have := mul_pos_of_neg_of_neg (not_le.1 hc) hz
          linarith
        have hyy : o.pos.length * sin A = o.pos.y := (sq_eq_sq₀ s3 hy).1 s2
        apply turned_mod
        unfold Turned
        rw [node_length, pole_cross_node, hi]
        ext <;> simp [nodeDir, aheadDir, hpz, cl, hyy]

end Osculating
end Skyfield
