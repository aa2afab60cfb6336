import Mathlib.Geometry.Euclidean.Angle.Unoriented.TriangleInequality
import Mathlib.Analysis.InnerProductSpace.PiL2
import Mathlib.Analysis.InnerProductSpace.Projection.Minimal
import Mathlib.Analysis.Convex.Join
import Mathlib.Analysis.SpecialFunctions.Trigonometric.Bounds
import Mathlib.Analysis.Real.Pi.Bounds
import Mathlib.Tactic.Linarith
import Mathlib.Tactic.LinearCombination
import Mathlib.Tactic.Positivity
import Mathlib.Tactic.FieldSimp

/-
The shadow of a ball lit by a larger ball: a point is in the umbra or penumbra according to its distance and its angle from the axis.
-/
namespace Skyfield
namespace Shadow
open Real InnerProductGeometry RealInnerProductSpace

variable {F : Type*} [NormedAddCommGroup F] [InnerProductSpace ℝ F]

/-- A compact convex set outside a ball lies strictly beyond a plane tangent to the ball. -/
theorem separate {K : Set F} (hne : K.Nonempty) (hK : IsCompact K) (hc : Convex ℝ K) {a : ℝ} (ha : 0 ≤ a) (h : ∀ x ∈ K, a < ‖x‖) :
    ∃ m : F, ‖m‖ = 1 ∧ ∀ x ∈ K, a < ⟪m, x⟫ := by
  obtain ⟨v, hv, hmin⟩ := exists_norm_eq_iInf_of_complete_convex hne hK.isComplete hc (0 : F)
  have hle := (norm_eq_iInf_iff_real_inner_le_zero hc hv).1 hmin
  have hva := h v hv
  have hpos : 0 < ‖v‖ := lt_of_le_of_lt ha hva
  refine ⟨(‖v‖)⁻¹ • v, ?_, fun x hx => ?_⟩
  · rw [norm_smul, norm_inv, norm_norm, inv_mul_cancel₀ hpos.ne']
  · have := hle x hx
    rw [zero_sub, inner_neg_left, inner_sub_right, real_inner_self_eq_norm_sq] at this
    rw [real_inner_smul_left]
    have h1 : ‖v‖ ^ 2 ≤ ⟪v, x⟫ := by linarith
    refine lt_of_lt_of_le hva ?_
    rw [inv_mul_eq_div, le_div_iff₀ hpos]
    nlinarith

/-- The union of the segments from a point to the points of a ball. -/
theorem cone_compact [ProperSpace F] (p c : F) (r : ℝ) : IsCompact (convexJoin ℝ {p} (Metric.closedBall c r)) := by
  have e : convexJoin ℝ {p} (Metric.closedBall c r) =
      (fun z : ℝ × F => p + z.1 • (z.2 - p)) '' (Set.Icc 0 1 ×ˢ Metric.closedBall c r) := by
    ext x
    simp only [convexJoin_singleton_left, Set.mem_iUnion, segment_eq_image', Set.mem_image, Set.mem_prod, Prod.exists]
    constructor
    · rintro ⟨q, hq, u, hu, rfl⟩; exact ⟨u, q, ⟨hu, hq⟩, rfl⟩
    · rintro ⟨u, q, ⟨hu, hq⟩, rfl⟩; exact ⟨q, hq, u, hu, rfl⟩
  rw [e]
  exact (isCompact_Icc.prod (isCompact_closedBall c r)).image (by fun_prop)

/-- The ball of radius `a` about the origin meets the segment from `p` to `q`. -/
def Blocks (a : ℝ) (p q : F) : Prop := ∃ u : ℝ, 0 ≤ u ∧ u ≤ 1 ∧ ‖p + u • (q - p)‖ ≤ a

def Umbra (a r : ℝ) (s p : F) : Prop := ∀ q, ‖q - s‖ ≤ r → Blocks a p q

def Penumbra (a r : ℝ) (s p : F) : Prop := ∃ q, ‖q - s‖ ≤ r ∧ Blocks a p q

theorem not_blocks_of_plane {a : ℝ} {m p q : F} (hm : ‖m‖ = 1) (hp : a < ⟪m, p⟫) (hq : a < ⟪m, q⟫) : ¬ Blocks a p q := by
  rintro ⟨u, h0, h1, h⟩
  have h2 : ⟪m, p + u • (q - p)⟫ ≤ a := by
    have := real_inner_le_norm m (p + u • (q - p))
    rw [hm, one_mul] at this
    exact this.trans h
  rw [inner_add_right, real_inner_smul_right, inner_sub_right] at h2
  rcases h1.lt_or_eq with h1 | rfl
  · nlinarith [mul_nonneg h0 (sub_nonneg.2 hq.le), mul_pos (sub_pos.2 h1) (sub_pos.2 hp)]
  · linarith

theorem plane_of_not_blocks {a : ℝ} (ha : 0 ≤ a) {p q : F} (h : ¬ Blocks a p q) : ∃ m : F, ‖m‖ = 1 ∧ a < ⟪m, p⟫ ∧ a < ⟪m, q⟫ := by
  have hc : IsCompact (segment ℝ p q) := by
    rw [segment_eq_image']
    exact isCompact_Icc.image (by fun_prop)
  obtain ⟨m, hm, hk⟩ := separate ⟨p, left_mem_segment ℝ p q⟩ hc (convex_segment p q) ha (by
    intro x hx
    rw [segment_eq_image'] at hx
    obtain ⟨u, hu, rfl⟩ := hx
    by_contra hc
    exact h ⟨u, hu.1, hu.2, not_lt.1 hc⟩)
  exact ⟨m, hm, hk p (left_mem_segment ℝ p q), hk q (right_mem_segment ℝ p q)⟩

/-- Angles of a unit vector. -/
theorem angle_lt_iff {m p : F} (hm : ‖m‖ = 1) (hp : p ≠ 0) {x : ℝ} (hx : 0 ≤ x) (hx1 : x ≤ ‖p‖) :
    x < ⟪m, p⟫ ↔ angle m p < π / 2 - arcsin (x / ‖p‖) := by
  have hp' : 0 < ‖p‖ := norm_pos_iff.2 hp
  have e : π / 2 - arcsin (x / ‖p‖) = arccos (x / ‖p‖) := by rw [arccos]
  have h1 : x / ‖p‖ ≤ 1 := (div_le_one hp').2 hx1
  have h0 : 0 ≤ x / ‖p‖ := by positivity
  have hc : cos (angle m p) = ⟪m, p⟫ / ‖p‖ := by rw [cos_angle, hm, one_mul]
  rw [e]
  constructor
  · intro h
    have : x / ‖p‖ < cos (angle m p) := by rw [hc]; exact (div_lt_div_iff_of_pos_right hp').2 h
    rw [← arccos_cos (angle_nonneg m p) (angle_le_pi m p)]
    exact arccos_lt_arccos (by linarith) this (cos_le_one _)
  · intro h
    have : cos (arccos (x / ‖p‖)) < cos (angle m p) := cos_lt_cos_of_nonneg_of_le_pi (angle_nonneg m p) (arccos_le_pi _) h
    rw [cos_arccos (by linarith) h1, hc] at this
    exact (div_lt_div_iff_of_pos_right hp').1 this

theorem lt_angle_iff {m p : F} (hm : ‖m‖ = 1) (hp : p ≠ 0) {x : ℝ} (hx : |x| ≤ ‖p‖) :
    ⟪m, p⟫ < x ↔ π / 2 - arcsin (x / ‖p‖) < angle m p := by
  have hp' : 0 < ‖p‖ := norm_pos_iff.2 hp
  have e : π / 2 - arcsin (x / ‖p‖) = arccos (x / ‖p‖) := by rw [arccos]
  have hab := abs_le.1 hx
  have h1 : x / ‖p‖ ≤ 1 := (div_le_one hp').2 hab.2
  have h0 : -1 ≤ x / ‖p‖ := by rw [le_div_iff₀ hp']; linarith
  have hc : cos (angle m p) = ⟪m, p⟫ / ‖p‖ := by rw [cos_angle, hm, one_mul]
  rw [e]
  constructor
  · intro h
    have : cos (angle m p) < x / ‖p‖ := by rw [hc]; exact (div_lt_div_iff_of_pos_right hp').2 h
    rw [← arccos_cos (angle_nonneg m p) (angle_le_pi m p)]
    exact arccos_lt_arccos (neg_one_le_cos _) this h1
  · intro h
    have : cos (angle m p) < cos (arccos (x / ‖p‖)) := cos_lt_cos_of_nonneg_of_le_pi (arccos_nonneg _) (angle_le_pi m p) h
    rw [cos_arccos h0 h1, hc] at this
    exact (div_lt_div_iff_of_pos_right hp').1 this

/-- A unit vector at right angles to `p`, in the direction away from `n` (or anywhere, if `n` and `p` are in line). -/
theorem exists_away (hdim : ∀ p : F, ∃ w : F, ‖w‖ = 1 ∧ ⟪w, p⟫ = 0) (n p : F) (hn : ‖n‖ = 1) (hp : ‖p‖ = 1) :
    ∃ w : F, ‖w‖ = 1 ∧ ⟪w, p⟫ = 0 ∧ ⟪w, n⟫ = - sin (angle n p) := by
  have hc : ⟪n, p⟫ = cos (angle n p) := by rw [cos_angle, hn, hp]; simp
  have hs := sin_sq_add_cos_sq (angle n p)
  by_cases h0 : sin (angle n p) = 0
  · obtain ⟨w, h1, h2⟩ := hdim p
    refine ⟨w, h1, h2, ?_⟩
    -- `n = ± p`
    have h3 : ⟪n, p⟫ ^ 2 = 1 := by rw [hc]; nlinarith
    have h4 : ‖n - ⟪n, p⟫ • p‖ ^ 2 = 0 := by
      rw [← real_inner_self_eq_norm_sq, inner_sub_left, inner_sub_right, inner_sub_right, real_inner_smul_left, real_inner_smul_right,
        real_inner_smul_left, real_inner_smul_right, real_inner_self_eq_norm_sq, real_inner_self_eq_norm_sq, hn, hp,
        real_inner_comm p n, real_inner_comm n p]
      nlinarith
    have h5 : n = ⟪n, p⟫ • p := by
      have := pow_eq_zero_iff (two_ne_zero) |>.1 h4
      exact sub_eq_zero.1 (norm_eq_zero.1 this)
    rw [h0, h5, real_inner_smul_right, h2]
    simp
  · refine ⟨(sin (angle n p))⁻¹ • (cos (angle n p) • p - n), ?_, ?_, ?_⟩
    · have : ‖cos (angle n p) • p - n‖ ^ 2 = sin (angle n p) ^ 2 := by
        rw [← real_inner_self_eq_norm_sq, inner_sub_left, inner_sub_right, inner_sub_right, real_inner_smul_left, real_inner_smul_right,
          real_inner_smul_left, real_inner_smul_right, real_inner_self_eq_norm_sq, real_inner_self_eq_norm_sq, hn, hp,
          real_inner_comm n p, hc]
        nlinarith
      have h2 : ‖cos (angle n p) • p - n‖ = |sin (angle n p)| := by
        rw [← sqrt_sq (norm_nonneg _), this, sqrt_sq_eq_abs]
      rw [norm_smul, h2, norm_inv, Real.norm_eq_abs, inv_mul_cancel₀ (abs_ne_zero.2 h0)]
    · rw [real_inner_smul_left, inner_sub_left, real_inner_smul_left, real_inner_self_eq_norm_sq, hp, hc]
      ring
    · rw [real_inner_smul_left, inner_sub_left, real_inner_smul_left, real_inner_self_eq_norm_sq, hn, real_inner_comm, hc]
      field_simp
      nlinarith

/-- Going on past `p` by `δ`, away from `n`. -/
theorem exists_beyond (hdim : ∀ p : F, ∃ w : F, ‖w‖ = 1 ∧ ⟪w, p⟫ = 0) (n p : F) (hn : n ≠ 0) (hp : p ≠ 0) (δ : ℝ) (h0 : 0 ≤ δ)
    (h1 : angle n p + δ ≤ π) : ∃ m : F, ‖m‖ = 1 ∧ angle m p = δ ∧ angle m n = angle n p + δ ∧ ⟪m, p⟫ = ‖p‖ * cos δ := by
  have hn' : 0 < ‖n‖ := norm_pos_iff.2 hn
  have hp' : 0 < ‖p‖ := norm_pos_iff.2 hp
  have un : ‖(‖n‖)⁻¹ • n‖ = 1 := by rw [norm_smul, norm_inv, norm_norm, inv_mul_cancel₀ hn'.ne']
  have up : ‖(‖p‖)⁻¹ • p‖ = 1 := by rw [norm_smul, norm_inv, norm_norm, inv_mul_cancel₀ hp'.ne']
  obtain ⟨w, w1, w2, w3⟩ := exists_away hdim _ _ un up
  rw [angle_smul_left_of_pos _ _ (inv_pos.2 hn'), angle_smul_right_of_pos _ _ (inv_pos.2 hp')] at w3
  have hc : ⟪(‖p‖)⁻¹ • p, (‖n‖)⁻¹ • n⟫ = cos (angle n p) := by
    rw [cos_angle, real_inner_smul_left, real_inner_smul_right, real_inner_comm]
    field_simp
  have a0 := angle_nonneg n p
  obtain ⟨P, hP⟩ : ∃ P, P = (‖p‖)⁻¹ • p := ⟨_, rfl⟩
  obtain ⟨M, hM⟩ : ∃ M, M = (‖n‖)⁻¹ • n := ⟨_, rfl⟩
  rw [← hP] at up w2 hc
  rw [← hM] at un w3 hc
  have hm : ‖cos δ • P + sin δ • w‖ = 1 := by
    have : ‖cos δ • P + sin δ • w‖ ^ 2 = 1 := by
      rw [← real_inner_self_eq_norm_sq, inner_add_left, inner_add_right, inner_add_right, real_inner_smul_left, real_inner_smul_right,
        real_inner_smul_left, real_inner_smul_right, real_inner_smul_left, real_inner_smul_right, real_inner_smul_left,
        real_inner_smul_right, real_inner_self_eq_norm_sq, real_inner_self_eq_norm_sq, up, w1, real_inner_comm w P, w2]
      nlinarith [sin_sq_add_cos_sq δ]
    exact (pow_eq_one_iff_of_nonneg (norm_nonneg _) two_ne_zero).1 this
  have i1 : ⟪cos δ • P + sin δ • w, P⟫ = cos δ := by
    rw [inner_add_left, real_inner_smul_left, real_inner_smul_left, w2, real_inner_self_eq_norm_sq, up]; ring
  have i2 : ⟪cos δ • P + sin δ • w, M⟫ = cos (angle n p + δ) := by
    rw [inner_add_left, real_inner_smul_left, real_inner_smul_left, w3, hc, cos_add]; ring
  refine ⟨cos δ • P + sin δ • w, hm, ?_, ?_, ?_⟩
  · rw [← angle_smul_right_of_pos _ p (inv_pos.2 hp'), ← hP, angle, hm, up, i1, mul_one, div_one, arccos_cos h0 (by linarith)]
  · rw [← angle_smul_right_of_pos _ n (inv_pos.2 hn'), ← hM, angle, hm, un, i2, mul_one, div_one, arccos_cos (by linarith) h1]
  · have : p = ‖p‖ • P := by rw [hP, smul_smul, mul_inv_cancel₀ hp'.ne', one_smul]
    have e : ⟪cos δ • P + sin δ • w, p⟫ = ⟪cos δ • P + sin δ • w, ‖p‖ • P⟫ := congrArg _ this
    rw [e, real_inner_smul_right, i1]

/-- Going from `p` towards `n` by `δ`. -/
theorem exists_towards (hdim : ∀ p : F, ∃ w : F, ‖w‖ = 1 ∧ ⟪w, p⟫ = 0) (n p : F) (hn : n ≠ 0) (hp : p ≠ 0) (δ : ℝ) (h0 : 0 ≤ δ)
    (h1 : δ ≤ angle n p) : ∃ m : F, ‖m‖ = 1 ∧ angle m n = angle n p - δ ∧ ⟪m, p⟫ = ‖p‖ * cos δ := by
  have hpi := angle_le_pi n p
  obtain ⟨m, m1, m2, m3, m4⟩ := exists_beyond hdim (-n) p (neg_ne_zero.2 hn) hp δ h0 (by rw [angle_neg_left]; linarith)
  refine ⟨m, m1, ?_, m4⟩
  rw [angle_neg_right, angle_neg_left] at m3
  linarith

/-- There is a plane that leaves the ball, and the light on the side of `p`, exactly if `p` is far enough off the axis. -/
theorem exists_plane_iff (hdim : ∀ p : F, ∃ w : F, ‖w‖ = 1 ∧ ⟪w, p⟫ = 0) {n p : F} (hn : n ≠ 0) (hp : p ≠ 0) {a y : ℝ} (ha : 0 ≤ a)
    (hap : a < ‖p‖) (hy : |y| < ‖n‖) :
    (∃ m : F, ‖m‖ = 1 ∧ a < ⟪m, p⟫ ∧ ⟪m, n⟫ < y) ↔ arcsin (a / ‖p‖) - arcsin (y / ‖n‖) < angle n p := by
  have hp' : 0 < ‖p‖ := norm_pos_iff.2 hp
  have hn' : 0 < ‖n‖ := norm_pos_iff.2 hn
  constructor
  · rintro ⟨m, m1, m2, m3⟩
    rw [angle_lt_iff m1 hp ha hap.le] at m2
    rw [lt_angle_iff m1 hn hy.le] at m3
    have := angle_le_angle_add_angle m p n
    rw [angle_comm p n] at this
    linarith
  · intro h
    have hψ : 0 < π / 2 - arcsin (a / ‖p‖) := by
      have : arcsin (a / ‖p‖) < π / 2 := by rw [arcsin_lt_pi_div_two, div_lt_one hp']; exact hap
      linarith
    have hφ : π / 2 - arcsin (y / ‖n‖) < π := by
      have : -(π / 2) < arcsin (y / ‖n‖) := by
        rw [neg_pi_div_two_lt_arcsin, lt_div_iff₀ hn']
        have := (abs_lt.1 hy).1
        linarith
      linarith
    have hθ := angle_le_pi n p
    obtain ⟨δ, d0, d1, d2, d3⟩ : ∃ δ, 0 ≤ δ ∧ δ < π / 2 - arcsin (a / ‖p‖) ∧ angle n p + δ ≤ π ∧
        π / 2 - arcsin (y / ‖n‖) < angle n p + δ := by
      by_cases hb : angle n p + (π / 2 - arcsin (a / ‖p‖)) ≤ π
      · refine ⟨max 0 ((π / 2 - arcsin (a / ‖p‖) + (π / 2 - arcsin (y / ‖n‖) - angle n p)) / 2), le_max_left _ _, ?_, ?_, ?_⟩
        · rw [max_lt_iff]; exact ⟨hψ, by linarith⟩
        · rcases le_total 0 ((π / 2 - arcsin (a / ‖p‖) + (π / 2 - arcsin (y / ‖n‖) - angle n p)) / 2) with h' | h'
          · rw [max_eq_right h']; linarith
          · rw [max_eq_left h']; linarith
        · have := le_max_right 0 ((π / 2 - arcsin (a / ‖p‖) + (π / 2 - arcsin (y / ‖n‖) - angle n p)) / 2)
          linarith
      · exact ⟨π - angle n p, by linarith, by linarith, by linarith, by linarith⟩
    obtain ⟨m, m1, m2, m3, -⟩ := exists_beyond hdim n p hn hp δ d0 d2
    exact ⟨m, m1, (angle_lt_iff m1 hp ha hap.le).2 (by rw [m2]; exact d1), (lt_angle_iff m1 hn hy.le).2 (by rw [m3]; exact d3)⟩

/-- The umbra. -/
theorem umbra_iff (hdim : ∀ p : F, ∃ w : F, ‖w‖ = 1 ∧ ⟪w, p⟫ = 0) {s p : F} {a r : ℝ} (ha : 0 < a) (har : a ≤ r)
    (hs : r + a < ‖s‖) (hp : a < ‖p‖) : Umbra a r s p ↔ angle (-s) p ≤ arcsin (a / ‖p‖) - arcsin ((r - a) / ‖s‖) := by
  have hs0 : s ≠ 0 := norm_pos_iff.1 (by linarith)
  have hp0 : p ≠ 0 := norm_pos_iff.1 (by linarith)
  have key := exists_plane_iff hdim (n := -s) (p := p) (neg_ne_zero.2 hs0) hp0 (a := a) (y := r - a) ha.le hp (by
    rw [norm_neg, abs_lt]; constructor <;> linarith)
  rw [norm_neg] at key
  rw [← not_lt, ← key, ← not_iff_not, not_not]
  constructor
  · intro h
    simp only [Umbra, not_forall] at h
    obtain ⟨q, hq, hb⟩ := h
    obtain ⟨m, m1, m2, m3⟩ := plane_of_not_blocks ha.le hb
    refine ⟨m, m1, m2, ?_⟩
    have h1 : ⟪m, q - s⟫ ≤ r := by
      have := real_inner_le_norm m (q - s)
      rw [m1, one_mul] at this
      exact this.trans hq
    rw [inner_sub_right] at h1
    rw [inner_neg_right]
    linarith
  · rintro ⟨m, m1, m2, m3⟩ h
    rw [inner_neg_right] at m3
    have hr : 0 < r := by linarith
    refine not_blocks_of_plane m1 m2 ?_ (h (s + r • m) (by rw [add_sub_cancel_left, norm_smul, m1, mul_one, Real.norm_eq_abs, abs_of_pos hr]))
    rw [inner_add_right, real_inner_smul_right, real_inner_self_eq_norm_sq, m1]
    linarith

/-- The penumbra. -/
theorem penumbra_iff [ProperSpace F] (hdim : ∀ p : F, ∃ w : F, ‖w‖ = 1 ∧ ⟪w, p⟫ = 0) {s p : F} {a r : ℝ} (ha : 0 < a) (hr : 0 < r)
    (hs : r + a < ‖s‖) (hp : a < ‖p‖) : Penumbra a r s p ↔ angle (-s) p ≤ arcsin (a / ‖p‖) + arcsin ((r + a) / ‖s‖) := by
  have hs0 : s ≠ 0 := norm_pos_iff.1 (by linarith)
  have hp0 : p ≠ 0 := norm_pos_iff.1 (by linarith)
  have key := exists_plane_iff hdim (n := -s) (p := p) (neg_ne_zero.2 hs0) hp0 (a := a) (y := -(r + a)) ha.le hp (by
    rw [norm_neg, abs_lt]; constructor <;> linarith)
  rw [norm_neg, neg_div, arcsin_neg, sub_neg_eq_add] at key
  rw [← not_lt, ← key, ← not_iff_not, not_not]
  constructor
  · intro h
    simp only [Penumbra, not_exists, not_and] at h
    have hball : (Metric.closedBall s r).Nonempty := ⟨s, Metric.mem_closedBall_self hr.le⟩
    obtain ⟨m, m1, m2⟩ := separate (K := convexJoin ℝ {p} (Metric.closedBall s r)) ⟨p, by
        rw [convexJoin_singleton_left, Set.mem_iUnion₂]
        exact ⟨s, Metric.mem_closedBall_self hr.le, left_mem_segment ℝ p s⟩⟩ (cone_compact p s r)
      ((convex_singleton p).convexJoin (convex_closedBall s r)) ha.le (by
        intro x hx
        rw [convexJoin_singleton_left, Set.mem_iUnion₂] at hx
        obtain ⟨q, hq, hx⟩ := hx
        rw [segment_eq_image'] at hx
        obtain ⟨u, hu, rfl⟩ := hx
        by_contra hc
        exact h q (by rwa [Metric.mem_closedBall, dist_eq_norm] at hq) ⟨u, hu.1, hu.2, not_lt.1 hc⟩)
    have hmem : ∀ q ∈ Metric.closedBall s r, ∀ x ∈ segment ℝ p q, a < ⟪m, x⟫ := by
      intro q hq x hx
      refine m2 x ?_
      rw [convexJoin_singleton_left, Set.mem_iUnion₂]
      exact ⟨q, hq, hx⟩
    refine ⟨m, m1, hmem s (Metric.mem_closedBall_self hr.le) p (left_mem_segment ℝ p s), ?_⟩
    have := hmem (s - r • m) (by
      rw [Metric.mem_closedBall, dist_eq_norm, sub_sub_cancel_left, norm_neg, norm_smul, m1, mul_one, Real.norm_eq_abs, abs_of_pos hr])
      (s - r • m) (right_mem_segment ℝ p _)
    rw [inner_sub_right, real_inner_smul_right, real_inner_self_eq_norm_sq, m1] at this
    rw [inner_neg_right]
    linarith
  · rintro ⟨m, m1, m2, m3⟩ ⟨q, hq, hb⟩
    rw [inner_neg_right] at m3
    refine not_blocks_of_plane m1 m2 ?_ hb
    have h1 : -r ≤ ⟪m, q - s⟫ := by
      have := abs_real_inner_le_norm m (q - s)
      rw [m1, one_mul] at this
      have := (abs_le.1 (this.trans hq)).1
      exact this
    rw [inner_sub_right] at h1
    linarith

/-- Seen from the origin, a ball reaches to the angle `arcsin (r / d)`. -/
theorem angle_of_ball {c x : F} {r : ℝ} (hr : 0 ≤ r) (hc : r < ‖c‖) (hx : ‖x - c‖ ≤ r) : angle x c ≤ arcsin (r / ‖c‖) := by
  have hc' : 0 < ‖c‖ := lt_of_le_of_lt hr hc
  have hx' : 0 < ‖x‖ := by
    have := norm_sub_norm_le c x
    rw [norm_sub_rev] at this
    linarith
  have h1 : ‖x - c‖ ^ 2 ≤ r ^ 2 := pow_le_pow_left₀ (norm_nonneg _) hx 2
  rw [norm_sub_sq_real] at h1
  have h0 : 0 ≤ r / ‖c‖ := by positivity
  have hsq : 0 ≤ ‖c‖ ^ 2 - r ^ 2 := by nlinarith
  rw [arcsin_eq_arccos h0, angle]
  apply arccos_le_arccos
  rw [le_div_iff₀ (by positivity)]
  have e : √(1 - (r / ‖c‖) ^ 2) = √(‖c‖ ^ 2 - r ^ 2) / ‖c‖ := by
    rw [show 1 - (r / ‖c‖) ^ 2 = (‖c‖ ^ 2 - r ^ 2) / ‖c‖ ^ 2 by field_simp, sqrt_div hsq, sqrt_sq hc'.le]
  rw [e]
  have h2 := sq_sqrt hsq
  rw [show √(‖c‖ ^ 2 - r ^ 2) / ‖c‖ * (‖x‖ * ‖c‖) = √(‖c‖ ^ 2 - r ^ 2) * ‖x‖ by field_simp]
  nlinarith [sq_nonneg (‖x‖ - √(‖c‖ ^ 2 - r ^ 2))]

/-- The foot of the ray in direction `m`: the point of it nearest to `c`. -/
theorem foot {c m : F} {δ : ℝ} (hm : ‖m‖ = 1) (h : ⟪m, c⟫ = ‖c‖ * cos δ) (hδ : 0 ≤ sin δ) :
    ‖(‖c‖ * cos δ) • m - c‖ = ‖c‖ * sin δ := by
  have : ‖(‖c‖ * cos δ) • m - c‖ ^ 2 = (‖c‖ * sin δ) ^ 2 := by
    rw [norm_sub_sq_real, norm_smul, hm, real_inner_smul_left, h, mul_one, Real.norm_eq_abs, sq_abs]
    linear_combination -‖c‖ ^ 2 * sin_sq_add_cos_sq δ
  exact (sq_eq_sq₀ (norm_nonneg _) (mul_nonneg (norm_nonneg _) hδ)).1 this

theorem arcsin_ge {x : ℝ} (h0 : 0 ≤ x) (h1 : x ≤ 1) : x ≤ arcsin x := by
  rw [le_arcsin_iff_sin_le' ⟨by linarith [pi_gt_three], by linarith [pi_gt_three]⟩]
  exact sin_le h0

theorem arcsin_le_cube {x : ℝ} (h0 : 0 ≤ x) (h1 : x ≤ 1 / 2) : arcsin x ≤ x + x ^ 3 := by
  rcases h0.eq_or_lt with rfl | h0
  · simp
  · have h3 : x ^ 3 ≤ x / 4 := by nlinarith [sq_nonneg x]
    have hz : 0 < x + x ^ 3 := by positivity
    have := sin_gt_sub_cube hz
    rw [arcsin_le_iff_le_sin' ⟨by linarith [pi_gt_three], by linarith [pi_gt_three]⟩]
    have h4 : (x + x ^ 3) ^ 3 ≤ (x * (5 / 4)) ^ 3 := pow_le_pow_left₀ hz.le (by linarith) 3
    nlinarith [pow_pos h0 3]

end Shadow
end Skyfield
