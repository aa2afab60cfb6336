import Verif.Lemmas.OrbitPlane

/-
C62: osculating elements and state vectors determine each other.
-/
namespace Skyfield
open Real

theorem turned_unique {k a b : Vec3} {θ θ' : ℝ} (ha0 : a ≠ 0) (hb0 : b ≠ 0) (hk : k.dot k = 1) (ha : k.dot a = 0)
    (h1 : Turned k θ a b) (h2 : Turned k θ' a b) : cos θ = cos θ' ∧ sin θ = sin θ' := by
  have la := Vec3.length_pos ha0
  have lb := Vec3.length_pos hb0
  unfold Turned at h1 h2
  have h := h1.symm.trans h2
  have haa : 0 < a.dot a := by rw [← Vec3.length_sq]; positivity
  have hac : a.dot (k.cross a) = 0 := by simp [Vec3.dot, Vec3.cross]; ring
  have hcc : (k.cross a).dot (k.cross a) = a.dot a := by rw [Vec3.lagrange, hk, ha]; ring
  constructor
  · have := congrArg (Vec3.dot a) h
    simp only [Vec3.dot_smul, Vec3.dot_add, hac] at this
    have h3 : b.length * a.dot a * cos θ = b.length * a.dot a * cos θ' := by linear_combination this
    exact mul_left_cancel₀ (by positivity) h3
  · have := congrArg (Vec3.dot (k.cross a)) h
    simp only [Vec3.dot_smul, Vec3.dot_add, hcc, Vec3.dot_comm (k.cross a) a, hac] at this
    have h3 : b.length * a.dot a * sin θ = b.length * a.dot a * sin θ' := by linear_combination this
    exact mul_left_cancel₀ (by positivity) h3

/-- Angles less than a turn apart with the same sine and cosine are equal. -/
theorem angle_eq_of_sin_cos {a b : ℝ} (h : |a - b| < 2 * π) (hc : cos a = cos b) (hs : sin a = sin b) : a = b := by
  have h1 : cos (a - b) = 1 := by
    rw [cos_sub, hc, hs]; have := sin_sq_add_cos_sq b; linarith
  obtain ⟨n, hn⟩ := (cos_eq_one_iff (a - b)).1 h1
  have hp := pi_pos
  rw [← hn, abs_mul, abs_of_pos (by positivity : 0 < 2 * π)] at h
  have hn1 : |(n : ℝ)| < 1 := by
    by_contra hc
    have := mul_le_mul_of_nonneg_right (not_lt.1 hc) (by positivity : 0 ≤ 2 * π)
    linarith
  have hn0 : n = 0 := by
    rw [← Int.cast_abs] at hn1
    have : |n| < 1 := by exact_mod_cast hn1
    exact Int.abs_lt_one_iff.1 this
  rw [hn0] at hn
  simp at hn
  linarith

theorem turn_lt {x : ℝ} (h : x ≤ π) : x < tau := by unfold tau; linarith [pi_pos]

theorem pyMod_tau_mem (x : ℝ) : 0 ≤ pyMod x tau ∧ pyMod x tau < tau := ⟨pyMod_nonneg' _ tau_pos, pyMod_lt' _ tau_pos⟩

theorem angleBetween_mem (a b : Vec3) : 0 ≤ angleBetween a b ∧ angleBetween a b ≤ π := by
  unfold angleBetween
  simp only
  have h1 := arctan2_nonneg (Vec3.length_nonneg (b.length • a - a.length • b)) (b.length • a + a.length • b).length
  have h2 := arctan2_abs_le (b.length • a - a.length • b).length (Vec3.length_nonneg (b.length • a + a.length • b))
  have h3 := (abs_le.1 h2).2
  constructor <;> linarith

namespace Osculating

/-- **C62.** Every angle is reported in its usual range. -/
theorem _root_.Skyfield.C62_ranges (o : Osculating) :
    (0 ≤ o.inclination ∧ o.inclination ≤ π) ∧ (0 ≤ o.ascendingNode ∧ o.ascendingNode < 2 * π) ∧
    (0 ≤ o.periapsisArgument ∧ o.periapsisArgument < 2 * π) ∧
    (o.eccentricity < 1 - 1e-15 → 0 ≤ o.trueAnomaly ∧ o.trueAnomaly < 2 * π) ∧
    (1 - 1e-15 ≤ o.eccentricity → -π ≤ o.trueAnomaly ∧ o.trueAnomaly < π) := by
  have key : ∀ (c : Prop) (_ : Decidable c) (x : ℝ), 0 ≤ x → x ≤ π → 0 ≤ (if c then x else pyMod (-x) tau) ∧
      (if c then x else pyMod (-x) tau) < tau := by
    intro c _ x h0 h1
    split
    · exact ⟨h0, turn_lt h1⟩
    · exact pyMod_tau_mem _
  refine ⟨angleBetween_mem _ _, ?_, ?_, ?_, ?_⟩
  · unfold ascendingNode longitudeOfAscendingNode
    split
    · exact pyMod_tau_mem _
    · exact ⟨le_rfl, tau_pos⟩
  · unfold periapsisArgument argumentOfPeriapsis
    split
    · exact ⟨le_rfl, tau_pos⟩
    · split
      · simp only
        split
        · exact pyMod_tau_mem _
        · exact pyMod_tau_mem _
      · exact key _ _ _ (angleBetween_mem _ _).1 (angleBetween_mem _ _).2
  · intro he
    unfold trueAnomaly trueAnomalyOf
    simp only
    rw [if_pos (show o.eVec.length < 1 - 1e-15 from he)]
    split
    · exact key _ _ _ (angleBetween_mem _ _).1 (angleBetween_mem _ _).2
    · split
      · exact key _ _ _ (arccos_nonneg _) (arccos_le_pi _)
      · exact key _ _ _ (angleBetween_mem _ _).1 (angleBetween_mem _ _).2
  · intro he
    unfold trueAnomaly trueAnomalyOf
    simp only
    rw [if_neg (show ¬ o.eVec.length < 1 - 1e-15 from not_lt.2 he)]
    exact ⟨(normpi_mem _).1, (normpi_mem _).2.1⟩

/-- The position in terms of the elements. -/
theorem pos_eq {o : Osculating} (hm : 0 < o.mu) (hh : o.hVec ≠ 0) (he : o.eccentricity = 0 ∨ 1e-15 < o.eccentricity) :
    o.pos = o.pos.length • planeDir o.ascendingNode o.inclination (o.trueAnomaly + o.periapsisArgument) := by
  rcases he with he | he
  · have he0 : o.eVec = 0 := Vec3.length_eq_zero.1 he
    have hw : o.periapsisArgument = 0 := by
      unfold periapsisArgument argumentOfPeriapsis
      rw [he0, Vec3.length_zero, if_pos (by norm_num)]
    rw [hw, add_zero]
    exact turned_node (turned_circular hm hh he0)
  · have he0 : o.eVec ≠ 0 := fun h => by
      unfold eccentricity at he; rw [h, Vec3.length_zero] at he; norm_num at he
    rw [add_comm]
    exact turned_node (turned_trans (pole_unit _ _) (pole_dot_node _ _) he0 (turned_periapsis hh he.le) (turned_position hm hh he))

/-- The distance in terms of the elements, as a product. -/
theorem length_mul {o : Osculating} (hm : 0 < o.mu) (hh : o.hVec ≠ 0) (he : o.eccentricity = 0 ∨ 1e-15 < o.eccentricity) :
    o.pos.length * (1 + o.eccentricity * cos o.trueAnomaly) = o.latusRectum := by
  have h1 := e_dot_pos hm hh
  rcases he with he | he
  · have he0 : o.eVec = 0 := Vec3.length_eq_zero.1 he
    rw [he0, Vec3.zero_dot] at h1
    rw [he]; linarith
  · have he0 : o.eVec ≠ 0 := fun h => by
      unfold eccentricity at he; rw [h, Vec3.length_zero] at he; norm_num at he
    have ht := turned_position hm hh he
    unfold Turned at ht
    have hac : o.eVec.dot ((poleDir o.ascendingNode o.inclination).cross o.eVec) = 0 := by simp [Vec3.dot, Vec3.cross]; ring
    have := congrArg (Vec3.dot o.eVec) ht
    simp only [Vec3.dot_smul, Vec3.dot_add, hac, h1, ← Vec3.length_sq o.eVec] at this
    have le := Vec3.length_pos he0
    have h2 : o.latusRectum - o.pos.length = o.pos.length * (o.eVec.length * cos o.trueAnomaly) := by
      apply mul_left_cancel₀ le.ne'
      rw [this]; ring
    unfold eccentricity
    linarith

/-- The radial velocity in terms of the elements. -/
theorem pos_dot_vel {o : Osculating} (hm : 0 < o.mu) (hh : o.hVec ≠ 0) (he : o.eccentricity = 0 ∨ 1e-15 < o.eccentricity) :
    o.latusRectum * o.pos.dot o.vel = o.hVec.length * o.pos.length * o.eccentricity * sin o.trueAnomaly := by
  have h1 := h_dot_e_cross hm (o := o)
  rcases he with he | he
  · have he0 : o.eVec = 0 := Vec3.length_eq_zero.1 he
    have e0 : (0 : Vec3).cross o.pos = 0 := by ext <;> simp [Vec3.cross]
    rw [he0, e0, Vec3.dot_zero] at h1
    rw [← h1, he]; ring
  · have he0 : o.eVec ≠ 0 := fun h => by
      unfold eccentricity at he; rw [h, Vec3.length_zero] at he; norm_num at he
    have ht := turned_position hm hh he
    unfold Turned at ht
    have le := Vec3.length_pos he0
    rw [← h1, pole_dot hh]
    set k := poleDir o.ascendingNode o.inclination
    have hk : k.dot k = 1 := pole_unit _ _
    have hke : k.dot o.eVec = 0 := pole_dot_zero hh o.h_dot_e
    have hac : (k.cross o.eVec).dot o.eVec = 0 := by simp [Vec3.dot, Vec3.cross]; ring
    have hcc : (k.cross o.eVec).dot (k.cross o.eVec) = o.eVec.dot o.eVec := by rw [Vec3.lagrange, hk, hke]; ring
    have htr : k.dot (o.eVec.cross o.pos) = (k.cross o.eVec).dot o.pos := by simp [Vec3.dot, Vec3.cross]; ring
    have := congrArg (Vec3.dot (k.cross o.eVec)) ht
    simp only [Vec3.dot_smul, Vec3.dot_add, hac, hcc, ← Vec3.length_sq o.eVec] at this
    rw [htr]
    unfold eccentricity
    apply mul_left_cancel₀ le.ne'
    linear_combination o.hVec.length * this

/-- **C62.** State to elements and back: except for the hair's breadth of eccentricities that the code treats as circular,
the elements reported for any orbit with angular momentum — circular or not, elliptic, parabolic or hyperbolic, inclined,
equatorial or retrograde — are accepted by the constructor from elements and give back the very position and velocity. -/
theorem _root_.Skyfield.C62_round_trip (o : Osculating) (hm : 0 < o.mu) (hh : o.pos.cross o.vel ≠ 0)
    (he : o.eccentricity = 0 ∨ 1e-15 < o.eccentricity) :
    eleToVec o.latusRectum o.eccentricity o.inclination o.ascendingNode o.periapsisArgument o.trueAnomaly o.mu =
      .state o.pos o.vel := by
  have hh' : o.hVec ≠ 0 := hh
  have lp := latusRectum_pos hm hh'
  have lr := Vec3.length_pos (pos_ne hh')
  have lh := Vec3.length_pos hh'
  have hlen := length_mul hm hh' he
  have hd : 0 < 1 + o.eccentricity * cos o.trueAnomaly := by
    by_contra hc
    have := mul_nonpos_of_nonneg_of_nonpos lr.le (not_lt.1 hc)
    linarith
  obtain ⟨⟨i0, i1⟩, -, -, -, hv⟩ := C62_ranges o
  obtain ⟨r, vel, hst⟩ : ∃ r vel, eleToVec o.latusRectum o.eccentricity o.inclination o.ascendingNode o.periapsisArgument
      o.trueAnomaly o.mu = .state r vel := by
    refine (C44_accepted ..).2 ⟨i0, i1, ?_⟩
    by_cases h1 : o.eccentricity ≤ 1
    · exact Or.inl h1
    · right
      push Not at h1
      have hv' := hv (by linarith)
      by_cases h2 : o.trueAnomaly ≤ 0
      · exact h2.trans (arccos_nonneg _)
      · push Not at h2
        have h3 : -1 / o.eccentricity ≤ cos o.trueAnomaly := by
          rw [div_le_iff₀ (by linarith)]; linarith
        have := arccos_le_arccos h3
        rwa [arccos_cos h2.le hv'.2.le] at this
  rw [hst]
  obtain ⟨hr, hvel⟩ := eleToVec_form lp hd.ne' hst
  have hrl : o.latusRectum / (1 + o.eccentricity * cos o.trueAnomaly) = o.pos.length := by
    rw [div_eq_iff hd.ne']; exact hlen.symm
  have hpos := pos_eq hm hh' he
  have hr' : r = o.pos := by rw [hr, hrl]; exact hpos.symm
  -- the velocity, resolved along the position and across it
  have hS : √(o.latusRectum * o.mu) = o.hVec.length := by
    have : o.latusRectum * o.mu = o.hVec.length ^ 2 := by unfold latusRectum semiLatusRectum; field_simp
    rw [this, sqrt_sq lh.le]
  have hpl := planeDir_unit o.ascendingNode o.inclination (o.trueAnomaly + o.periapsisArgument)
  have hpc := planeDir_cross o.ascendingNode o.inclination (o.trueAnomaly + o.periapsisArgument)
  have hpd := planeDir_dot o.ascendingNode o.inclination (o.trueAnomaly + o.periapsisArgument)
  have hq : ∀ u : Vec3, u.dot u = 1 → o.vel = u.dot o.vel • u + (u.cross o.vel).cross u := by
    intro u hu
    simp only [Vec3.dot] at hu
    ext
    · simp only [Vec3.dot, Vec3.cross, Vec3.smul_x, Vec3.add_x]; grind
    · simp only [Vec3.dot, Vec3.cross, Vec3.smul_y, Vec3.add_y]; grind
    · simp only [Vec3.dot, Vec3.cross, Vec3.smul_z, Vec3.add_z]; grind
  have hvv := hq _ hpl
  have hrd := pos_dot_vel hm hh' he
  have hpv := h_eq hh'
  have hcr := planeDir_cross_pole o.ascendingNode o.inclination (o.trueAnomaly + o.periapsisArgument)
  set U := planeDir o.ascendingNode o.inclination (o.trueAnomaly + o.periapsisArgument) with hU
  set W := planeDir o.ascendingNode o.inclination (o.trueAnomaly + o.periapsisArgument + π / 2) with hW
  have hUv : o.pos.length * U.dot o.vel = o.pos.dot o.vel := by
    conv_rhs => rw [hpos]
    rw [Vec3.smul_dot]
  have hUc : o.pos.length • U.cross o.vel = o.hVec := by
    unfold hVec
    conv_rhs => rw [hpos]
    rw [Vec3.smul_cross]
  have c1 : U.dot o.vel = o.hVec.length * o.eccentricity * sin o.trueAnomaly / o.latusRectum := by
    rw [eq_div_iff lp.ne']
    apply mul_left_cancel₀ lr.ne'
    linear_combination o.latusRectum * hUv + hrd
  have c2 : (U.cross o.vel).cross U = (o.hVec.length * (1 + o.eccentricity * cos o.trueAnomaly) / o.latusRectum) • W := by
    have e1 : o.pos.length • (U.cross o.vel).cross U = o.hVec.length • W := by
      rw [← Vec3.smul_cross, hUc]
      conv_lhs => rw [hpv]
      rw [Vec3.smul_cross]
      have : (poleDir o.ascendingNode o.inclination).cross U = W := by
        have e2 : (poleDir o.ascendingNode o.inclination).cross U = -(U.cross (poleDir o.ascendingNode o.inclination)) := by
          ext <;> simp [Vec3.cross] <;> ring
        rw [e2, hcr]
        ext <;> simp
      rw [this]
    have e3 : o.hVec.length * (1 + o.eccentricity * cos o.trueAnomaly) / o.latusRectum = o.hVec.length / o.pos.length := by
      rw [div_eq_div_iff lp.ne' lr.ne']; linear_combination o.hVec.length * hlen
    rw [e3]
    rw [Vec3.ext_iff'] at e1 ⊢
    simp only [Vec3.smul_x, Vec3.smul_y, Vec3.smul_z] at e1 ⊢
    refine ⟨?_, ?_, ?_⟩
    · apply mul_left_cancel₀ lr.ne'; rw [e1.1]; field_simp
    · apply mul_left_cancel₀ lr.ne'; rw [e1.2.1]; field_simp
    · apply mul_left_cancel₀ lr.ne'; rw [e1.2.2]; field_simp
  have hv' : vel = o.vel := by rw [hvel, hS, hvv, c1, c2]
  rw [hr', hv']

/-- Non-vacuity of `C62_round_trip`: an ellipse in the reference plane, and an inclined hyperbola. -/
example : let o : Osculating := ⟨⟨1, 0, 0⟩, ⟨0, 11 / 10, 0⟩, 1⟩
    0 < o.mu ∧ o.pos.cross o.vel ≠ 0 ∧ 1e-15 < o.eccentricity ∧ o.eccentricity < 1 := by
  have h1 : (⟨1, 0, 0⟩ : Vec3).length = 1 := by unfold Vec3.length; norm_num
  have h2 : (⟨0, 11 / 10, 0⟩ : Vec3).length ^ 2 = 121 / 100 := by rw [Vec3.length_sq]; norm_num [Vec3.dot]
  have he : (⟨⟨1, 0, 0⟩, ⟨0, 11 / 10, 0⟩, 1⟩ : Osculating).eccentricity = 21 / 100 := by
    have e1 : (⟨⟨1, 0, 0⟩, ⟨0, 11 / 10, 0⟩, 1⟩ : Osculating).eVec = ⟨21 / 100, 0, 0⟩ := by
      unfold eVec eccentricityVector
      simp only [h1, h2]
      ext <;> simp [Vec3.dot]
      norm_num
    unfold eccentricity
    rw [e1]
    unfold Vec3.length
    rw [show (21 / 100 * (21 / 100) + 0 * 0 + 0 * 0 : ℝ) = (21 / 100) ^ 2 by ring, sqrt_sq (by norm_num)]
  refine ⟨by norm_num, fun h => ?_, by rw [he]; norm_num, by rw [he]; norm_num⟩
  have := congrArg Vec3.z h
  norm_num [Vec3.cross] at this

example : let o : Osculating := ⟨⟨1, 0, 0⟩, ⟨0, 0, 2⟩, 1⟩
    0 < o.mu ∧ o.pos.cross o.vel ≠ 0 ∧ 1 < o.eccentricity := by
  have h1 : (⟨1, 0, 0⟩ : Vec3).length = 1 := by unfold Vec3.length; norm_num
  have h2 : (⟨0, 0, 2⟩ : Vec3).length ^ 2 = 4 := by rw [Vec3.length_sq]; norm_num [Vec3.dot]
  have he : (⟨⟨1, 0, 0⟩, ⟨0, 0, 2⟩, 1⟩ : Osculating).eccentricity = 3 := by
    have e1 : (⟨⟨1, 0, 0⟩, ⟨0, 0, 2⟩, 1⟩ : Osculating).eVec = ⟨3, 0, 0⟩ := by
      unfold eVec eccentricityVector
      simp only [h1, h2]
      ext <;> simp [Vec3.dot]
      norm_num
    unfold eccentricity
    rw [e1]
    unfold Vec3.length
    rw [show (3 * 3 + 0 * 0 + 0 * 0 : ℝ) = 3 ^ 2 by ring, sqrt_sq (by norm_num)]
  refine ⟨by norm_num, fun h => ?_, by rw [he]; norm_num⟩
  have := congrArg Vec3.y h
  norm_num [Vec3.cross] at this

/-- The eccentricity vector in its other form. -/
theorem eVec_eq {o : Osculating} (hm : 0 < o.mu) (hr : o.pos ≠ 0) :
    o.eVec = (1 / o.mu) • o.vel.cross (o.pos.cross o.vel) - (1 / o.pos.length) • o.pos := by
  have lr := Vec3.length_pos hr
  have h2 := Vec3.length_sq o.vel
  unfold eVec eccentricityVector
  simp only
  rw [h2]
  ext
  · simp only [Vec3.smul_x, Vec3.sub_x, Vec3.cross, Vec3.dot]; field_simp; ring
  · simp only [Vec3.smul_y, Vec3.sub_y, Vec3.cross, Vec3.dot]; field_simp; ring
  · simp only [Vec3.smul_z, Vec3.sub_z, Vec3.cross, Vec3.dot]; field_simp; ring

theorem turned_planeDir {Om i u k : ℝ} (hk : 0 ≤ k) : Turned (poleDir Om i) u (nodeDir Om) (k • planeDir Om i u) := by
  unfold Turned
  have : (planeDir Om i u).length = 1 := by rw [Vec3.length_eq, planeDir_unit, sqrt_one]
  rw [node_length, pole_cross_node, Vec3.length_smul_of_nonneg hk, this, planeDir]
  ext <;> simp

theorem turned_symm_sub {k a b c : Vec3} {θ φ : ℝ} (hk : k.dot k = 1) (ha : k.dot a = 0) (hb0 : b ≠ 0) (ha0 : a ≠ 0)
    (h1 : Turned k θ a b) (h2 : Turned k φ a c) : Turned k (φ - θ) b c := by
  have la := (Vec3.length_pos ha0).ne'
  have lb := (Vec3.length_pos hb0).ne'
  have kk : k.cross (k.cross a) = -a := by
    simp only [Vec3.dot] at hk ha
    ext
    · simp only [Vec3.cross, Vec3.neg_x]; grind
    · simp only [Vec3.cross, Vec3.neg_y]; grind
    · simp only [Vec3.cross, Vec3.neg_z]; grind
  unfold Turned at *
  have h3 : a.length • k.cross b = b.length • (cos θ • k.cross a - sin θ • a) := by
    have : a.length • k.cross b = k.cross (a.length • b) := (Vec3.cross_smul _ _ _).symm
    rw [this, h1, Vec3.cross_smul, Vec3.cross_add, Vec3.cross_smul, Vec3.cross_smul, kk]
    ext <;> simp only [Vec3.smul_x, Vec3.smul_y, Vec3.smul_z, Vec3.add_x, Vec3.add_y, Vec3.add_z, Vec3.sub_x, Vec3.sub_y,
      Vec3.sub_z, Vec3.neg_x, Vec3.neg_y, Vec3.neg_z] <;> ring
  have hs := sin_sq_add_cos_sq θ
  have e1 : sin θ * sin (φ - θ) = cos θ * cos (φ - θ) - cos φ := by
    have := cos_add θ (φ - θ)
    rw [show θ + (φ - θ) = φ by ring] at this; linarith
  have e2 : sin θ * cos (φ - θ) + cos θ * sin (φ - θ) = sin φ := by
    have := sin_add θ (φ - θ)
    rw [show θ + (φ - θ) = φ by ring] at this; linarith
  rw [Vec3.ext_iff'] at h1 h2 h3 ⊢
  simp only [Vec3.smul_x, Vec3.smul_y, Vec3.smul_z, Vec3.add_x, Vec3.add_y, Vec3.add_z, Vec3.sub_x, Vec3.sub_y,
    Vec3.sub_z] at h1 h2 h3 ⊢
  obtain ⟨a1, a2, a3⟩ := h1
  obtain ⟨b1, b2, b3⟩ := h2
  obtain ⟨c1, c2, c3⟩ := h3
  refine ⟨?_, ?_, ?_⟩
  · apply mul_left_cancel₀ la
    linear_combination b.length * b1 - c.length * cos (φ - θ) * a1 - c.length * sin (φ - θ) * c1 +
      c.length * b.length * a.x * e1 - c.length * b.length * (k.cross a).x * e2
  · apply mul_left_cancel₀ la
    linear_combination b.length * b2 - c.length * cos (φ - θ) * a2 - c.length * sin (φ - θ) * c2 +
      c.length * b.length * a.y * e1 - c.length * b.length * (k.cross a).y * e2
  · apply mul_left_cancel₀ la
    linear_combination b.length * b3 - c.length * cos (φ - θ) * a3 - c.length * sin (φ - θ) * c3 +
      c.length * b.length * a.z * e1 - c.length * b.length * (k.cross a).z * e2

/-- **C62.** Elements to state and back: for an orbit that is neither circular nor in the reference plane, the elements
reported for the state made from given elements are those elements. -/
theorem _root_.Skyfield.C62_round_trip' (p e i Om w v mu : ℝ) (r vel : Vec3) (hp : 0 < p) (hmu : 0 < mu) (he : 1e-15 < e)
    (hi0 : 0 < i) (hi1 : i < π) (hOm : 0 ≤ Om ∧ Om < 2 * π) (hw : 0 ≤ w ∧ w < 2 * π)
    (hv : if e < 1 - 1e-15 then 0 ≤ v ∧ v < 2 * π else -π ≤ v ∧ v < π) (hd : 0 < 1 + e * cos v)
    (h : eleToVec p e i Om w v mu = .state r vel) :
    let o : Osculating := ⟨r, vel, mu⟩
    o.latusRectum = p ∧ o.eccentricity = e ∧ o.inclination = i ∧ o.ascendingNode = Om ∧ o.periapsisArgument = w ∧
      o.trueAnomaly = v := by
  intro o
  have hpi := pi_pos
  obtain ⟨hr, hrl⟩ := C44_position hp hd h
  have hL := C44_angular_momentum hp hmu hd h
  have hE := C44_eccentricity_vector hp hmu hd h
  have lr : 0 < r.length := by rw [hrl]; positivity
  have hr0 : r ≠ 0 := fun h => by rw [h, Vec3.length_zero] at lr; exact lt_irrefl _ lr
  have hS : 0 < √(mu * p) := sqrt_pos.2 (by positivity)
  have hplen : (poleDir Om i).length = 1 := by rw [Vec3.length_eq, pole_unit, sqrt_one]
  have hhv : o.hVec = √(mu * p) • poleDir Om i := hL
  have hhl : o.hVec.length = √(mu * p) := by rw [hhv, Vec3.length_smul_of_nonneg hS.le, hplen, mul_one]
  have hh : o.hVec ≠ 0 := fun h => by rw [h, Vec3.length_zero] at hhl; linarith
  have hev : o.eVec = e • planeDir Om i w := by rw [eVec_eq hmu hr0]; exact hE
  have hpl : ∀ u, (planeDir Om i u).length = 1 := fun u => by rw [Vec3.length_eq, planeDir_unit, sqrt_one]
  have hecc : o.eccentricity = e := by
    unfold eccentricity; rw [hev, Vec3.length_smul_of_nonneg (by linarith), hpl, mul_one]
  have hlat : o.latusRectum = p := by
    unfold latusRectum semiLatusRectum
    rw [hhl, sq_sqrt (by positivity)]
    exact mul_div_cancel_left₀ p hmu.ne'
  obtain ⟨i0, i1, hc, hs⟩ := inclination_facts hh
  have hinc : o.inclination = i := by
    refine injOn_cos ⟨i0, i1⟩ ⟨hi0.le, hi1.le⟩ ?_
    have : o.hVec.length * cos o.inclination = o.hVec.length * cos i := by
      rw [show o.hVec.length * cos o.inclination = o.hVec.z from hc, hhl, hhv]; simp [poleDir]
    exact mul_left_cancel₀ (by rw [hhl]; exact hS.ne') this
  have hsi : 0 < sin i := sin_pos_of_pos_of_lt_pi hi0 hi1
  obtain ⟨-, hOr, hwr, hv1, hv2⟩ := C62_ranges o
  have hnode : o.ascendingNode = Om := by
    have hp' := h_eq hh
    rw [hinc, hhl, hhv, Vec3.ext_iff'] at hp'
    simp only [poleDir, Vec3.smul_x, Vec3.smul_y] at hp'
    obtain ⟨q1, q2, -⟩ := hp'
    have q1' := mul_right_cancel₀ hsi.ne' (mul_left_cancel₀ hS.ne' q1)
    have q2' := mul_right_cancel₀ hsi.ne' (neg_inj.1 (mul_left_cancel₀ hS.ne' q2))
    exact angle_eq_of_sin_cos (by rw [abs_lt]; constructor <;> linarith) q2'.symm q1'.symm
  have hk := pole_unit Om i
  have he0 : o.eVec ≠ 0 := fun h => by
    unfold eccentricity at hecc; rw [h, Vec3.length_zero] at hecc; linarith
  have hpole : poleDir o.ascendingNode o.inclination = poleDir Om i := by rw [hinc, hnode]
  have tw : Turned (poleDir Om i) w (nodeDir Om) o.eVec := by rw [hev]; exact turned_planeDir (by linarith)
  have tr : Turned (poleDir Om i) (v + w) (nodeDir Om) r := by rw [hr]; exact turned_planeDir lr.le
  have tw' := turned_periapsis hh (by rw [hecc]; exact he.le)
  have tv' := turned_position hmu hh (by rw [hecc]; exact he)
  rw [hpole] at tw' tv'
  rw [hnode] at tw'
  have tv : Turned (poleDir Om i) v o.eVec r := by
    have := turned_symm_sub hk (pole_dot_node _ _) he0 (node_ne _) tw tr
    rwa [show v + w - w = v by ring] at this
  refine ⟨hlat, hecc, hinc, hnode, ?_, ?_⟩
  · obtain ⟨c1, s1⟩ := turned_unique (node_ne _) he0 hk (pole_dot_node _ _) tw' tw
    exact angle_eq_of_sin_cos (by rw [abs_lt]; constructor <;> linarith) c1 s1
  · have hke := pole_dot_zero hh o.h_dot_e
    rw [hpole] at hke
    obtain ⟨c1, s1⟩ := turned_unique he0 hr0 hk hke tv' tv
    refine angle_eq_of_sin_cos ?_ c1 s1
    rw [hecc] at hv1 hv2
    split at hv
    · rename_i hlt
      have := hv1 hlt
      rw [abs_lt]; constructor <;> linarith
    · rename_i hlt
      have := hv2 (not_lt.1 hlt)
      rw [abs_lt]; constructor <;> linarith

/-- Non-vacuity of `C62_round_trip'`. -/
example : ∃ r vel, eleToVec 1 0.5 1 2 3 0 1 = .state r vel ∧ (0 : ℝ) < 1 + 0.5 * cos 0 ∧
    (if (0.5 : ℝ) < 1 - 1e-15 then (0 : ℝ) ≤ 0 ∧ 0 < 2 * π else -π ≤ 0 ∧ 0 < π) := by
  have := pi_gt_three
  obtain ⟨r, vel, h⟩ := (C44_accepted 1 0.5 1 2 3 0 1).2 ⟨by norm_num, by linarith, Or.inl (by norm_num)⟩
  refine ⟨r, vel, h, by rw [cos_zero]; norm_num, ?_⟩
  rw [if_pos (by norm_num)]
  exact ⟨le_rfl, by linarith⟩

end Osculating

/-- **C62.** The GM of an orbit.  A GM given by the user is used as it is, and refused exactly if it is not positive.  Otherwise it is the
table's value for the body or barycenter orbited, plus, unless that is one of the barycenters 0 to 9 (whose values hold the mass of
the whole system), the value for the orbiting body, if it has one; a `ValueError` is raised exactly when that gives nothing positive,
or when the center is not an integer. -/
theorem C62_gm (table : ℤ → Option ℝ) (hpos : ∀ k m, table k = some m → 0 < m) :
    (∀ g center target, 0 < g → chooseGm table (some g) center target = some g) ∧
    (∀ g center target, g ≤ 0 → chooseGm table (some g) center target = none) ∧
    (∀ target, chooseGm table none none target = none) ∧
    (∀ c target, 0 ≤ c → c ≤ 9 → chooseGm table none (some c) target = table c) ∧
    (∀ c, c < 0 ∨ 9 < c →
      (∀ target, (∀ k, target = some k → table k = none) → chooseGm table none (some c) target = table c) ∧
      (∀ k m, table k = some m → chooseGm table none (some c) (some k) = some ((table c).getD 0 + m))) := by
  have hz : ∀ o : Option ℝ, (∀ m, o = some m → 0 < m) →
      ((if o.getD 0 = 0 then none else some (o.getD 0)).bind fun gm => if gm ≤ 0 then none else some gm) = o := by
    rintro (_ | m) h
    · simp
    · have := h m rfl
      simp [this.ne', not_le.2 this]
  refine ⟨fun g _ _ h => ?_, fun g _ _ h => ?_, fun _ => rfl, fun c t h1 h2 => ?_, fun c hc => ⟨fun t ht => ?_, fun k m hk => ?_⟩⟩
  · simp [chooseGm, not_le.2 h]
  · simp [chooseGm, h]
  · simp only [chooseGm, if_pos (And.intro h1 h2)]
    exact hz _ (hpos c)
  · have hn : ¬ (0 ≤ c ∧ c ≤ 9) := by omega
    have : t.bind table = none := by
      rcases t with _ | k
      · rfl
      · exact ht k rfl
    simp only [chooseGm, if_neg hn, this, Option.getD_none, add_zero]
    exact hz _ (hpos c)
  · have hn : ¬ (0 ≤ c ∧ c ≤ 9) := by omega
    have hm := hpos k m hk
    have h0 : 0 ≤ (table c).getD 0 := by
      rcases h : table c with _ | x
      · simp
      · simpa using (hpos c x h).le
    simp only [chooseGm, if_neg hn, Option.bind_some, hk, Option.getD_some]
    rw [if_neg (by linarith : ¬ ((table c).getD 0 + m = 0))]
    simp only [Option.bind_some]
    rw [if_neg (by linarith)]

/-- The Moon around the Earth, and an unlisted body around the Sun (10, which is not one of the barycenters) and around nothing known. -/
example : let table : ℤ → Option ℝ := fun k => if k = 399 then some 398600 else if k = 301 then some 4902 else if k = 10 then some 5 else none
    (∀ k m, table k = some m → 0 < m) ∧ chooseGm table none (some 399) (some 301) = some (398600 + 4902) ∧
      chooseGm table none (some 10) (some 301) = some (5 + 4902) ∧ chooseGm table none (some 77) (some 78) = none := by
  intro table
  have hp : ∀ k m, table k = some m → 0 < m := by
    intro k m h
    simp only [table] at h
    split_ifs at h <;> cases h <;> norm_num
  refine ⟨hp, ?_, ?_, ?_⟩
  · exact ((C62_gm table hp).2.2.2.2 399 (Or.inr (by norm_num))).2 301 4902 (by simp [table])
  · exact ((C62_gm table hp).2.2.2.2 10 (Or.inr (by norm_num))).2 301 4902 (by simp [table])
  · rw [((C62_gm table hp).2.2.2.2 77 (Or.inr (by norm_num))).1 (some 78) (by rintro k ⟨⟩; simp [table])]
    simp [table]

end Skyfield
