import Verif.Spec.Eclipse
import Verif.Lemmas.Shadow
import Verif.Props.Almanac
import Verif.Props.Relativity
import Verif.Props.SkyCoordinates

/-
C48: the shadow of the Earth, and the eclipses reported.
-/
namespace Skyfield
open Real Spec InnerProductGeometry RealInnerProductSpace

/-! ### Vectors as points of Euclidean space -/

noncomputable def Vec3.ofEuclidean (v : EuclideanSpace ℝ (Fin 3)) : Vec3 := ⟨v 0, v 1, v 2⟩

theorem Vec3.toEuclidean_ofEuclidean (v : EuclideanSpace ℝ (Fin 3)) : (Vec3.ofEuclidean v).toEuclidean = v := by
  ext i
  fin_cases i <;> simp [Vec3.ofEuclidean, Vec3.toEuclidean]

theorem Vec3.toEuclidean_add (u v : Vec3) : (u + v).toEuclidean = u.toEuclidean + v.toEuclidean := by
  ext i
  fin_cases i <;> simp [Vec3.toEuclidean]

theorem Vec3.toEuclidean_sub (u v : Vec3) : (u - v).toEuclidean = u.toEuclidean - v.toEuclidean := by
  ext i
  fin_cases i <;> simp [Vec3.toEuclidean]

theorem Vec3.toEuclidean_neg (u : Vec3) : (-u).toEuclidean = -u.toEuclidean := by
  ext i
  fin_cases i <;> simp [Vec3.toEuclidean]

theorem Vec3.toEuclidean_smul (k : ℝ) (u : Vec3) : (k • u).toEuclidean = k • u.toEuclidean := by
  ext i
  fin_cases i <;> simp [Vec3.toEuclidean]

theorem hides_iff (a : ℝ) (p q : Vec3) : Hides a p q ↔ Shadow.Blocks a p.toEuclidean q.toEuclidean := by
  simp only [Hides, Shadow.Blocks, ← Vec3.norm_toEuclidean, Vec3.toEuclidean_add, Vec3.toEuclidean_smul, Vec3.toEuclidean_sub]

theorem inUmbra_iff (a r : ℝ) (s p : Vec3) : InUmbra a r s p ↔ Shadow.Umbra a r s.toEuclidean p.toEuclidean := by
  constructor
  · intro h q hq
    have := h (Vec3.ofEuclidean q) (by rw [← Vec3.norm_toEuclidean, Vec3.toEuclidean_sub, Vec3.toEuclidean_ofEuclidean]; exact hq)
    rwa [hides_iff, Vec3.toEuclidean_ofEuclidean] at this
  · intro h q hq
    rw [hides_iff]
    exact h q.toEuclidean (by rwa [← Vec3.norm_toEuclidean, Vec3.toEuclidean_sub] at hq)

theorem inPenumbra_iff (a r : ℝ) (s p : Vec3) : InPenumbra a r s p ↔ Shadow.Penumbra a r s.toEuclidean p.toEuclidean := by
  constructor
  · rintro ⟨q, hq, h⟩
    exact ⟨q.toEuclidean, by rwa [← Vec3.norm_toEuclidean, Vec3.toEuclidean_sub] at hq, by rwa [hides_iff] at h⟩
  · rintro ⟨q, hq, h⟩
    refine ⟨Vec3.ofEuclidean q, ?_, ?_⟩
    · rw [← Vec3.norm_toEuclidean, Vec3.toEuclidean_sub, Vec3.toEuclidean_ofEuclidean]; exact hq
    · rw [hides_iff, Vec3.toEuclidean_ofEuclidean]; exact h

/-- Every vector of space has another at right angles to it. -/
theorem exists_perpendicular (p : EuclideanSpace ℝ (Fin 3)) : ∃ w : EuclideanSpace ℝ (Fin 3), ‖w‖ = 1 ∧ ⟪w, p⟫ = 0 := by
  have key : ∀ w : EuclideanSpace ℝ (Fin 3), w ≠ 0 → ⟪w, p⟫ = 0 → ∃ w : EuclideanSpace ℝ (Fin 3), ‖w‖ = 1 ∧ ⟪w, p⟫ = 0 := by
    intro w hw h
    refine ⟨(‖w‖)⁻¹ • w, ?_, ?_⟩
    · rw [norm_smul, norm_inv, norm_norm, inv_mul_cancel₀ (norm_ne_zero_iff.2 hw)]
    · rw [real_inner_smul_left, h, mul_zero]
  by_cases h : p 0 = 0 ∧ p 1 = 0
  · refine key !₂[1, 0, 0] (fun hc => ?_) ?_
    · have := congrArg (fun v : EuclideanSpace ℝ (Fin 3) => v 0) hc
      simp at this
    · simp [PiLp.inner_apply, Fin.sum_univ_three, h.1]
  · refine key !₂[-p 1, p 0, 0] (fun hc => h ?_) ?_
    · have h0 := congrArg (fun v : EuclideanSpace ℝ (Fin 3) => v 0) hc
      have h1 := congrArg (fun v : EuclideanSpace ℝ (Fin 3) => v 1) hc
      simp at h0 h1
      exact ⟨h1, h0⟩
    · simp [PiLp.inner_apply, Fin.sum_univ_three]
      ring

theorem angleBetween_neg (s p : Vec3) (hs : s ≠ 0) (hp : p ≠ 0) :
    angleBetween s (-p) = angle (-s.toEuclidean) p.toEuclidean := by
  have hp' : -p ≠ 0 := by
    intro h
    apply hp
    have hx := congrArg Vec3.x h
    have hy := congrArg Vec3.y h
    have hz := congrArg Vec3.z h
    simp at hx hy hz
    exact Vec3.ext hx hy hz
  rw [C79_euclidean s (-p) hs hp', Vec3.toEuclidean_neg, angle_neg_right, angle_neg_left]

theorem ne_zero_of_length {p : Vec3} (h : 0 < p.length) : p ≠ 0 := by
  rintro rfl
  rw [Vec3.length_zero] at h
  exact lt_irrefl _ h

/-- **C48.** The umbra of a ball of radius `a` in the light of a ball of radius `r`: a point is in it exactly if its angle from the point opposite
the Sun is at most the parallax `arcsin (a / distance)` less `arcsin ((r - a) / distance of the Sun)`.  (For small angles the
latter is the Sun's radius less its parallax, as `lunar_eclipses` has it.) -/
theorem C48_umbra (a r : ℝ) (sun p : Vec3) (ha : 0 < a) (har : a ≤ r) (hs : r + a < sun.length) (hp : a < p.length) :
    InUmbra a r sun p ↔ angleBetween sun (-p) ≤ arcsin (a / p.length) - arcsin ((r - a) / sun.length) := by
  rw [inUmbra_iff, angleBetween_neg sun p (ne_zero_of_length (by linarith)) (ne_zero_of_length (by linarith)),
    ← Vec3.norm_toEuclidean, ← Vec3.norm_toEuclidean]
  rw [← Vec3.norm_toEuclidean] at hs hp
  exact Shadow.umbra_iff exists_perpendicular ha har hs hp

/-- **C48.** The penumbra, likewise. -/
theorem C48_penumbra (a r : ℝ) (sun p : Vec3) (ha : 0 < a) (hr : 0 < r) (hs : r + a < sun.length) (hp : a < p.length) :
    InPenumbra a r sun p ↔ angleBetween sun (-p) ≤ arcsin (a / p.length) + arcsin ((r + a) / sun.length) := by
  rw [inPenumbra_iff, angleBetween_neg sun p (ne_zero_of_length (by linarith)) (ne_zero_of_length (by linarith)),
    ← Vec3.norm_toEuclidean, ← Vec3.norm_toEuclidean]
  rw [← Vec3.norm_toEuclidean] at hs hp
  exact Shadow.penumbra_iff exists_perpendicular ha hr hs hp

/-! ### The eclipses reported -/

/-- The three comparisons of the code. -/
theorem lunarEclipse_iff (sun moon : Vec3) (hs : sun ≠ 0) (hm : 1737.1 ≤ (-moon).length) :
    ((lunarEclipse sun (-moon)).isSome ↔ angleBetween sun (-moon) < 1.01 * (6378.1366 / (-moon).length) + 6378.1366 / sun.length +
      696340 / sun.length + arcsin (1737.1 / (-moon).length)) ∧
    ((∃ e, lunarEclipse sun (-moon) = some e ∧ 1 ≤ e.code) ↔ angleBetween sun (-moon) < 1.01 * (6378.1366 / (-moon).length) +
      6378.1366 / sun.length - 696340 / sun.length + arcsin (1737.1 / (-moon).length)) ∧
    ((∃ e, lunarEclipse sun (-moon) = some e ∧ e.code = 2) ↔ angleBetween sun (-moon) < 1.01 * (6378.1366 / (-moon).length) +
      6378.1366 / sun.length - 696340 / sun.length - arcsin (1737.1 / (-moon).length)) := by
  have h1 := C48_reported sun (-moon) hs hm
  have hs' : 0 < sun.length := Vec3.length_pos hs
  have hss : 0 < 696340 / sun.length := by positivity
  have hρ : 0 < arcsin (1737.1 / (-moon).length) := arcsin_pos.2 (div_pos (by norm_num) (lt_of_lt_of_le (by norm_num) hm))
  refine ⟨h1, ?_, ?_⟩
  · constructor
    · rintro ⟨e, he, hc⟩
      unfold lunarEclipse earthRadiusKm at he
      simp only at he
      rw [if_neg (by push Not; exact ⟨hs'.ne', hm⟩)] at he
      split_ifs at he with h2 h3 h4 <;> cases he
      · exact h3
      · exact h3
      · linarith
      · simp at hc
    · intro h
      unfold lunarEclipse earthRadiusKm
      simp only
      rw [if_neg (by push Not; exact ⟨hs'.ne', hm⟩), if_pos (by linarith), if_pos h]
      exact ⟨_, rfl, by simp⟩
  · constructor
    · rintro ⟨e, he, hc⟩
      unfold lunarEclipse earthRadiusKm at he
      simp only at he
      rw [if_neg (by push Not; exact ⟨hs'.ne', hm⟩)] at he
      split_ifs at he with h2 h3 h4 <;> cases he
      · exact h4
      · simp at hc
      · assumption
      · simp at hc
    · intro h
      unfold lunarEclipse earthRadiusKm
      simp only
      rw [if_neg (by push Not; exact ⟨hs'.ne', hm⟩), if_pos (by linarith), if_pos (by linarith), if_pos h]
      exact ⟨_, rfl, by simp⟩

/-- The Sun and the Moon at distances they really have, in kilometers. -/
structure UsualDistances (sun moon : Vec3) : Prop where
  sun_ge : 1.4e8 ≤ sun.length
  sun_le : sun.length ≤ 1.6e8
  moon_ge : 350000 ≤ moon.length
  moon_le : moon.length ≤ 410000

theorem length_neg' (p : Vec3) : (-p).length = p.length := by
  rw [← Vec3.norm_toEuclidean, Vec3.toEuclidean_neg, norm_neg, Vec3.norm_toEuclidean]

/-- A point of the Moon: its distance, and its angle from the axis. -/
theorem moon_point {sun moon x : Vec3} (h : UsualDistances sun moon) (hx : (x - moon).length ≤ 1737.1) :
    moon.length - 1737.1 ≤ x.length ∧ x.length ≤ moon.length + 1737.1 ∧
      angleBetween sun (-moon) ≤ angleBetween sun (-x) + arcsin (1737.1 / moon.length) ∧
      angleBetween sun (-x) ≤ angleBetween sun (-moon) + arcsin (1737.1 / moon.length) := by
  have hs := h.sun_ge
  have hm := h.moon_ge
  have n1 := Vec3.norm_toEuclidean moon
  have n2 := Vec3.norm_toEuclidean x
  have n3 : ‖x.toEuclidean - moon.toEuclidean‖ ≤ 1737.1 := by
    rwa [← Vec3.toEuclidean_sub, Vec3.norm_toEuclidean]
  have l1 : moon.length - 1737.1 ≤ x.length := by
    have := norm_sub_norm_le moon.toEuclidean x.toEuclidean
    rw [norm_sub_rev, n1, n2] at this
    linarith
  have l2 : x.length ≤ moon.length + 1737.1 := by
    have := norm_sub_norm_le x.toEuclidean moon.toEuclidean
    rw [n1, n2] at this
    linarith
  have ha := Shadow.angle_of_ball (c := moon.toEuclidean) (x := x.toEuclidean) (r := 1737.1) (by norm_num)
    (by rw [n1]; norm_num at hm ⊢; linarith) n3
  rw [n1] at ha
  have hs0 : sun ≠ 0 := ne_zero_of_length (lt_of_lt_of_le (by norm_num) hs)
  have hm0 : moon ≠ 0 := ne_zero_of_length (lt_of_lt_of_le (by norm_num) hm)
  have hx0 : x ≠ 0 := ne_zero_of_length (by norm_num at hm l1 ⊢; linarith)
  rw [angleBetween_neg sun moon hs0 hm0, angleBetween_neg sun x hs0 hx0]
  refine ⟨l1, l2, ?_, ?_⟩
  · have := angle_le_angle_add_angle (-sun.toEuclidean) x.toEuclidean moon.toEuclidean
    linarith
  · have := angle_le_angle_add_angle (-sun.toEuclidean) moon.toEuclidean x.toEuclidean
    rw [angle_comm moon.toEuclidean] at this
    linarith

/-- The parallax of a point of the Moon, and of the enlarged Earth. -/
theorem parallax_bounds {k d l : ℝ} (hd : 350000 ≤ d) (hk : 1 ≤ k) (hk2 : k ≤ 1.02) (h1 : d - 1737.1 ≤ l) :
    k * 6378.1366 / l ≤ k * 1.005 * (6378.1366 / d) ∧ k * 6378.1366 / l ≤ 0.02 ∧ k * 6378.1366 < l := by
  have hl : 0 < l := by norm_num at h1; linarith
  have hd' : 0 < d := by linarith
  refine ⟨?_, ?_, ?_⟩
  · rw [show k * 1.005 * (6378.1366 / d) = (k * 1.005 * 6378.1366) / d by ring, div_le_div_iff₀ hl hd']
    have : d ≤ 1.005 * l := by norm_num at h1 ⊢; linarith
    have hk0 : 0 ≤ k * 6378.1366 := by positivity
    nlinarith
  · rw [div_le_iff₀ hl]
    norm_num at *
    linarith
  · norm_num at *
    linarith

/-- The shadow used by the code holds the true shadow of the solid Earth at any point of the Moon. -/
theorem shadow_le {d l D : ℝ} (hd : 350000 ≤ d) (hd2 : d ≤ 410000) (hD : 1.4e8 ≤ D) (h1 : d - 1737.1 ≤ l) :
    arcsin (6378.1366 / l) + arcsin ((696340 + 6378.1366) / D) < 1.01 * (6378.1366 / d) + 6378.1366 / D + 696340 / D ∧
    arcsin (6378.1366 / l) - arcsin ((696340 - 6378.1366) / D) < 1.01 * (6378.1366 / d) + 6378.1366 / D - 696340 / D := by
  have hl : 0 < l := by norm_num at h1; linarith
  have hd' : 0 < d := by linarith
  have hD' : 0 < D := by norm_num at hD; linarith
  obtain ⟨p1, p2, -⟩ := parallax_bounds (k := 1) hd le_rfl (by norm_num) h1
  rw [one_mul, one_mul] at p1
  rw [one_mul] at p2
  have hx0 : 0 ≤ 6378.1366 / l := by positivity
  have hx : 0.0155 ≤ 6378.1366 / d := by rw [le_div_iff₀ hd']; norm_num at *; linarith
  have a1 := Shadow.arcsin_le_cube hx0 (by norm_num at p2 ⊢; linarith)
  have hq : (6378.1366 / l) ^ 3 ≤ 0.0004 * (6378.1366 / l) := by
    have : (6378.1366 / l) ^ 2 ≤ 0.02 ^ 2 := pow_le_pow_left₀ hx0 p2 2
    norm_num at this ⊢
    nlinarith
  have hy0 : 0 ≤ (696340 + 6378.1366) / D := by positivity
  have hy1 : (696340 + 6378.1366) / D ≤ 0.0051 := by rw [div_le_iff₀ hD']; norm_num at *; linarith
  have hz0 : 0 ≤ (696340 - 6378.1366) / D := div_nonneg (by norm_num) hD'.le
  have hz1 : (696340 - 6378.1366) / D ≤ 0.0051 := by rw [div_le_iff₀ hD']; norm_num at *; linarith
  have b1 := Shadow.arcsin_le_cube hy0 (by norm_num at hy1 ⊢; linarith)
  have b2 : ((696340 + 6378.1366) / D) ^ 3 ≤ 0.0051 ^ 3 := pow_le_pow_left₀ hy0 hy1 3
  have b3 := Shadow.arcsin_ge hz0 (by norm_num at hz1 ⊢; linarith)
  have e1 : (696340 + 6378.1366) / D = 696340 / D + 6378.1366 / D := by ring
  have e2 : (696340 - 6378.1366) / D = 696340 / D - 6378.1366 / D := by ring
  rw [e1] at b1 b2 ⊢
  rw [e2] at b3 ⊢
  generalize 6378.1366 / l = x at *
  generalize 6378.1366 / d = y at *
  generalize arcsin x = ax at *
  generalize arcsin (696340 / D + 6378.1366 / D) = ay at *
  generalize arcsin (696340 / D - 6378.1366 / D) = az at *
  generalize (696340 / D + 6378.1366 / D) ^ 3 = c at *
  generalize (696340 : ℝ) / D = u at *
  generalize (6378.1366 : ℝ) / D = v at *
  generalize x ^ 3 = x3 at *
  norm_num at *
  constructor <;> linarith

/-- **C48.** No eclipse is missed.  With the Sun and Moon at their usual distances: if any point of the Moon is in the geometric penumbra of the
solid Earth, an eclipse is reported; if any point is in the umbra, at least a partial one; if the whole Moon is, a total one. -/
theorem C48_none_missed (sun moon : Vec3) (h : UsualDistances sun moon) :
    ((∃ x, (x - moon).length ≤ 1737.1 ∧ InPenumbra 6378.1366 696340 sun x) → (lunarEclipse sun (-moon)).isSome) ∧
    ((∃ x, (x - moon).length ≤ 1737.1 ∧ InUmbra 6378.1366 696340 sun x) → ∃ e, lunarEclipse sun (-moon) = some e ∧ 1 ≤ e.code) ∧
    ((∀ x, (x - moon).length ≤ 1737.1 → InUmbra 6378.1366 696340 sun x) → ∃ e, lunarEclipse sun (-moon) = some e ∧ e.code = 2) := by
  have hs := h.sun_ge
  have hm := h.moon_ge
  have hm2 := h.moon_le
  have hs0 : sun ≠ 0 := ne_zero_of_length (lt_of_lt_of_le (by norm_num) hs)
  have hm0 : moon ≠ 0 := ne_zero_of_length (lt_of_lt_of_le (by norm_num) hm)
  have hsum : 696340 + 6378.1366 < sun.length := lt_of_lt_of_le (by norm_num) hs
  obtain ⟨c1, c2, c3⟩ := lunarEclipse_iff sun moon hs0 (by rw [length_neg']; norm_num at hm ⊢; linarith)
  rw [length_neg'] at c1 c2 c3
  rw [c1, c2, c3]
  refine ⟨?_, ?_, ?_⟩
  · rintro ⟨x, hx, hp⟩
    obtain ⟨l1, -, l3, -⟩ := moon_point h hx
    obtain ⟨-, -, p3⟩ := parallax_bounds (k := 1) hm le_rfl (by norm_num) l1
    rw [one_mul] at p3
    rw [C48_penumbra _ _ _ _ (by norm_num) (by norm_num) hsum p3] at hp
    have := (shadow_le hm hm2 hs l1).1
    linarith
  · rintro ⟨x, hx, hp⟩
    obtain ⟨l1, -, l3, -⟩ := moon_point h hx
    obtain ⟨-, -, p3⟩ := parallax_bounds (k := 1) hm le_rfl (by norm_num) l1
    rw [one_mul] at p3
    rw [C48_umbra _ _ _ _ (by norm_num) (by norm_num) hsum p3] at hp
    have := (shadow_le hm hm2 hs l1).2
    linarith
  · intro hall
    have hd : 0 < moon.length := by linarith
    have hρ0 : 0 ≤ 1737.1 / moon.length := by positivity
    have hρ1 : 1737.1 / moon.length ≤ 1 := by rw [div_le_one hd]; norm_num at hm ⊢; linarith
    have hs1 := sin_arcsin (by linarith : -1 ≤ 1737.1 / moon.length) hρ1
    have q0 := arcsin_nonneg.2 hρ0
    have q1 := arcsin_le_pi_div_two (1737.1 / moon.length)
    obtain ⟨ρ, hρ⟩ : ∃ ρ, ρ = arcsin (1737.1 / moon.length) := ⟨_, rfl⟩
    rw [← hρ] at hs1 q0 q1 ⊢
    have hs0' : sun.toEuclidean ≠ 0 := by
      intro hc; have := Vec3.norm_toEuclidean sun; rw [hc, norm_zero] at this; exact (Vec3.length_pos hs0).ne this
    have hm0' : moon.toEuclidean ≠ 0 := by
      intro hc; have := Vec3.norm_toEuclidean moon; rw [hc, norm_zero] at this; exact (Vec3.length_pos hm0).ne this
    obtain ⟨δ, hδ⟩ : ∃ δ, δ = min ρ (π - angle (-sun.toEuclidean) moon.toEuclidean) := ⟨_, rfl⟩
    have hpi := angle_le_pi (-sun.toEuclidean) moon.toEuclidean
    have d0 : 0 ≤ δ := by rw [hδ]; exact le_min q0 (by linarith)
    have d1 : δ ≤ ρ := by rw [hδ]; exact min_le_left _ _
    have d2 : δ ≤ π - angle (-sun.toEuclidean) moon.toEuclidean := by rw [hδ]; exact min_le_right _ _
    obtain ⟨m, m1, m2, m3, m4⟩ := Shadow.exists_beyond exists_perpendicular (-sun.toEuclidean) moon.toEuclidean (neg_ne_zero.2 hs0') hm0' δ d0
      (by linarith)
    have hsin : sin δ ≤ 1737.1 / moon.length := by
      rw [← hs1]
      exact sin_le_sin_of_le_of_le_pi_div_two (by linarith [pi_pos]) q1 d1
    have hsin0 : 0 ≤ sin δ := sin_nonneg_of_nonneg_of_le_pi d0 (by linarith [pi_pos])
    have hcos0 : 0 ≤ cos δ := cos_nonneg_of_mem_Icc ⟨by linarith [pi_pos], by linarith⟩
    have hf := Shadow.foot m1 m4 hsin0
    rw [Vec3.norm_toEuclidean] at hf
    obtain ⟨x, hx⟩ : ∃ x : Vec3, x.toEuclidean = (moon.length * cos δ) • m := ⟨Vec3.ofEuclidean _, Vec3.toEuclidean_ofEuclidean _⟩
    have hxm : (x - moon).length ≤ 1737.1 := by
      rw [← Vec3.norm_toEuclidean, Vec3.toEuclidean_sub, hx, hf]
      rw [le_div_iff₀ hd] at hsin
      linarith
    obtain ⟨l1, -, -, -⟩ := moon_point h hxm
    obtain ⟨-, -, p3⟩ := parallax_bounds (k := 1) hm le_rfl (by norm_num) l1
    rw [one_mul] at p3
    have hu := hall x hxm
    have hx0 : x ≠ 0 := ne_zero_of_length (by norm_num at p3 ⊢; linarith)
    rw [C48_umbra _ _ _ _ (by norm_num) (by norm_num) hsum p3, angleBetween_neg sun x hs0 hx0, hx] at hu
    have hcpos : 0 < moon.length * cos δ := by
      have : x.length = moon.length * cos δ := by
        rw [← Vec3.norm_toEuclidean, hx, norm_smul, m1, mul_one, Real.norm_eq_abs, abs_of_nonneg (by positivity)]
      rw [← this]; linarith [show (0 : ℝ) < 6378.1366 by norm_num]
    rw [angle_smul_right_of_pos _ _ hcpos, angle_comm, m3] at hu
    have hshadow := (shadow_le hm hm2 hs l1).2
    have hdr : δ = ρ := by
      rw [hδ, min_def]
      split_ifs with hmin
      · rfl
      · exfalso
        have : δ = π - angle (-sun.toEuclidean) moon.toEuclidean := by rw [hδ, min_def, if_neg hmin]
        have h3 := arcsin_le_pi_div_two (6378.1366 / x.length)
        have h4 : 0 ≤ arcsin ((696340 - 6378.1366) / sun.length) := arcsin_nonneg.2 (div_nonneg (by norm_num) (by linarith))
        linarith [pi_pos]
    rw [hdr] at hu
    rw [angleBetween_neg sun moon hs0 hm0]
    linarith

/-- The shadow used by the code is inside the true shadow of an Earth enlarged by `k`. -/
theorem le_shadow {k d l D : ℝ} (hd : 350000 ≤ d) (hd2 : d ≤ 410000) (hD : 1.4e8 ≤ D) (hD2 : D ≤ 1.6e8) (hk : 1.01 ≤ k) (hk2 : k ≤ 1.02)
    (hl : d - 1737.1 ≤ l) (h1 : 1.01 * l ≤ k * d) :
    1.01 * (6378.1366 / d) + 6378.1366 / D + 696340 / D ≤ arcsin (k * 6378.1366 / l) + arcsin ((696340 + k * 6378.1366) / D) ∧
    1.01 * (6378.1366 / d) + 6378.1366 / D - 696340 / D ≤ arcsin (k * 6378.1366 / l) - arcsin ((696340 - k * 6378.1366) / D) ∧
    0 ≤ arcsin (k * 6378.1366 / l) - arcsin ((696340 - k * 6378.1366) / D) := by
  have hl' : 0 < l := by norm_num at hl; linarith
  have hd' : 0 < d := by linarith
  have hD' : 0 < D := by norm_num at hD; linarith
  have hk0 : 0 < k := by norm_num at hk; linarith
  obtain ⟨-, p2, -⟩ := parallax_bounds (k := k) hd (by norm_num at hk; linarith) hk2 hl
  have hx0 : 0 ≤ k * 6378.1366 / l := by positivity
  have hx : 0.0155 ≤ 6378.1366 / d := by rw [le_div_iff₀ hd']; norm_num at *; linarith
  have a0 : 1.01 * (6378.1366 / d) ≤ k * 6378.1366 / l := by
    rw [show 1.01 * (6378.1366 / d) = (1.01 * 6378.1366) / d by ring, div_le_div_iff₀ hd' hl']
    nlinarith
  have a1 := Shadow.arcsin_ge hx0 (by norm_num at p2 ⊢; linarith)
  have hy0 : 0 ≤ (696340 + k * 6378.1366) / D := by positivity
  have hy1 : (696340 + k * 6378.1366) / D ≤ 0.0051 := by rw [div_le_iff₀ hD']; norm_num at *; linarith
  have hz0 : 0 ≤ (696340 - k * 6378.1366) / D := div_nonneg (by norm_num at hk2 ⊢; linarith) hD'.le
  have hz1 : (696340 - k * 6378.1366) / D ≤ 0.005 := by rw [div_le_iff₀ hD']; norm_num at *; linarith
  have b1 := Shadow.arcsin_ge hy0 (by norm_num at hy1 ⊢; linarith)
  have b2 := Shadow.arcsin_le_cube hz0 (by norm_num at hz1 ⊢; linarith)
  have b3 : ((696340 - k * 6378.1366) / D) ^ 3 ≤ 0.005 ^ 3 := pow_le_pow_left₀ hz0 hz1 3
  have e1 : (696340 + k * 6378.1366) / D = 696340 / D + k * (6378.1366 / D) := by ring
  have e2 : (696340 - k * 6378.1366) / D = 696340 / D - k * (6378.1366 / D) := by ring
  have hv : 0.0000398 ≤ 6378.1366 / D := by rw [le_div_iff₀ hD']; norm_num at *; linarith
  have hkv : 1.01 * (6378.1366 / D) ≤ k * (6378.1366 / D) := by
    refine mul_le_mul_of_nonneg_right hk ?_
    positivity
  rw [e1] at b1 ⊢
  rw [e2] at b2 b3 hz1 ⊢
  generalize k * 6378.1366 / l = x at *
  generalize 6378.1366 / d = y at *
  generalize arcsin x = ax at *
  generalize arcsin (696340 / D + k * (6378.1366 / D)) = ay at *
  generalize arcsin (696340 / D - k * (6378.1366 / D)) = az at *
  generalize (696340 / D - k * (6378.1366 / D)) ^ 3 = c at *
  generalize k * (6378.1366 / D) = w at *
  generalize (696340 : ℝ) / D = u at *
  generalize (6378.1366 : ℝ) / D = v at *
  norm_num at *
  refine ⟨?_, ?_, ?_⟩ <;> linarith

/-- The point of the Moon nearest to the axis of the shadow. -/
theorem nearest_point {sun moon : Vec3} (h : UsualDistances sun moon) : ∃ x : Vec3, (x - moon).length ≤ 1737.1 ∧ x.length ≤ moon.length ∧
    angleBetween sun (-x) = max 0 (angleBetween sun (-moon) - arcsin (1737.1 / moon.length)) := by
  have hs := h.sun_ge
  have hm := h.moon_ge
  have hs0 : sun ≠ 0 := ne_zero_of_length (lt_of_lt_of_le (by norm_num) hs)
  have hm0 : moon ≠ 0 := ne_zero_of_length (lt_of_lt_of_le (by norm_num) hm)
  have hd : 0 < moon.length := by linarith
  have hρ0 : 0 ≤ 1737.1 / moon.length := by positivity
  have hρ1 : 1737.1 / moon.length ≤ 1 := by rw [div_le_one hd]; norm_num at hm ⊢; linarith
  have hs1 := sin_arcsin (by linarith : -1 ≤ 1737.1 / moon.length) hρ1
  have q0 := arcsin_nonneg.2 hρ0
  have q1 := arcsin_le_pi_div_two (1737.1 / moon.length)
  obtain ⟨ρ, hρ⟩ : ∃ ρ, ρ = arcsin (1737.1 / moon.length) := ⟨_, rfl⟩
  rw [← hρ] at hs1 q0 q1 ⊢
  have hs0' : sun.toEuclidean ≠ 0 := by
    intro hc; have := Vec3.norm_toEuclidean sun; rw [hc, norm_zero] at this; exact (Vec3.length_pos hs0).ne this
  have hm0' : moon.toEuclidean ≠ 0 := by
    intro hc; have := Vec3.norm_toEuclidean moon; rw [hc, norm_zero] at this; exact (Vec3.length_pos hm0).ne this
  obtain ⟨δ, hδ⟩ : ∃ δ, δ = min ρ (angle (-sun.toEuclidean) moon.toEuclidean) := ⟨_, rfl⟩
  have d0 : 0 ≤ δ := by rw [hδ]; exact le_min q0 (angle_nonneg _ _)
  have d1 : δ ≤ ρ := by rw [hδ]; exact min_le_left _ _
  have d2 : δ ≤ angle (-sun.toEuclidean) moon.toEuclidean := by rw [hδ]; exact min_le_right _ _
  obtain ⟨m, m1, m3, m4⟩ := Shadow.exists_towards exists_perpendicular (-sun.toEuclidean) moon.toEuclidean (neg_ne_zero.2 hs0') hm0' δ d0 d2
  have hsin : sin δ ≤ 1737.1 / moon.length := by
    rw [← hs1]
    exact sin_le_sin_of_le_of_le_pi_div_two (by linarith [pi_pos]) q1 d1
  have hsin0 : 0 ≤ sin δ := sin_nonneg_of_nonneg_of_le_pi d0 (by linarith [pi_pos])
  have hcos0 : 0 ≤ cos δ := cos_nonneg_of_mem_Icc ⟨by linarith [pi_pos], by linarith⟩
  have hf := Shadow.foot m1 m4 hsin0
  rw [Vec3.norm_toEuclidean] at hf
  obtain ⟨x, hx⟩ : ∃ x : Vec3, x.toEuclidean = (moon.length * cos δ) • m := ⟨Vec3.ofEuclidean _, Vec3.toEuclidean_ofEuclidean _⟩
  have hxm : (x - moon).length ≤ 1737.1 := by
    rw [← Vec3.norm_toEuclidean, Vec3.toEuclidean_sub, hx, hf]
    rw [le_div_iff₀ hd] at hsin
    linarith
  obtain ⟨l1, -, -, -⟩ := moon_point h hxm
  have hlen : x.length = moon.length * cos δ := by
    rw [← Vec3.norm_toEuclidean, hx, norm_smul, m1, mul_one, Real.norm_eq_abs, abs_of_nonneg (by positivity)]
  have hxpos : 0 < x.length := by norm_num at l1; linarith
  refine ⟨x, hxm, ?_, ?_⟩
  · rw [hlen]; nlinarith [cos_le_one δ]
  · rw [angleBetween_neg sun x hs0 (ne_zero_of_length hxpos), angleBetween_neg sun moon hs0 hm0, hx,
      angle_smul_right_of_pos _ _ (by rw [← hlen]; exact hxpos), angle_comm, m3, hδ, min_def]
    split_ifs with hc
    · rw [max_eq_right (by linarith)]
    · rw [max_eq_left (by linarith)]; ring

/-- **C48.** No eclipse is invented beyond the customary enlargement of the shadow.  With the Sun and Moon at their usual distances: if an
eclipse is reported, some point of the Moon is in the penumbra of an Earth 1% larger; if it is reported as partial or total, some
point is in the umbra of such an Earth; if it is reported as total, the whole Moon is in the umbra of an Earth 1.6% larger. -/
theorem C48_none_invented (sun moon : Vec3) (h : UsualDistances sun moon) (e : LunarEclipse) (he : lunarEclipse sun (-moon) = some e) :
    (∃ x, (x - moon).length ≤ 1737.1 ∧ InPenumbra (1.01 * 6378.1366) 696340 sun x) ∧
    (1 ≤ e.code → ∃ x, (x - moon).length ≤ 1737.1 ∧ InUmbra (1.01 * 6378.1366) 696340 sun x) ∧
    (e.code = 2 → ∀ x, (x - moon).length ≤ 1737.1 → InUmbra (1.016 * 6378.1366) 696340 sun x) := by
  have hs := h.sun_ge
  have hs2 := h.sun_le
  have hm := h.moon_ge
  have hm2 := h.moon_le
  have hs0 : sun ≠ 0 := ne_zero_of_length (lt_of_lt_of_le (by norm_num) hs)
  obtain ⟨c1, c2, c3⟩ := lunarEclipse_iff sun moon hs0 (by rw [length_neg']; norm_num at hm ⊢; linarith)
  rw [length_neg'] at c1 c2 c3
  obtain ⟨x, x1, x2, x3⟩ := nearest_point h
  obtain ⟨l1, -, -, -⟩ := moon_point h x1
  obtain ⟨-, -, p3⟩ := parallax_bounds (k := 1.01) hm (by norm_num) (by norm_num) l1
  obtain ⟨s1, s2, s3⟩ := le_shadow (k := 1.01) hm hm2 hs hs2 le_rfl (by norm_num) l1 (by norm_num; linarith)
  have hpos : 0 ≤ arcsin ((696340 - 1.01 * 6378.1366) / sun.length) := arcsin_nonneg.2 (div_nonneg (by norm_num) (by linarith))
  have hpos2 : 0 ≤ arcsin ((696340 + 1.01 * 6378.1366) / sun.length) := arcsin_nonneg.2 (div_nonneg (by norm_num) (by linarith))
  refine ⟨⟨x, x1, ?_⟩, fun hc => ⟨x, x1, ?_⟩, fun hc y hy => ?_⟩
  · rw [C48_penumbra _ _ _ _ (by norm_num) (by norm_num) (lt_of_lt_of_le (by norm_num) hs) p3, x3]
    have := c1.1 (by rw [he]; rfl)
    exact max_le (by linarith) (by linarith)
  · rw [C48_umbra _ _ _ _ (by norm_num) (by norm_num) (lt_of_lt_of_le (by norm_num) hs) p3, x3]
    have := c2.1 ⟨e, he, hc⟩
    exact max_le s3 (by linarith)
  · obtain ⟨k1, k2, -, k4⟩ := moon_point h hy
    obtain ⟨-, -, r3⟩ := parallax_bounds (k := 1.016) hm (by norm_num) (by norm_num) k1
    obtain ⟨-, t2, -⟩ := le_shadow (k := 1.016) hm hm2 hs hs2 (by norm_num) (by norm_num) k1 (by norm_num at k2 ⊢; linarith)
    rw [C48_umbra _ _ _ _ (by norm_num) (by norm_num) (lt_of_lt_of_le (by norm_num) hs) r3]
    have := c3.1 ⟨e, he, hc⟩
    linarith

/-- Non-vacuity: the Sun and the Moon on opposite sides of the Earth make a total eclipse. -/
example : UsualDistances ⟨1.5e8, 0, 0⟩ ⟨-384400, 0, 0⟩ ∧ ∃ e, lunarEclipse ⟨1.5e8, 0, 0⟩ (-⟨-384400, 0, 0⟩) = some e ∧ e.code = 2 := by
  have l1 : (⟨1.5e8, 0, 0⟩ : Vec3).length = 1.5e8 := by
    simp only [Vec3.length]
    rw [show (1.5e8 * 1.5e8 + 0 * 0 + 0 * 0 : ℝ) = 1.5e8 ^ 2 by norm_num, sqrt_sq (by norm_num)]
  have l2 : (⟨-384400, 0, 0⟩ : Vec3).length = 384400 := by
    simp only [Vec3.length]
    rw [show (-384400 * -384400 + 0 * 0 + 0 * 0 : ℝ) = 384400 ^ 2 by norm_num, sqrt_sq (by norm_num)]
  have hU : UsualDistances ⟨1.5e8, 0, 0⟩ ⟨-384400, 0, 0⟩ := ⟨by rw [l1]; norm_num, by rw [l1]; norm_num, by rw [l2]; norm_num, by rw [l2]; norm_num⟩
  refine ⟨hU, ?_⟩
  have hs0 : (⟨1.5e8, 0, 0⟩ : Vec3) ≠ 0 := ne_zero_of_length (by rw [l1]; norm_num)
  have hm0 : (⟨-384400, 0, 0⟩ : Vec3) ≠ 0 := ne_zero_of_length (by rw [l2]; norm_num)
  obtain ⟨-, -, c3⟩ := lunarEclipse_iff ⟨1.5e8, 0, 0⟩ ⟨-384400, 0, 0⟩ hs0 (by rw [length_neg', l2]; norm_num)
  rw [c3, length_neg', l1, l2, angleBetween_neg _ _ hs0 hm0]
  have ha : angle (-(⟨1.5e8, 0, 0⟩ : Vec3).toEuclidean) (⟨-384400, 0, 0⟩ : Vec3).toEuclidean = 0 := by
    rw [← Vec3.toEuclidean_neg]
    have : (⟨-384400, 0, 0⟩ : Vec3) = (384400 / 1.5e8 : ℝ) • (-⟨1.5e8, 0, 0⟩ : Vec3) := by
      apply Vec3.ext <;> simp
      norm_num
    rw [this, Vec3.toEuclidean_smul, angle_smul_right_of_pos _ _ (by norm_num), angle_self]
    intro hc
    have := Vec3.norm_toEuclidean (-⟨1.5e8, 0, 0⟩ : Vec3)
    rw [hc, norm_zero, length_neg', l1] at this
    norm_num at this
  rw [ha]
  have := Shadow.arcsin_le_cube (x := 1737.1 / 384400) (by norm_num) (by norm_num)
  norm_num at this ⊢
  linarith

/-! ### The function searched -/

/-- **C43.** Aberration moves a direction by no more than `arcsin (β / (1 - β))`, where `β` is the observer's speed in units of the speed of light. -/
theorem C43_aberration_angle (tiny : ℝ) (ht : 0 ≤ tiny) (p v : Vec3) (hp : p ≠ 0) (hv : v.length / cAuDay < 1 / 2) :
    addAberration tiny p v (p.length / cAuDay) ≠ 0 ∧
    angleBetween (addAberration tiny p v (p.length / cAuDay)) p ≤ arcsin (v.length / cAuDay / (1 - v.length / cAuDay)) := by
  have hc := cAuDay_pos
  have hp' := Vec3.length_pos hp
  have hV := Vec3.length_nonneg v
  have hcs := Vec3.abs_dot_le p v
  have hβ0 : 0 ≤ v.length / cAuDay := by positivity
  have hk : |v.length / cAuDay * (p.dot v / (p.length / cAuDay * cAuDay * v.length + tiny))| ≤ v.length / cAuDay := by
    rw [abs_mul, abs_of_nonneg hβ0]
    refine mul_le_of_le_one_right hβ0 ?_
    rw [div_mul_cancel₀ _ hc.ne', abs_div]
    have h1 : 0 ≤ p.length * v.length + tiny := by positivity
    rw [abs_of_nonneg h1]
    exact div_le_one_of_le₀ (by linarith) h1
  unfold addAberration
  simp only
  generalize v.length / cAuDay * (p.dot v / (p.length / cAuDay * cAuDay * v.length + tiny)) = k at hk ⊢
  have e : v.length = v.length / cAuDay * cAuDay := by field_simp
  generalize hβ : v.length / cAuDay = β at *
  obtain ⟨k1, k2⟩ := abs_le.1 hk
  have hpos : 0 < 1 - β * β := by nlinarith
  have hg := Real.sqrt_pos.2 hpos
  have hgg := Real.mul_self_sqrt hpos.le
  generalize √(1 - β * β) = g at *
  have hg1 : g ≤ 1 := by nlinarith
  have hr : 0 < 1 + k := by linarith
  have hgβ : 1 - β * β ≤ g := by nlinarith
  -- the displacement, compared with the length
  have hq0 : 0 ≤ (1 + k / (1 + g)) * (p.length / cAuDay) := by
    have : -1 ≤ k / (1 + g) := by rw [le_div_iff₀ (by linarith)]; linarith
    have : 0 ≤ 1 + k / (1 + g) := by linarith
    positivity
  have hq1 : (1 + k / (1 + g)) * (p.length / cAuDay) * v.length ≤ g * p.length * (β / (1 - β)) := by
    have h1 : k / (1 + g) ≤ β := by
      rw [div_le_iff₀ (by linarith)]
      nlinarith
    have h2 : (1 + k / (1 + g)) * (p.length / cAuDay) * v.length = (1 + k / (1 + g)) * (p.length * β) := by rw [e]; field_simp
    have h3 : (1 + k / (1 + g)) * (p.length * β) ≤ (1 + β) * (p.length * β) := by
      refine mul_le_mul_of_nonneg_right (by linarith) (by positivity)
    have h4 : (1 + β) * (p.length * β) = (1 - β * β) * p.length * (β / (1 - β)) := by
      have : 1 - β ≠ 0 := by linarith
      field_simp
      ring
    have h5 : (1 - β * β) * p.length * (β / (1 - β)) ≤ g * p.length * (β / (1 - β)) := by
      refine mul_le_mul_of_nonneg_right (mul_le_mul_of_nonneg_right hgβ hp'.le) (div_nonneg hβ0 (by linarith))
    linarith
  have hratio : β / (1 - β) < 1 := by rw [div_lt_one (by linarith)]; linarith
  have hratio0 : 0 ≤ β / (1 - β) := div_nonneg hβ0 (by linarith)
  generalize hq : (1 + k / (1 + g)) * (p.length / cAuDay) = q at *
  have hE : ((1 / (1 + k)) • (g • p + q • v)).toEuclidean = (1 / (1 + k)) • (g • p.toEuclidean + q • v.toEuclidean) := by
    rw [Vec3.toEuclidean_smul, Vec3.toEuclidean_add, Vec3.toEuclidean_smul, Vec3.toEuclidean_smul]
  have hc1 : ‖g • p.toEuclidean‖ = g * p.length := by
    rw [norm_smul, Vec3.norm_toEuclidean, Real.norm_eq_abs, abs_of_pos hg]
  have hgp : 0 < g * p.length := by positivity
  have hx : ‖(g • p.toEuclidean + q • v.toEuclidean) - g • p.toEuclidean‖ ≤ g * p.length * (β / (1 - β)) := by
    rw [add_sub_cancel_left, norm_smul, Vec3.norm_toEuclidean, Real.norm_eq_abs, abs_of_nonneg hq0]
    exact hq1
  have hlt : g * p.length * (β / (1 - β)) < ‖g • p.toEuclidean‖ := by rw [hc1]; nlinarith
  have hne : g • p.toEuclidean + q • v.toEuclidean ≠ 0 := by
    intro h0
    rw [h0, zero_sub, norm_neg] at hx
    linarith
  have hne' : (1 / (1 + k)) • (g • p + q • v) ≠ (0 : Vec3) := by
    intro h0
    have hz : (0 : Vec3).toEuclidean = 0 := by
      ext i
      fin_cases i <;> simp [Vec3.toEuclidean]
    rw [h0, hz] at hE
    rcases smul_eq_zero.1 hE.symm with h | h
    · exact (one_div_pos.2 hr).ne' h
    · exact hne h
  refine ⟨hne', ?_⟩
  rw [C79_euclidean _ _ hne' hp, hE, angle_smul_left_of_pos _ _ (one_div_pos.2 hr)]
  have := Shadow.angle_of_ball (c := g • p.toEuclidean) (x := g • p.toEuclidean + q • v.toEuclidean) (by positivity) hlt hx
  rw [hc1, angle_smul_right_of_pos _ _ hg, mul_div_cancel_left₀ _ hgp.ne'] at this
  exact this

/-- **C48.** The function searched is the supplement of the Moon's angle from the point opposite the Sun, up to aberration. -/
theorem C48_search_angle (tiny : ℝ) (ht : 0 ≤ tiny) (b e m s v : Vec3) (hs : s - b - e ≠ 0) (hm : m - e ≠ 0) (β : ℝ)
    (hβ : ((1 / auKm : ℝ) • v).length / cAuDay ≤ β) (hβ2 : β < 1 / 2) :
    |sunMoonAngle tiny b e m s v - (π - angleBetween (s - b - e) (e - m))| ≤ arcsin (β / (1 - β)) := by
  have hk : (0 : ℝ) < 1 / auKm := by unfold auKm; norm_num
  have hS : (1 / auKm : ℝ) • (s - b - e) ≠ 0 := by
    intro h
    apply hs
    have hx := congrArg Vec3.x h
    have hy := congrArg Vec3.y h
    have hz := congrArg Vec3.z h
    simp only [Vec3.smul_x, Vec3.smul_y, Vec3.smul_z, Vec3.zero_x, Vec3.zero_y, Vec3.zero_z, mul_eq_zero, hk.ne', false_or] at hx hy hz
    exact Vec3.ext hx hy hz
  have hem : e - m = -(m - e) := by apply Vec3.ext <;> simp
  obtain ⟨n1, n2⟩ := C43_aberration_angle tiny ht ((1 / auKm : ℝ) • (s - b - e)) ((1 / auKm : ℝ) • v) hS (lt_of_le_of_lt hβ hβ2)
  have hβ0 : 0 ≤ ((1 / auKm : ℝ) • v).length / cAuDay := div_nonneg (Vec3.length_nonneg _) cAuDay_pos.le
  have hmono : arcsin (((1 / auKm : ℝ) • v).length / cAuDay / (1 - ((1 / auKm : ℝ) • v).length / cAuDay)) ≤ arcsin (β / (1 - β)) := by
    apply arcsin_le_arcsin
    rw [div_le_div_iff₀ (by linarith) (by linarith)]
    nlinarith
  rw [hem, angleBetween_neg _ _ hs hm, angle_neg_left]
  unfold sunMoonAngle
  simp only
  rw [C79_euclidean _ _ n1 hm]
  rw [C79_euclidean _ _ n1 hS, Vec3.toEuclidean_smul, angle_smul_right_of_pos _ _ hk] at n2
  generalize (addAberration tiny ((1 / auKm : ℝ) • (s - b - e)) ((1 / auKm : ℝ) • v) (((1 / auKm : ℝ) • (s - b - e)).length / cAuDay)).toEuclidean
    = w at *
  have t1 := angle_le_angle_add_angle w (s - b - e).toEuclidean (m - e).toEuclidean
  have t2 := angle_le_angle_add_angle (s - b - e).toEuclidean w (m - e).toEuclidean
  rw [angle_comm _ w] at t2
  rw [abs_le]
  constructor <;> linarith

/-- **C48.** The closest approach is the closest: at the moment when the function searched is greatest, the Moon is no further from the middle of the
shadow than at any other moment of the time searched, up to twice the aberration (the search allows for it, the reported
`closest_approach` does not: some 40 seconds of arc in all). -/
theorem C48_closest (tiny : ℝ) (ht : 0 ≤ tiny) (b e m s v : ℝ → Vec3) (W : Set ℝ) (T : ℝ) (hT : T ∈ W) (hs : ∀ t ∈ W, s t - b t - e t ≠ 0)
    (hm : ∀ t ∈ W, m t - e t ≠ 0) (β : ℝ) (hβ : ∀ t ∈ W, ((1 / auKm : ℝ) • v t).length / cAuDay ≤ β) (hβ2 : β < 1 / 2)
    (hmax : ∀ t ∈ W, sunMoonAngle tiny (b t) (e t) (m t) (s t) (v t) ≤ sunMoonAngle tiny (b T) (e T) (m T) (s T) (v T)) :
    ∀ t ∈ W, angleBetween (s T - b T - e T) (e T - m T) ≤ angleBetween (s t - b t - e t) (e t - m t) + 2 * arcsin (β / (1 - β)) := by
  intro t htW
  have h1 := abs_le.1 (C48_search_angle tiny ht (b t) (e t) (m t) (s t) (v t) (hs t htW) (hm t htW) β (hβ t htW) hβ2)
  have h2 := abs_le.1 (C48_search_angle tiny ht (b T) (e T) (m T) (s T) (v T) (hs T hT) (hm T hT) β (hβ T hT) hβ2)
  have := hmax t htW
  linarith [h1.1, h2.2]

/-- Non-vacuity of `C43_aberration_angle` and of the hypotheses on the speed: an Earth at rest, and one with the Earth's speed in AU per day. -/
example : ((0 : Vec3).length / cAuDay < 1 / 2) ∧ ((⟨0, 0.0172, 0⟩ : Vec3).length / cAuDay < 1 / 2) := by
  have h : (0 : ℝ) < cAuDay := cAuDay_pos
  refine ⟨by rw [Vec3.length_zero, zero_div]; norm_num, ?_⟩
  have l : (⟨0, 0.0172, 0⟩ : Vec3).length = 0.0172 := by
    simp only [Vec3.length]
    rw [show (0 * 0 + 0.0172 * 0.0172 + 0 * 0 : ℝ) = 0.0172 ^ 2 by norm_num, sqrt_sq (by norm_num)]
  rw [l, div_lt_iff₀ h]
  unfold cAuDay lightSpeed daySeconds auM
  norm_num

end Skyfield
