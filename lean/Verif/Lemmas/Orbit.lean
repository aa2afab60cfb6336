import Verif.Lemmas.Stumpff
import Verif.Lemmas.Linear
import Mathlib.Analysis.Calculus.MeanValue
import Mathlib.Analysis.Calculus.Deriv.Inverse
import Mathlib.Topology.Order.IntermediateValue

/-! Lemmas on the constants of the orbit and on the universal Kepler equation. -/
namespace Skyfield
open Real

theorem Vec3.dot_cross_self (u v w : Vec3) : (u.cross v).dot w = v.dot (w.cross u) := by
  simp [Vec3.dot, Vec3.cross]; ring

/-- What the constants satisfy: `q` perihelion distance, `r0`, `rv`, `v2` scalars of the starting state. -/
structure OrbitFacts (o : OrbitConstants) (gm r0 rv v2 q : ℝ) : Prop where
  gm_pos : 0 < gm
  r0_pos : 0 < r0
  q_pos : 0 < q
  b_pos : 0 < o.b
  f_le : o.f ≤ 1
  b_sq : o.b ^ 2 * gm = q
  br0 : o.br0 = o.b * r0
  b2rv : o.b2rv = o.b ^ 2 * rv
  bq : o.bq = o.b * q
  qovr0 : o.qovr0 * r0 = q
  energy : o.b ^ 2 * v2 * r0 = 2 * q - o.f * r0
  momentum : (o.b * rv) ^ 2 = 2 * q * r0 - o.f * r0 ^ 2 - q ^ 2 * (2 - o.f)

theorem orbit_facts {P V : Vec3} {gm : ℝ} (hgm : 0 < gm) (hh : P.cross V ≠ 0) :
    ∃ q, OrbitFacts (orbitConstants P V gm) gm P.length (P.dot V) (V.dot V) q := by
  have hP : P ≠ 0 := by
    rintro rfl; exact hh (by ext <;> simp [Vec3.cross])
  have hr0 : 0 < P.length := Vec3.length_pos hP
  set H := P.cross V with hH
  have hh2 : 0 < H.dot H := lt_of_le_of_ne (Vec3.dot_self_nonneg _) fun e => hh (Vec3.dot_self_eq_zero.1 e.symm)
  set E := (1 / gm) • V.cross H + (1 / P.length) • (-P) with hE
  have he : 0 ≤ E.length := Vec3.length_nonneg _
  set e := E.length with hedef
  set q := H.dot H / (gm * (1 + e)) with hq
  have hqpos : 0 < q := by positivity
  have hbpos : 0 < √(q / gm) := sqrt_pos.2 (by positivity)
  have hb2 : √(q / gm) ^ 2 = q / gm := sq_sqrt (by positivity)
  have hp2 : P.length ^ 2 = P.dot P := Vec3.length_sq P
  have hlag : H.dot H = P.dot P * V.dot V - P.dot V ^ 2 := Vec3.lagrange P V
  have he2 : e ^ 2 = V.dot V * H.dot H / gm ^ 2 - 2 * H.dot H / (gm * P.length) + 1 := by
    rw [hedef, Vec3.length_sq, hE]
    simp only [Vec3.dot_add, Vec3.add_dot, Vec3.dot_smul, Vec3.smul_dot, Vec3.dot_neg, Vec3.neg_dot]
    have h1 : (V.cross H).dot (V.cross H) = V.dot V * H.dot H := by
      rw [Vec3.lagrange, show V.dot H = 0 by rw [Vec3.dot_comm]; exact Vec3.cross_dot_right P V]; ring
    have h2 : (V.cross H).dot P = H.dot H := Vec3.dot_cross_self V H P
    have h3 : P.dot (V.cross H) = H.dot H := by rw [Vec3.dot_comm]; exact h2
    rw [h1, h2, h3, ← hp2]
    field_simp
    ring
  have hqe : q * (gm * (1 + e)) = H.dot H := by rw [hq]; field_simp
  -- energy
  have hen : V.dot V * q * P.length = gm * (2 * q - (1 - e) * P.length) := by
    have hx := he2
    rw [← hqe] at hx
    have h1e : (1 + e) ≠ 0 := by positivity
    have : (1 + e) * (V.dot V * q * P.length) = (1 + e) * (gm * (2 * q - (1 - e) * P.length)) := by
      field_simp at hx
      linear_combination -hx
    exact mul_left_cancel₀ h1e this
  refine ⟨q, hgm, hr0, hqpos, hbpos, ?_, ?_, rfl, ?_, rfl, ?_, ?_, ?_⟩
  · change 1 - e ≤ 1; linarith
  · change √(q / gm) ^ 2 * gm = q
    rw [hb2]; field_simp
  · change √(q / gm) * √(q / gm) * P.dot V = √(q / gm) ^ 2 * P.dot V
    ring
  · change q / P.length * P.length = q
    field_simp
  · change √(q / gm) ^ 2 * V.dot V * P.length = 2 * q - (1 - e) * P.length
    rw [hb2]
    field_simp
    linear_combination hen
  · change (√(q / gm) * P.dot V) ^ 2 = 2 * q * P.length - (1 - e) * P.length ^ 2 - q ^ 2 * (2 - (1 - e))
    rw [mul_pow, hb2]
    field_simp
    rw [← hqe, ← hp2] at hlag
    linear_combination q * hlag + P.length * hen

variable {o : OrbitConstants} {gm r0 rv v2 q : ℝ}

theorem keplerFn_eq (o : OrbitConstants) (x : ℝ) :
    keplerFn o x = o.br0 * uni1 o.f x + o.b2rv * uni2 o.f x + o.bq * uni3 o.f x := by
  simp only [keplerFn, uni1, uni2, uni3]; ring

theorem brFn_eq (o : OrbitConstants) (x : ℝ) :
    brFn o x = o.br0 * uni0 o.f x + o.b2rv * uni1 o.f x + o.bq * uni2 o.f x := by
  simp only [brFn, uni0, uni1, uni2]; ring

theorem keplerFn_deriv (o : OrbitConstants) (x : ℝ) : HasDerivAt (keplerFn o) (brFn o x) x := by
  obtain ⟨_, d1, d2, d3⟩ := uni_deriv o.f x
  have h := ((d1.const_mul o.br0).add (d2.const_mul o.b2rv)).add (d3.const_mul o.bq)
  rw [brFn_eq]
  exact h.congr_of_eventuallyEq (Filter.Eventually.of_forall fun y => keplerFn_eq o y)

theorem brFn_deriv (o : OrbitConstants) (x : ℝ) :
    HasDerivAt (brFn o) (-o.f * o.br0 * uni1 o.f x + o.b2rv * uni0 o.f x + o.bq * uni1 o.f x) x := by
  obtain ⟨d0, d1, d2, _⟩ := uni_deriv o.f x
  have h := ((d0.const_mul o.br0).add (d1.const_mul o.b2rv)).add (d2.const_mul o.bq)
  refine (h.congr_of_eventuallyEq (Filter.Eventually.of_forall fun y => brFn_eq o y)).congr_deriv ?_
  ring

theorem keplerFn_zero (o : OrbitConstants) : keplerFn o 0 = 0 := by simp [keplerFn]

theorem brFn_zero (o : OrbitConstants) : brFn o 0 = o.br0 := by simp [brFn, stumpff_zero]

/-- The squared derivative of `br`. -/
theorem br_prime_sq (h : OrbitFacts o gm r0 rv v2 q) (x : ℝ) :
    (-o.f * o.br0 * uni1 o.f x + o.b2rv * uni0 o.f x + o.bq * uni1 o.f x) ^ 2 =
      (brFn o x - o.bq) * (o.bq * (2 - o.f) - o.f * brFn o x) := by
  obtain ⟨i0, _, i1⟩ := uni_identities o.f x
  have hm := h.momentum
  rw [brFn_eq, h.br0, h.b2rv, h.bq, i0]
  rw [i0] at i1
  generalize uni1 o.f x = u1 at *
  generalize uni2 o.f x = u2 at *
  generalize o.f = f at *
  generalize hb : o.b = b at *
  have e1 : (-f * (b * r0) * u1 + b ^ 2 * rv * (1 - f * u2) + b * q * u1) ^ 2 =
      b ^ 2 * (-f * r0 * u1 + (b * rv) * (1 - f * u2) + q * u1) ^ 2 := by ring
  have e2 : (b * r0 * (1 - f * u2) + b ^ 2 * rv * u1 + b * q * u2 - b * q) *
      (b * q * (2 - f) - f * (b * r0 * (1 - f * u2) + b ^ 2 * rv * u1 + b * q * u2)) =
      b ^ 2 * ((r0 * (1 - f * u2) + (b * rv) * u1 + q * u2 - q) *
        (q * (2 - f) - f * (r0 * (1 - f * u2) + (b * rv) * u1 + q * u2))) := by ring
  rw [e1, e2]
  congr 1
  generalize b * rv = w at *
  grind

theorem br_ge_bq (h : OrbitFacts o gm r0 rv v2 q) (x : ℝ) : o.bq ≤ brFn o x := by
  have hbq : 0 < o.bq := by rw [h.bq]; exact mul_pos h.b_pos h.q_pos
  have hf := h.f_le
  have key : ∀ y, 0 < brFn o y → o.bq ≤ brFn o y := by
    intro y hy
    by_contra hlt
    push Not at hlt
    have hsq := br_prime_sq h y
    have h0 : 0 ≤ (brFn o y - o.bq) * (o.bq * (2 - o.f) - o.f * brFn o y) := by rw [← hsq]; positivity
    have h1 : o.bq * (2 - o.f) - o.f * brFn o y ≤ 0 := by
      by_contra hc
      push Not at hc
      have := mul_neg_of_neg_of_pos (sub_neg.2 hlt) hc
      linarith
    nlinarith
  have hne : ∀ y, brFn o y ≠ 0 := by
    intro y hy
    have hsq := br_prime_sq h y
    rw [hy] at hsq
    have h0 : 0 ≤ (0 - o.bq) * (o.bq * (2 - o.f) - o.f * 0) := by rw [← hsq]; positivity
    have := mul_pos hbq (mul_pos hbq (show 0 < 2 - o.f by linarith))
    linarith
  apply key
  have h0 : 0 < brFn o 0 := by rw [brFn_zero, h.br0]; exact mul_pos h.b_pos h.r0_pos
  by_contra hx
  push Not at hx
  have hcont : Continuous (brFn o) := continuous_iff_continuousAt.2 fun y => (brFn_deriv o y).continuousAt
  have hmem : (0 : ℝ) ∈ Set.uIcc (brFn o 0) (brFn o x) := Set.mem_uIcc.2 (Or.inr ⟨hx, h0.le⟩)
  obtain ⟨y, _, hy⟩ := intermediate_value_uIcc hcont.continuousOn hmem
  exact hne y hy

theorem bq_pos (h : OrbitFacts o gm r0 rv v2 q) : 0 < o.bq := by rw [h.bq]; exact mul_pos h.b_pos h.q_pos

theorem br_pos (h : OrbitFacts o gm r0 rv v2 q) (x : ℝ) : 0 < brFn o x := (bq_pos h).trans_le (br_ge_bq h x)

theorem kepler_growth (h : OrbitFacts o gm r0 rv v2 q) {x y : ℝ} (hxy : x ≤ y) :
    o.bq * (y - x) ≤ keplerFn o y - keplerFn o x := by
  have hd : Differentiable ℝ (keplerFn o) := fun z => (keplerFn_deriv o z).differentiableAt
  exact mul_sub_le_image_sub_of_le_deriv hd (fun z => by rw [(keplerFn_deriv o z).deriv]; exact br_ge_bq h z) hxy

theorem kepler_strictMono (h : OrbitFacts o gm r0 rv v2 q) : StrictMono (keplerFn o) := by
  intro x y hxy
  have := kepler_growth h hxy.le
  have := mul_pos (bq_pos h) (sub_pos.2 hxy)
  linarith

theorem kepler_continuous (o : OrbitConstants) : Continuous (keplerFn o) :=
  continuous_iff_continuousAt.2 fun y => (keplerFn_deriv o y).continuousAt

/-- The first guess `dt / bq` always lies at or beyond the root. -/
theorem kepler_guess (h : OrbitFacts o gm r0 rv v2 q) {dt : ℝ} :
    (0 ≤ dt → dt ≤ keplerFn o (dt / o.bq)) ∧ (dt ≤ 0 → keplerFn o (dt / o.bq) ≤ dt) := by
  have hb := bq_pos h
  have he : o.bq * (dt / o.bq) = dt := by field_simp
  constructor
  · intro hd
    have := kepler_growth h (x := 0) (y := dt / o.bq) (by positivity)
    rw [keplerFn_zero, sub_zero, sub_zero, he] at this
    exact this
  · intro hd
    have := kepler_growth h (x := dt / o.bq) (y := 0) (div_nonpos_of_nonpos_of_nonneg hd hb.le)
    rw [keplerFn_zero] at this
    linarith

theorem kepler_exists (h : OrbitFacts o gm r0 rv v2 q) (dt : ℝ) : ∃ x, keplerFn o x = dt := by
  have hg := kepler_guess h (dt := dt)
  have hmem : dt ∈ Set.uIcc (keplerFn o 0) (keplerFn o (dt / o.bq)) := by
    rw [keplerFn_zero, Set.mem_uIcc]
    rcases le_total 0 dt with hd | hd
    · exact Or.inl ⟨hd, hg.1 hd⟩
    · exact Or.inr ⟨hg.2 hd, hd⟩
  obtain ⟨x, _, hx⟩ := intermediate_value_uIcc (kepler_continuous o).continuousOn hmem
  exact ⟨x, hx⟩

/-- The exact solution as a function of the elapsed time is differentiable. -/
theorem kepler_inverse_deriv (h : OrbitFacts o gm r0 rv v2 q) {X : ℝ → ℝ} (hX : ∀ t, keplerFn o (X t) = t) (t : ℝ) :
    HasDerivAt X (brFn o (X t))⁻¹ t := by
  have hlip : ∀ s u : ℝ, |X s - X u| ≤ |s - u| / o.bq := by
    have key : ∀ s u : ℝ, X u ≤ X s → |X s - X u| ≤ |s - u| / o.bq := by
      intro s u hsu
      have := kepler_growth h hsu
      rw [hX, hX] at this
      rw [le_div_iff₀ (bq_pos h), abs_of_nonneg (sub_nonneg.2 hsu)]
      exact le_trans (by linarith) (le_abs_self _)
    intro s u
    rcases le_total (X u) (X s) with hc | hc
    · exact key s u hc
    · rw [abs_sub_comm, abs_sub_comm s u]; exact key u s hc
  have hcont : ContinuousAt X t := by
    rw [Metric.continuousAt_iff]
    intro ε hε
    refine ⟨ε * o.bq, mul_pos hε (bq_pos h), fun {s} hs => ?_⟩
    rw [Real.dist_eq] at hs ⊢
    refine lt_of_le_of_lt (hlip s t) ?_
    rw [div_lt_iff₀ (bq_pos h)]
    exact hs
  exact HasDerivAt.of_local_left_inverse hcont (keplerFn_deriv o (X t)) (br_pos h (X t)).ne'
    (Filter.Eventually.of_forall hX)

end Skyfield
