import Verif.Model.Relativity
import Verif.Props.Spherical
import Verif.Props.Geometry
import Mathlib.Tactic.Positivity

/-
C43: aberration, deflection and apparent positions.
-/
namespace Skyfield
open Real

theorem cAuDay_pos : 0 < cAuDay := by unfold cAuDay lightSpeed daySeconds auM; positivity

/-! ### Aberration -/

/-- **C43.** The aberrated position is a combination of the position and the observer's velocity, with a positive amount of
each: the object is seen in the plane of the two, moved toward the direction of motion. -/
theorem C43_aberration_plane (tiny : ℝ) (ht : 0 ≤ tiny) (p v : Vec3) (lt : ℝ) (h0 : 0 < lt) (hp : p.length ≤ lt * cAuDay)
    (hv : v.length < cAuDay) :
    ∃ a b : ℝ, 0 < a ∧ 0 < b ∧ addAberration tiny p v lt = a • p + b • v := by
  have hc := cAuDay_pos
  have hV := Vec3.length_nonneg v
  unfold addAberration
  simp only
  set β := v.length / cAuDay with hβ
  have hβ0 : 0 ≤ β := by positivity
  have hβ1 : β < 1 := by rw [hβ, div_lt_one hc]; exact hv
  set cosd := p.dot v / (lt * cAuDay * v.length + tiny) with hcd
  have hcos : |cosd| ≤ 1 := by
    rw [hcd, abs_div, abs_of_nonneg (by positivity : 0 ≤ lt * cAuDay * v.length + tiny)]
    refine div_le_one_of_le₀ ?_ (by positivity)
    refine (Vec3.abs_dot_le p v).trans ?_
    have := mul_le_mul_of_nonneg_right hp hV
    linarith
  have hs : -1 < β * cosd ∧ β * cosd < 1 := by
    have h1 : |β * cosd| < 1 := by
      rw [abs_mul, abs_of_nonneg hβ0]
      nlinarith [abs_nonneg cosd]
    exact abs_lt.1 h1
  have hg : 0 < √(1 - β * β) := Real.sqrt_pos.2 (by nlinarith)
  set g := √(1 - β * β)
  have hr : 0 < 1 + β * cosd := by linarith
  have hk : 0 < 1 + β * cosd / (1 + g) := by
    have : -1 < β * cosd / (1 + g) := by
      rw [lt_div_iff₀ (by linarith)]; linarith
    linarith
  refine ⟨1 / (1 + β * cosd) * g, 1 / (1 + β * cosd) * ((1 + β * cosd / (1 + g)) * lt), by positivity, by positivity, ?_⟩
  ext <;> simp <;> ring

/-- **C43.** Aberration vanishes with the velocity. -/
theorem C43_aberration_zero (tiny : ℝ) (p : Vec3) (lt : ℝ) : addAberration tiny p 0 lt = p := by
  have : (0 : Vec3).length = 0 := Vec3.length_zero
  unfold addAberration
  simp only [this, zero_div, mul_zero, zero_mul, sub_zero, Real.sqrt_one, add_zero, div_one]
  ext <;> simp

section
variable {p v : Vec3} {lt : ℝ} (h0 : 0 < lt) (hp : p.length = lt * cAuDay) (hv : v.length < cAuDay)
include h0 hp hv

theorem aberration_form :
    ∃ s g : ℝ, 0 < g ∧ g ≤ 1 ∧ -1 < s ∧ v.length * v.length = cAuDay ^ 2 * (1 - g ^ 2) ∧
      p.dot v = s * (lt * cAuDay) * cAuDay ∧
      addAberration 0 p v lt = (1 / (1 + s)) • (g • p + ((1 + s / (1 + g)) * lt) • v) := by
  have hc := cAuDay_pos
  have hV := Vec3.length_nonneg v
  have hβ1 : v.length / cAuDay < 1 := by rw [div_lt_one hc]; exact hv
  have hβ0 : 0 ≤ v.length / cAuDay := by positivity
  have hpos : 0 < 1 - v.length / cAuDay * (v.length / cAuDay) := by nlinarith
  have hg := Real.sqrt_pos.2 hpos
  have hgg := Real.mul_self_sqrt hpos.le
  have hL : 0 < lt * cAuDay := by positivity
  have hcs := Vec3.abs_dot_le p v
  rw [hp] at hcs
  refine ⟨p.dot v / (lt * cAuDay * cAuDay), √(1 - v.length / cAuDay * (v.length / cAuDay)), hg, ?_, ?_, ?_, ?_, ?_⟩
  · rw [Real.sqrt_le_left (by norm_num)]; nlinarith
  · rw [lt_div_iff₀ (by positivity)]
    have h1 := (abs_le.1 hcs).1
    have h2 : lt * cAuDay * v.length < lt * cAuDay * cAuDay := mul_lt_mul_of_pos_left hv hL
    linarith
  · rw [sq √_, hgg]; field_simp; ring
  · field_simp
  · have e : v.length / cAuDay * (p.dot v / (lt * cAuDay * v.length)) = p.dot v / (lt * cAuDay * cAuDay) := by
      by_cases hz : v.length = 0
      · have := Vec3.length_eq_zero.1 hz
        subst this
        rw [Vec3.dot_zero]; simp
      · field_simp
    unfold addAberration
    simp only [add_zero]
    rw [e]

/-- **C43.** Aberration changes only the direction: the length of the vector is unchanged. -/
theorem C43_aberration_length : (addAberration 0 p v lt).length = p.length := by
  have hc := cAuDay_pos
  obtain ⟨s, g, hg, -, hs, hV, hD, he⟩ := aberration_form h0 hp hv
  have hr : 0 < 1 + s := by linarith
  rw [he, Vec3.length_smul_of_nonneg (by positivity)]
  have hpp := Vec3.length_mul_self p
  have hvv := Vec3.length_mul_self v
  rw [hp] at hpp
  rw [hV] at hvv
  have key : (g • p + ((1 + s / (1 + g)) * lt) • v).length = (1 + s) * p.length := by
    rw [Vec3.length_eq]
    have : (g • p + ((1 + s / (1 + g)) * lt) • v).dot (g • p + ((1 + s / (1 + g)) * lt) • v) =
        ((1 + s) * p.length) * ((1 + s) * p.length) := by
      simp only [Vec3.add_dot, Vec3.dot_add, Vec3.smul_dot, Vec3.dot_smul, Vec3.dot_comm v p, ← hpp, ← hvv, hD, hp]
      have h1g : 1 + g ≠ 0 := by linarith
      field_simp
      ring
    rw [this, Real.sqrt_mul_self (mul_nonneg hr.le (Vec3.length_nonneg p))]
  rw [key]
  field_simp

theorem aberration_dot : ∃ s g : ℝ, 0 < g ∧ -1 < s ∧ v.length * v.length = cAuDay ^ 2 * (1 - g ^ 2) ∧
    p.dot v = s * (lt * cAuDay) * cAuDay ∧
    addAberration 0 p v lt = (1 / (1 + s)) • (g • p + ((1 + s / (1 + g)) * lt) • v) ∧
    (addAberration 0 p v lt).dot v = lt * cAuDay * cAuDay * ((s + 1 - g ^ 2) / (1 + s)) := by
  have hc := cAuDay_pos
  obtain ⟨s, g, hg, -, hs, hV, hD, he⟩ := aberration_form h0 hp hv
  have hr : 1 + s ≠ 0 := by linarith
  refine ⟨s, g, hg, hs, hV, hD, he, ?_⟩
  have hvv := Vec3.length_mul_self v
  rw [hV] at hvv
  rw [he]
  simp only [Vec3.add_dot, Vec3.smul_dot, ← hvv, hD]
  have h1g : 1 + g ≠ 0 := by linarith
  field_simp
  ring

/-- **C43.** Aberration follows Einstein's formula: if the object is at angle θ from the direction of motion, it is seen
at the angle θ' with cos θ' = (cos θ + β) / (1 + β cos θ), where β is the speed as a fraction of the speed of light. -/
theorem C43_aberration_einstein (hv0 : v ≠ 0) :
    let β := v.length / cAuDay
    let θ := angleBetween p v
    let θ' := angleBetween (addAberration 0 p v lt) v
    cos θ' = (cos θ + β) / (1 + β * cos θ) := by
  have hc := cAuDay_pos
  have hL : 0 < lt * cAuDay := by positivity
  have hlv := Vec3.length_pos hv0
  have hp0 : p ≠ 0 := by rintro rfl; rw [Vec3.length_zero] at hp; linarith
  have hlen := C43_aberration_length h0 hp hv
  have hq0 : addAberration 0 p v lt ≠ 0 := by
    intro h; rw [h, Vec3.length_zero, hp] at hlen; linarith
  simp only
  rw [(C37_angle p v hp0 hv0).1, (C37_angle _ v hq0 hv0).1, hlen]
  obtain ⟨s, g, hg, hs, hV, hD, -, hd⟩ := aberration_dot h0 hp hv
  rw [hd, hD, hp]
  have hr : 1 + s ≠ 0 := by linarith
  have e1 : v.length / cAuDay * (s * (lt * cAuDay) * cAuDay / (lt * cAuDay * v.length)) = s := by field_simp
  rw [e1]
  field_simp
  have : v.length ^ 2 = cAuDay ^ 2 * (1 - g ^ 2) := by rw [sq]; exact hV
  linear_combination -this

/-- **C43.** An observer moving the other way undoes it: aberrating by the opposite velocity gives back the position. -/
theorem C43_aberration_inverse : addAberration 0 (addAberration 0 p v lt) (-v) lt = p := by
  have hc := cAuDay_pos
  have hlen := C43_aberration_length h0 hp hv
  obtain ⟨s, g, hg, hs, hV, hD, he, hd⟩ := aberration_dot h0 hp hv
  have hp' : (addAberration 0 p v lt).length = lt * cAuDay := hlen.trans hp
  have hv' : (-v).length < cAuDay := by rw [Vec3.length_neg]; exact hv
  obtain ⟨s', g', hg', -, hs', hV', hD', he'⟩ := aberration_form h0 hp' hv'
  have hgg : g' = g := by
    rw [Vec3.length_neg, hV] at hV'
    have : g ^ 2 = g' ^ 2 := by
      have := mul_left_cancel₀ (by positivity : (cAuDay ^ 2 : ℝ) ≠ 0) hV'
      linarith
    exact ((sq_eq_sq₀ hg.le hg'.le).1 this).symm
  subst hgg
  have hr : 1 + s ≠ 0 := by linarith
  have hr' : 1 + s' ≠ 0 := by linarith
  have hss : s' * (1 + s) = -(s + 1 - g' ^ 2) := by
    rw [Vec3.dot_neg, hd] at hD'
    have h1 : (lt * cAuDay * cAuDay) * (-((s + 1 - g' ^ 2) / (1 + s))) = (lt * cAuDay * cAuDay) * s' := by
      linear_combination hD'
    have h2 := mul_left_cancel₀ (by positivity : (lt * cAuDay * cAuDay : ℝ) ≠ 0) h1
    rw [← h2]
    field_simp
  have hs'' : s' = -(s + 1 - g' ^ 2) / (1 + s) := by rw [← hss]; field_simp
  have h1g : 1 + g' ≠ 0 := by linarith
  have hg2 : (1 + s') = g' ^ 2 / (1 + s) := by rw [hs'']; field_simp; ring
  rw [he', he]
  have hb : 1 / (1 + s') * (g' * (1 / (1 + s)) * ((1 + s / (1 + g')) * lt)) - 1 / (1 + s') * ((1 + s' / (1 + g')) * lt) = 0 := by
    rw [hg2, hs'']
    field_simp
    ring
  have ha : 1 / (1 + s') * (g' * (1 / (1 + s)) * g') = 1 := by
    rw [hg2]; field_simp
  ext
  · simp only [Vec3.smul_x, Vec3.add_x, Vec3.neg_x]
    linear_combination p.x * ha + v.x * hb
  · simp only [Vec3.smul_y, Vec3.add_y, Vec3.neg_y]
    linear_combination p.y * ha + v.y * hb
  · simp only [Vec3.smul_z, Vec3.add_z, Vec3.neg_z]
    linear_combination p.z * ha + v.z * hb

end

/-- Non-vacuity: one light-day away, an observer moving at a tenth of the speed of light. -/
example : let p : Vec3 := ⟨cAuDay, 0, 0⟩; let v : Vec3 := ⟨0, cAuDay / 10, 0⟩
    (0 : ℝ) < 1 ∧ p.length = 1 * cAuDay ∧ v.length < cAuDay ∧ v ≠ 0 := by
  have hc := cAuDay_pos
  refine ⟨one_pos, ?_, ?_, ?_⟩
  · simp [Vec3.length, Real.sqrt_mul_self hc.le]
  · simp only [Vec3.length, mul_zero, zero_add, add_zero]
    rw [Real.sqrt_mul_self (by positivity)]; linarith
  · intro h
    have := congrArg Vec3.y h
    simp at this
    linarith

/-! ### Deflection -/

theorem orOne_pos {x : ℝ} (h : x ≠ 0) : orOne x = x := by unfold orOne; rw [if_pos h]

/-- **C43.** The shift is perpendicular to the position it is applied to. -/
theorem C43_deflection_perpendicular {p e d : Vec3} {m : ℝ} (h : computeDeflection p e m = some d) : d.dot p = 0 := by
  unfold computeDeflection at h
  simp only at h
  split at h
  · cases h
  · cases h
    simp only [Vec3.smul_dot, Vec3.sub_dot, Vec3.dot_smul]
    rw [Vec3.dot_comm p (p + e), Vec3.dot_comm e p]
    ring

/-- **C43.** The shift is proportional to the mass: a body with reciprocal mass k times as large shifts 1/k as much. -/
theorem C43_deflection_mass {p e d : Vec3} {m k : ℝ} (h : computeDeflection p e m = some d) :
    computeDeflection p e (k * m) = some ((1 / k) • d) := by
  unfold computeDeflection at h ⊢
  simp only at h ⊢
  split at h
  · cases h
  · rename_i hn
    rw [if_neg hn]
    cases h
    have : ∀ f : ℝ, f * (2 * gravSun / (lightSpeed * lightSpeed * e.length * auM * (k * m))) =
        1 / k * (f * (2 * gravSun / (lightSpeed * lightSpeed * e.length * auM * m))) := by
      intro f
      rw [show lightSpeed * lightSpeed * e.length * auM * (k * m) = k * (lightSpeed * lightSpeed * e.length * auM * m) by ring,
        ← div_div, div_right_comm]
      ring
    have comm : ∀ (a b c k : ℝ) (V : Vec3), a • (b • ((k * c) • V)) = k • (a • (b • (c • V))) := by
      intro a b c k V; ext <;> simp <;> ring
    rw [this, comm]

/-- Specification: the scale of the effect, twice the body's gravitational radius over the observer's distance from it. -/
noncomputable def deflectionScale (e : Vec3) (m : ℝ) : ℝ :=
  2 * (gravSun / m) / (lightSpeed ^ 2 * (e.length * auM))

theorem gram_zero {p e : Vec3} (hp : p ≠ 0) (he : e ≠ 0) (hq : p + e ≠ 0) :
    let x := ((1 / p.length) • p).dot ((1 / (p + e).length) • (p + e))
    let y := ((1 / (p + e).length) • (p + e)).dot ((1 / e.length) • e)
    let z := ((1 / e.length) • e).dot ((1 / p.length) • p)
    x ^ 2 + z ^ 2 - 2 * x * z * y = 1 - y ^ 2 := by
  have lp := Vec3.length_pos hp
  have le := Vec3.length_pos he
  have lq := Vec3.length_pos hq
  have hpp := Vec3.length_mul_self p
  have hee := Vec3.length_mul_self e
  have hqq := Vec3.length_mul_self (p + e)
  simp only [Vec3.add_dot, Vec3.dot_add, Vec3.dot_comm e p] at hqq
  rw [← hpp, ← hee] at hqq
  simp only [Vec3.smul_dot, Vec3.dot_smul, Vec3.add_dot, Vec3.dot_add, Vec3.dot_comm e p]
  rw [← hpp, ← hee]
  field_simp
  rw [show (p + e).length ^ 2 = (p + e).length * (p + e).length by ring, hqq]
  ring

theorem unit_dot_self {u : Vec3} (h : u ≠ 0) : ((1 / u.length) • u).dot ((1 / u.length) • u) = 1 := by
  have := Vec3.length_pos h
  rw [Vec3.smul_dot, Vec3.dot_smul, ← Vec3.length_mul_self]
  field_simp

theorem cos_angle_unit {u v : Vec3} (hu : u ≠ 0) (hv : v ≠ 0) :
    ((1 / u.length) • u).dot ((1 / v.length) • v) = cos (angleBetween u v) := by
  rw [(C37_angle u v hu hv).1, Vec3.smul_dot, Vec3.dot_smul]
  have := Vec3.length_pos hu
  have := Vec3.length_pos hv
  field_simp

theorem tan_half_of {ψ : ℝ} (h0 : 0 ≤ ψ) (h1 : ψ < π) : √(1 - cos ψ ^ 2) / (1 + cos ψ) = tan (ψ / 2) := by
  have hs : √(1 - cos ψ ^ 2) = sin ψ := by
    rw [← Real.sin_sq]
    exact Real.sqrt_sq (sin_nonneg_of_nonneg_of_le_pi h0 h1.le)
  have hc : 0 < cos (ψ / 2) := cos_pos_of_mem_Ioo ⟨by linarith, by linarith⟩
  rw [hs, tan_eq_sin_div_cos]
  have e1 : sin ψ = 2 * sin (ψ / 2) * cos (ψ / 2) := by rw [← sin_two_mul]; congr 1; ring
  have e2 : cos ψ = 2 * cos (ψ / 2) ^ 2 - 1 := by rw [← cos_two_mul]; congr 1; ring
  rw [e1, e2]
  field_simp
  ring

/-- **C43.** Size.  When the line of sight is not within an arc second of the body (`edotp` test of the code), the
shift is the distance times 2GM/(c²r) times the tangent of half the angle, at the deflecting body, between the object and
the observer. -/
theorem C43_deflection_size {p e d : Vec3} {m : ℝ} (hm : 0 < m) (hp : p ≠ 0) (hq : p + e ≠ 0)
    (h : computeDeflection p e m = some d) (hf : |cos (angleBetween e p)| ≤ 0.99999999999) :
    d.length = p.length * (deflectionScale e m * tan (angleBetween (p + e) e / 2)) := by
  have lp := Vec3.length_pos hp
  have lq := Vec3.length_pos hq
  unfold computeDeflection at h
  simp only at h
  split at h
  · cases h
  · rename_i hn
    push Not at hn
    obtain ⟨hne, hf2⟩ := hn
    have he : e ≠ 0 := by rintro rfl; exact hne Vec3.length_zero
    have le := Vec3.length_pos he
    rw [orOne_pos lp.ne', orOne_pos lq.ne', orOne_pos hne] at h
    rw [orOne_pos lq.ne', orOne_pos hne] at hf2
    have hg := gram_zero hp he hq
    simp only at hg
    rw [cos_angle_unit hq he] at hf2
    rw [cos_angle_unit hp hq, cos_angle_unit hq he, cos_angle_unit he hp] at hg h
    rw [if_pos hf, one_mul] at h
    cases h
    obtain ⟨-, a0, a1⟩ := C37_angle (p + e) e hq he
    set ψ := angleBetween (p + e) e
    set x := cos (angleBetween p (p + e))
    set z := cos (angleBetween e p)
    have hcos : 0 < 1 + cos ψ := lt_of_le_of_ne (by linarith [neg_one_le_cos ψ]) (Ne.symm hf2)
    have hψ : ψ < π := by
      refine lt_of_le_of_ne a1 fun h => ?_
      rw [h, cos_pi] at hcos; linarith
    have hG : 0 ≤ 2 * gravSun / (lightSpeed * lightSpeed * e.length * auM * m) := by
      unfold gravSun lightSpeed auM; positivity
    rw [Vec3.length_smul_of_nonneg lp.le, Vec3.length_smul_of_nonneg (by positivity), Vec3.length_smul_of_nonneg hG]
    have hlen : (x • ((1 / e.length) • e) - z • ((1 / (p + e).length) • (p + e))).length = √(1 - cos ψ ^ 2) := by
      rw [Vec3.length_eq]
      congr 1
      have u1 := unit_dot_self he
      have u2 := unit_dot_self hq
      have u3 := cos_angle_unit hq he
      have u4 := u3
      rw [Vec3.dot_comm] at u4
      set E := (1 / e.length) • e
      set Q := (1 / (p + e).length) • (p + e)
      simp only [Vec3.sub_dot, Vec3.dot_sub, Vec3.smul_dot, Vec3.dot_smul, u1, u2, u3, u4]
      linear_combination hg
    rw [hlen, ← tan_half_of a0 hψ]
    unfold deflectionScale
    have : (lightSpeed : ℝ) ≠ 0 := by unfold lightSpeed; norm_num
    have : (auM : ℝ) ≠ 0 := by unfold auM; norm_num
    field_simp

/-- **C43.** Direction: the shift is away from the deflecting body (`-e` is the body as seen by the observer). -/
theorem C43_deflection_away {p e d : Vec3} {m : ℝ} (hm : 0 < m) (h : computeDeflection p e m = some d) :
    0 ≤ d.dot e := by
  by_cases hp : p = 0
  · subst hp
    unfold computeDeflection at h
    simp only [Vec3.length_zero] at h
    split at h
    · cases h
    · cases h
      rw [Vec3.smul_dot, zero_mul]
  have lp := Vec3.length_pos hp
  by_cases hq : p + e = 0
  · unfold computeDeflection at h
    simp only [hq, Vec3.length_zero] at h
    split at h
    · cases h
    · cases h
      have hz : ∀ k : ℝ, k • (0 : Vec3) = 0 := by intro k; ext <;> simp
      have hzz : ∀ V : Vec3, (0 : ℝ) • V = 0 := by intro V; ext <;> simp
      have h00 : (0 : Vec3) - 0 = 0 := by ext <;> simp
      simp only [hz, Vec3.dot_zero, hzz, h00, Vec3.zero_dot]
      exact le_rfl
  have lq := Vec3.length_pos hq
  unfold computeDeflection at h
  simp only at h
  split at h
  · cases h
  · rename_i hn
    push Not at hn
    obtain ⟨hne, hf2⟩ := hn
    have he : e ≠ 0 := by rintro rfl; exact hne Vec3.length_zero
    have le := Vec3.length_pos he
    rw [orOne_pos lp.ne', orOne_pos lq.ne', orOne_pos hne] at h
    rw [orOne_pos lq.ne', orOne_pos hne] at hf2
    rw [cos_angle_unit hq he] at hf2 h
    cases h
    set ψ := angleBetween (p + e) e
    have hcos : 0 < 1 + cos ψ := lt_of_le_of_ne (by linarith [neg_one_le_cos ψ]) (Ne.symm hf2)
    have hG : 0 ≤ 2 * gravSun / (lightSpeed * lightSpeed * e.length * auM * m) := by
      unfold gravSun lightSpeed auM; positivity
    have hF : ∀ q : Prop, [Decidable q] → (0 : ℝ) ≤ if q then 1 else 0 := by intro q _; split <;> norm_num
    simp only [Vec3.smul_dot (_) _ e]
    refine mul_nonneg lp.le (mul_nonneg (by positivity) (mul_nonneg (mul_nonneg (hF _) hG) ?_))
    simp only [Vec3.smul_dot, Vec3.dot_smul, Vec3.sub_dot, Vec3.add_dot, Vec3.dot_add, Vec3.dot_comm e p]
    have hpp := Vec3.length_mul_self p
    have hee := Vec3.length_mul_self e
    have hcs := Vec3.dot_sq_le p e
    rw [← hpp, ← hee] at hcs ⊢
    have : 1 / p.length * (1 / (p + e).length * (p.length * p.length + p.dot e)) * (1 / e.length * (e.length * e.length)) -
        1 / e.length * (1 / p.length * p.dot e) * (1 / (p + e).length * (p.dot e + e.length * e.length)) =
        (p.length * p.length * (e.length * e.length) - p.dot e ^ 2) / (p.length * (p + e).length * e.length) := by
      field_simp
      ring
    refine le_of_le_of_eq ?_ (this.symm.trans ?_)
    · exact div_nonneg (by linarith) (by positivity)
    · ring

/-- **C43.** Nothing is shifted when the body is within about an arc second of the line of sight, ahead or behind. -/
theorem C43_deflection_none_when_aligned {p e d : Vec3} {m : ℝ} (hp : p ≠ 0)
    (h : computeDeflection p e m = some d) (hf : 0.99999999999 < |cos (angleBetween e p)|) : d = 0 := by
  have lp := Vec3.length_pos hp
  unfold computeDeflection at h
  simp only at h
  split at h
  · cases h
  · rename_i hn
    push Not at hn
    have he : e ≠ 0 := by rintro rfl; exact hn.1 Vec3.length_zero
    rw [orOne_pos lp.ne', orOne_pos hn.1, cos_angle_unit he hp] at h
    rw [if_neg (not_le.2 hf)] at h
    cases h
    ext <;> simp

/-- **C43.** Bound: the shift never exceeds 450000 times `deflectionScale`, so for the Sun seen from a distance of one
astronomical unit it stays below half a degree. -/
theorem C43_deflection_bound {p e d : Vec3} {m : ℝ} (hm : 0 < m) (hp : p ≠ 0) (hq : p + e ≠ 0)
    (h : computeDeflection p e m = some d) : d.length ≤ p.length * (deflectionScale e m * 450000) := by
  have lp := Vec3.length_pos hp
  have hS : 0 ≤ deflectionScale e m := by
    have := Vec3.length_nonneg e
    unfold deflectionScale gravSun lightSpeed auM; positivity
  by_cases hf : |cos (angleBetween e p)| ≤ 0.99999999999
  · rw [C43_deflection_size hm hp hq h hf]
    refine mul_le_mul_of_nonneg_left (mul_le_mul_of_nonneg_left ?_ hS) lp.le
    have he : e ≠ 0 := by
      rintro rfl
      unfold computeDeflection at h
      simp [Vec3.length_zero] at h
    have le := Vec3.length_pos he
    have lq := Vec3.length_pos hq
    obtain ⟨c1, a0, a1⟩ := C37_angle (p + e) e hq he
    obtain ⟨c2, -, -⟩ := C37_angle e p he hp
    set ψ := angleBetween (p + e) e
    set z := cos (angleBetween e p)
    -- the angle at the body is at most the one at the observer
    have hz : z ≤ cos ψ := by
      rw [c1, le_div_iff₀ (by positivity), Vec3.add_dot, ← Vec3.length_mul_self e]
      have hpe : p.dot e = z * (e.length * p.length) := by
        rw [c2, Vec3.dot_comm]; field_simp
      rw [hpe]
      have t1 : |p.length - (p + e).length| ≤ e.length := by
        have := Vec3.abs_length_sub_le p (p + e)
        have e3 : (p - (p + e)).length = e.length := by
          rw [Vec3.length_sub_comm]
          congr 1
          ext <;> simp
        rwa [e3] at this
      have t2 : |z * (p.length - (p + e).length)| ≤ e.length := by
        rw [abs_mul]
        have := abs_cos_le_one (angleBetween e p)
        have h4 := abs_nonneg (p.length - (p + e).length)
        nlinarith
      have t3 := (abs_le.1 t2).1
      nlinarith
    have hz0 := (abs_le.1 hf).1
    have hcos : 1e-11 ≤ 1 + cos ψ := by norm_num at hz0 ⊢; linarith
    have hψ : ψ < π := by
      refine lt_of_le_of_ne a1 fun h => ?_
      rw [h, cos_pi] at hcos; norm_num at hcos
    rw [← tan_half_of a0 hψ]
    have hc1 := cos_le_one ψ
    have hpos : (0 : ℝ) < 1 + cos ψ := lt_of_lt_of_le (by norm_num) hcos
    rw [div_le_iff₀ hpos, Real.sqrt_le_left (by positivity)]
    have : 1 - cos ψ ^ 2 = (1 + cos ψ) * (1 - cos ψ) := by ring
    rw [this, mul_pow, sq (1 + cos ψ)]
    have h5 : 1 - cos ψ ≤ 450000 ^ 2 * (1 + cos ψ) := by norm_num at hcos ⊢; linarith
    nlinarith
  · push Not at hf
    rw [C43_deflection_none_when_aligned hp h hf, Vec3.length_zero]
    positivity

/-- **C43 (limitation).** When the position is not a number: exactly when the observer is at the center of the deflecting
body, or the body is exactly on the segment from the observer to the object (and not at the object). -/
theorem C43_deflection_nan (p e : Vec3) (m : ℝ) (hp : p ≠ 0) :
    computeDeflection p e m = none ↔ e = 0 ∨ ∃ k : ℝ, 1 < k ∧ p = k • (-e) := by
  have lp := Vec3.length_pos hp
  have hcond : computeDeflection p e m = none ↔ (e.length = 0 ∨
      1 + ((1 / orOne (p + e).length) • (p + e)).dot ((1 / orOne e.length) • e) = 0) := by
    unfold computeDeflection
    simp only
    split
    · simp_all
    · simp_all
  rw [hcond, Vec3.length_eq_zero]
  by_cases he : e = 0
  · simp [he]
  have le := Vec3.length_pos he
  simp only [he, false_or]
  by_cases hq : p + e = 0
  · rw [hq]
    have hz : ∀ k : ℝ, k • (0 : Vec3) = 0 := by intro k; ext <;> simp
    rw [hz, Vec3.zero_dot, add_zero]
    refine ⟨fun h => absurd h one_ne_zero, ?_⟩
    rintro ⟨k, hk, hpk⟩
    exfalso
    apply he
    have h1 := congrArg Vec3.x hq
    have h2 := congrArg Vec3.y hq
    have h3 := congrArg Vec3.z hq
    rw [hpk] at h1 h2 h3
    simp at h1 h2 h3
    have hk1 : k - 1 ≠ 0 := by linarith
    ext
    · exact (mul_eq_zero.1 (by linarith : (k - 1) * e.x = 0)).resolve_left hk1
    · exact (mul_eq_zero.1 (by linarith : (k - 1) * e.y = 0)).resolve_left hk1
    · exact (mul_eq_zero.1 (by linarith : (k - 1) * e.z = 0)).resolve_left hk1
  · have lq := Vec3.length_pos hq
    rw [orOne_pos lq.ne', orOne_pos le.ne', cos_angle_unit hq he]
    obtain ⟨-, a0, a1⟩ := C37_angle (p + e) e hq he
    have hiff : 1 + cos (angleBetween (p + e) e) = 0 ↔ angleBetween (p + e) e = π := by
      constructor
      · intro h
        have : cos (angleBetween (p + e) e) = cos π := by rw [cos_pi]; linarith
        exact injOn_cos ⟨a0, a1⟩ ⟨pi_pos.le, le_rfl⟩ this
      · intro h; rw [h, cos_pi]; ring
    rw [hiff, (C37_extremes (p + e) e hq he).2]
    constructor
    · intro h
      refine ⟨1 + (p + e).length / e.length, ?_, ?_⟩
      · have : 0 < (p + e).length / e.length := by positivity
        linarith
      · have h1 := congrArg Vec3.x h
        have h2 := congrArg Vec3.y h
        have h3 := congrArg Vec3.z h
        simp at h1 h2 h3
        ext
        · simp; field_simp; linarith
        · simp; field_simp; linarith
        · simp; field_simp; linarith
    · rintro ⟨k, hk, hpk⟩
      have hlen : (p + e).length = (k - 1) * e.length := by
        rw [show p + e = (k - 1) • (-e) by rw [hpk]; ext <;> simp <;> ring,
          Vec3.length_smul_of_nonneg (by linarith), Vec3.length_neg]
      rw [hlen, hpk]
      ext <;> simp <;> ring

/-- A source two astronomical units away that is seen at a right angle to the Sun, from one astronomical unit: the deflection is computed. -/
example : ∃ p e d : Vec3, p ≠ 0 ∧ p + e ≠ 0 ∧ computeDeflection p e 1 = some d ∧ |cos (angleBetween e p)| ≤ 0.99999999999 := by
  have hp : (⟨0, 2, 0⟩ : Vec3) ≠ 0 := fun h => by have := congrArg Vec3.y h; simp at this
  have hq : (⟨0, 2, 0⟩ : Vec3) + ⟨1, 0, 0⟩ ≠ 0 := fun h => by have := congrArg Vec3.x h; simp at this
  have he : (⟨1, 0, 0⟩ : Vec3) ≠ 0 := fun h => by have := congrArg Vec3.x h; simp at this
  have hd : computeDeflection ⟨0, 2, 0⟩ ⟨1, 0, 0⟩ 1 ≠ none := by
    rw [Ne, C43_deflection_nan _ _ _ hp]
    rintro (h | ⟨k, -, h⟩)
    · exact he h
    · have := congrArg Vec3.y h; simp at this
  obtain ⟨d, hd⟩ := Option.ne_none_iff_exists'.1 hd
  refine ⟨_, _, d, hp, hq, hd, ?_⟩
  have : angleBetween (⟨1, 0, 0⟩ : Vec3) ⟨0, 2, 0⟩ = π / 2 := by
    rw [C37_arccos _ _ he hp]
    simp [Vec3.dot]
  rw [this, cos_pi_div_two]
  norm_num

/-- A consequence (finding): an observer at the center of the Sun gets no apparent position of anything. -/
theorem C43_observer_at_deflector (tiny : ℝ) (masses : ℕ → Option ℝ) (eph : ℕ → Option (ℝ → Vec3)) (sun : Vec3) (m : ℝ)
    (hm : masses 10 = some m) (hs : eph 10 = some fun _ => sun) (t lt : ℝ) (v : Vec3) (o : Option Vec3) (ds : List ℕ)
    (target : Vec3) :
    apparentPosition tiny masses eph t sun v o lt (10 :: ds) target = .nan := by
  unfold apparentPosition applyDeflectors applyDeflector
  simp only [hm]
  norm_num
  simp only [hs]
  have h0 : computeDeflection target (deflectorPosition tiny t sun target (fun _ => sun) (target.length / cAuDay)) m = none := by
    have : deflectorPosition tiny t sun target (fun _ => sun) (target.length / cAuDay) = 0 := by
      unfold deflectorPosition
      ext <;> simp
    rw [this]
    unfold computeDeflection
    simp [Vec3.length_zero]
  simp only [h0]

/-! ### When the light passed the deflector -/

theorem clip_mem {x lo hi : ℝ} (h : lo ≤ hi) : lo ≤ clip x lo hi ∧ clip x lo hi ≤ hi :=
  ⟨le_min (le_max_right _ _) h, min_le_right _ _⟩

/-- **C43.** The deflecting body is placed where it was at the moment between emission and arrival when the light was
closest to it (taking the body to stand still at its position at arrival for that purpose). -/
theorem C43_closest_approach (position body : Vec3) (hp : position ≠ 0) :
    let travel := position.length / cAuDay
    let s := clip (lightTimeDifference 0 position body) 0 travel
    0 ≤ s ∧ s ≤ travel ∧
    ∀ r, 0 ≤ r → r ≤ travel →
      (pointAt position (cAuDay * s) - body).length ≤ (pointAt position (cAuDay * r) - body).length := by
  have hc := cAuDay_pos
  have lp := Vec3.length_pos hp
  have htr : 0 ≤ position.length / cAuDay := by positivity
  simp only
  obtain ⟨m0, m1⟩ := clip_mem (x := lightTimeDifference 0 position body) htr
  refine ⟨m0, m1, fun r r0 r1 => ?_⟩
  refine (sq_le_sq₀ (Vec3.length_nonneg _) (Vec3.length_nonneg _)).1 ?_
  rw [dist_sq_pointAt _ _ hp, dist_sq_pointAt _ _ hp]
  have hB : position.dot body / position.length = cAuDay * lightTimeDifference 0 position body := by
    unfold lightTimeDifference
    simp only [add_zero, Vec3.smul_dot]
    field_simp
  rw [hB]
  set b := lightTimeDifference 0 position body
  have key : (clip b 0 (position.length / cAuDay) - r) * (clip b 0 (position.length / cAuDay) + r - 2 * b) ≤ 0 := by
    unfold clip
    rcases le_total b 0 with h | h
    · rw [max_eq_right h, min_eq_left htr]; nlinarith
    · rw [max_eq_left h]
      rcases le_total b (position.length / cAuDay) with h2 | h2
      · rw [min_eq_left h2]; nlinarith [sq_nonneg (b - r)]
      · rw [min_eq_right h2]; nlinarith
  have hc2 : 0 < cAuDay ^ 2 := by positivity
  nlinarith [mul_nonpos_of_nonneg_of_nonpos hc2.le key]

/-! ### Apparent positions -/

theorem length_add_perp {p d : Vec3} (h : d.dot p = 0) : p.length ≤ (p + d).length := by
  refine (sq_le_sq₀ (Vec3.length_nonneg _) (Vec3.length_nonneg _)).1 ?_
  rw [Vec3.length_sq, Vec3.length_sq, Vec3.add_dot, Vec3.dot_add, Vec3.dot_add, Vec3.dot_comm p d, h]
  have := Vec3.dot_self_nonneg d
  linarith

/-- What the deflectors do: a sequence of perpendicular shifts. -/
inductive Shifts : Vec3 → Vec3 → Prop
  | refl (p : Vec3) : Shifts p p
  | step {p q d : Vec3} : Shifts p q → d.dot q = 0 → Shifts p (q + d)

theorem Shifts.trans {p q r : Vec3} (h1 : Shifts p q) (h2 : Shifts q r) : Shifts p r := by
  induction h2 with
  | refl => exact h1
  | step _ hd ih => exact .step ih hd

theorem Shifts.length_le {p q : Vec3} (h : Shifts p q) : p.length ≤ q.length := by
  induction h with
  | refl => exact le_rfl
  | step _ hd ih => exact ih.trans (length_add_perp hd)

theorem applyDeflector_shift {tiny m e t o tlt code p q} (h : applyDeflector tiny m e t o tlt code p = .ok q) :
    Shifts p q := by
  unfold applyDeflector at h
  split at h
  · cases h
  · simp only at h
    split at h
    · cases h
    · split at h
      · cases h
      · rename_i d hd
        cases h
        exact .step (.refl p) (C43_deflection_perpendicular hd)

theorem applyDeflectors_shift {tiny m e t o tlt codes p q} (h : applyDeflectors tiny m e t o tlt codes p = .ok q) :
    Shifts p q := by
  induction codes generalizing p with
  | nil => unfold applyDeflectors at h; cases h; exact .refl _
  | cons code rest ih =>
    unfold applyDeflectors at h
    split at h
    · rename_i r hr
      exact (applyDeflector_shift hr).trans (ih h)
    · rename_i hne
      exact absurd h (hne q)

theorem applyEarth_shift {o p q} (h : applyEarth o p = .ok q) : Shifts p q := by
  unfold applyEarth at h
  split at h
  · cases h; exact .refl p
  · split at h
    · cases h
    · cases h; exact .refl p
    · rename_i d _ nadir hd _
      split at h
      · cases h; exact .step (.refl p) (C43_deflection_perpendicular hd)
      · cases h; exact .refl p

/-- **C43.** An apparent position is the astrometric position after perpendicular shifts only, then aberrated. -/
theorem C43_apparent {tiny masses eph t observer v o lt ds target r}
    (h : apparentPosition tiny masses eph t observer v o lt ds target = .ok r) :
    ∃ p, Shifts target p ∧ target.length ≤ p.length ∧ r = addAberration tiny p v lt := by
  unfold apparentPosition at h
  simp only at h
  split at h
  · rename_i p hp
    split at h
    · rename_i p' hp'
      cases h
      have := (applyDeflectors_shift hp).trans (applyEarth_shift hp')
      exact ⟨p', this, this.length_le, rfl⟩
    · rename_i hne
      exact absurd h (hne r)
  · rename_i hne
    exact absurd h (hne r)

/-- **C43.** An observer at rest far from every mass (no deflectors asked for, not on the Earth) sees the astrometric position. -/
theorem C43_apparent_at_rest (tiny : ℝ) (masses : ℕ → Option ℝ) (eph : ℕ → Option (ℝ → Vec3)) (t lt : ℝ)
    (observer target : Vec3) :
    apparentPosition tiny masses eph t observer 0 none lt [] target = .ok target := by
  unfold apparentPosition applyDeflectors applyEarth
  simp only [C43_aberration_zero]

/-- Specification: the ephemeris can place the deflector, by its own code or, for a planet code ending in 99, by its system's
barycenter. -/
def HasDeflector (eph : ℕ → Option (ℝ → Vec3)) (code : ℕ) : Prop :=
  (eph code).isSome = true ∨ (code % 100 = 99 ∧ (eph (code / 100)).isSome = true)

/-- **C43.** The position is refused with `ValueError` only for a deflector that the ephemeris lacks; and if every deflector
asked for has a known mass and is in the ephemeris there is no exception. -/
theorem C43_apparent_exceptions {tiny masses eph t observer v o lt ds target}
    (hm : ∀ c ∈ ds, (masses c).isSome = true) :
    (∀ c, apparentPosition tiny masses eph t observer v o lt ds target = .valueError c →
      ∃ c' ∈ ds, ¬ HasDeflector eph c') ∧
    ((∀ c ∈ ds, HasDeflector eph c) →
      (∃ r, apparentPosition tiny masses eph t observer v o lt ds target = .ok r) ∨
      apparentPosition tiny masses eph t observer v o lt ds target = .nan) := by
  have one : ∀ c p tlt, (masses c).isSome = true → HasDeflector eph c →
      (∃ r, applyDeflector tiny masses eph t observer tlt c p = .ok r) ∨
      applyDeflector tiny masses eph t observer tlt c p = .nan := by
    intro c p tlt hc hd
    obtain ⟨m, hm⟩ := Option.isSome_iff_exists.1 hc
    unfold applyDeflector
    simp only [hm]
    have : ∃ d, eph (if c % 100 = 99 ∧ (eph c).isNone = true then c / 100 else c) = some d := by
      by_cases hn : (eph c).isNone = true
      · rcases hd with h | ⟨h1, h2⟩
        · rw [Option.isNone_iff_eq_none] at hn; rw [hn] at h; cases h
        · rw [if_pos ⟨h1, hn⟩]; exact Option.isSome_iff_exists.1 h2
      · rw [if_neg (fun h => hn h.2)]
        exact Option.ne_none_iff_exists'.1 (fun h => hn (by rw [h]; rfl))
    obtain ⟨d, hd⟩ := this
    simp only [hd]
    split
    · right; rfl
    · left; exact ⟨_, rfl⟩
  have one' : ∀ c p tlt k, (masses c).isSome = true →
      (applyDeflector tiny masses eph t observer tlt c p = .valueError k → ¬ HasDeflector eph c) ∧
      applyDeflector tiny masses eph t observer tlt c p ≠ .keyError k := by
    intro c p tlt k hc
    constructor
    · intro h hd
      rcases one c p tlt hc hd with ⟨r, hr⟩ | hr <;> rw [hr] at h <;> cases h
    · obtain ⟨m, hm⟩ := Option.isSome_iff_exists.1 hc
      unfold applyDeflector
      simp only [hm]
      split
      · intro h; cases h
      · split <;> intro h <;> cases h
  have many : ∀ ds p tlt, (∀ c ∈ ds, (masses c).isSome = true) →
      (∀ k, applyDeflectors tiny masses eph t observer tlt ds p = .valueError k → ∃ c' ∈ ds, ¬ HasDeflector eph c') ∧
      ((∀ c ∈ ds, HasDeflector eph c) → (∃ r, applyDeflectors tiny masses eph t observer tlt ds p = .ok r) ∨
        applyDeflectors tiny masses eph t observer tlt ds p = .nan) := by
    intro ds
    induction ds with
    | nil =>
      intro p tlt _
      unfold applyDeflectors
      exact ⟨(by intro k h; cases h), fun _ => Or.inl ⟨p, rfl⟩⟩
    | cons c rest ih =>
      intro p tlt hm
      have hc := hm c (by simp)
      have ih' := fun p => ih p tlt (fun c hc => hm c (by simp [hc]))
      unfold applyDeflectors
      constructor
      · intro k h
        split at h
        · obtain ⟨c', hc', hn⟩ := (ih' _).1 k h
          exact ⟨c', by simp [hc'], hn⟩
        · exact ⟨c, by simp, (one' c p tlt k hc).1 h⟩
      · intro hd
        rcases one c p tlt hc (hd c (by simp)) with ⟨r, hr⟩ | hr
        · simp only [hr]
          exact (ih' r).2 (fun c hc => hd c (by simp [hc]))
        · simp only [hr]; right; trivial
  have earth : ∀ p, (∃ r, applyEarth o p = .ok r) ∨ applyEarth o p = .nan := by
    intro p
    unfold applyEarth
    split
    · exact Or.inl ⟨_, rfl⟩
    · split
      · right; rfl
      · exact Or.inl ⟨_, rfl⟩
      · split <;> exact Or.inl ⟨_, rfl⟩
  have hM := many ds target (target.length / cAuDay) hm
  unfold apparentPosition
  simp only
  constructor
  · intro c h
    split at h
    · rename_i p hp
      rcases earth p with ⟨r, hr⟩ | hr
      · simp only [hr] at h; cases h
      · simp only [hr] at h; cases h
    · exact hM.1 c h
  · intro hd
    rcases hM.2 hd with ⟨p, hp⟩ | hp
    · simp only [hp]
      rcases earth p with ⟨r, hr⟩ | hr
      · simp only [hr]; exact Or.inl ⟨_, rfl⟩
      · simp only [hr]; right; trivial
    · simp only [hp]; right; trivial

end Skyfield
