import Verif.Props.Relativity
import Verif.Spec.EarthSize

/-
C43, continued: which body, where, and when — the place given to a deflecting body, the Earth's limb, and when the
Earth's own deflection is applied.
-/
namespace Skyfield
open Real Spec

/-- **C43.** The vector used for a deflecting body runs to the observer from the place where the body was `s` days before
the observation, `s` being the moment within the light's journey when the light (aimed back along the line of sight) was
closest to where the body is at the time of observation. -/
theorem C43_deflector_place (t : ℝ) (observer position : Vec3) (deflector : ℝ → Vec3) (hp : position ≠ 0) :
    ∃ s, 0 ≤ s ∧ s ≤ position.length / cAuDay ∧
      deflectorPosition 0 t observer position deflector (position.length / cAuDay) = observer - deflector (t - s) ∧
      ∀ r, 0 ≤ r → r ≤ position.length / cAuDay →
        (observer + pointAt position (cAuDay * s) - deflector t).length ≤
          (observer + pointAt position (cAuDay * r) - deflector t).length := by
  obtain ⟨h1, h2, h3⟩ := C43_closest_approach position (deflector t - observer) hp
  refine ⟨_, h1, h2, rfl, fun r r0 r1 => ?_⟩
  have e : ∀ x : Vec3, observer + x - deflector t = x - (deflector t - observer) := by
    intro x; ext <;> simp <;> ring
  rw [e, e]
  exact h3 r r0 r1

example : (⟨1, 0, 0⟩ : Vec3) ≠ 0 := by intro h; have := congrArg Vec3.x h; simp at this

theorem vec_length_ne {v : Vec3} (h : v ≠ 0) : v.length ≠ 0 := (Vec3.length_pos h).ne'

theorem neg_ne_zero' {v : Vec3} (h : v ≠ 0) : -v ≠ 0 := by
  intro hc
  apply h
  have : v = -(-v) := by ext <;> simp
  rw [this, hc]
  ext <;> simp

/-- The zenith distance is the supplement of the angle from the nadir. -/
theorem arccos_supplement (p o : Vec3) (hp : p ≠ 0) (ho : o ≠ 0) :
    π - arccos (p.dot o / (p.length * o.length)) = angleBetween p (-o) := by
  rw [C37_arccos p (-o) hp (neg_ne_zero' ho), Vec3.length_neg, Vec3.dot_neg, neg_div, arccos_neg]

theorem earthRadiusAu_eq : earthRadiusAu = equatorAu := by
  unfold earthRadiusAu erad auM equatorAu
  norm_num

/-- **C43 (limb).** For an observer at `o` from the Earth's center, not below its radius, and an object in the direction
`p`: the first angle is the object's angle from the nadir less the apparent radius of the Earth, and the second is their
quotient. -/
theorem C43_limb_angles (p o : Vec3) (hp : p ≠ 0) (ho : equatorAu ≤ o.length) :
    let nadir := angleBetween p (-o)
    let radius := arcsin (equatorAu / o.length)
    computeLimbAngle p o = some (nadir - radius, nadir / radius) ∧ 0 < radius ∧ radius ≤ π / 2 := by
  have R0 : 0 < equatorAu := by unfold equatorAu; norm_num
  have o0 : 0 < o.length := by linarith
  have hne : o ≠ 0 := by rintro rfl; rw [Vec3.length_zero] at o0; exact lt_irrefl _ o0
  have hq0 : 0 < equatorAu / o.length := by positivity
  have hq1 : equatorAu / o.length ≤ 1 := by rw [div_le_one o0]; exact ho
  simp only
  refine ⟨?_, arcsin_pos.2 hq0, arcsin_le_pi_div_two _⟩
  have e1 : √(p.dot p) = p.length := (Vec3.length_eq p).symm
  have e2 : √(o.dot o) = o.length := (Vec3.length_eq o).symm
  unfold computeLimbAngle
  simp only [e1, e2, earthRadiusAu_eq, min_eq_left hq1]
  rw [if_neg (mul_ne_zero (vec_length_ne hp) o0.ne')]
  have hc : clip (p.dot o / (p.length * o.length)) (-1) 1 = p.dot o / (p.length * o.length) := by
    have h := (C37_angle p o hp hne).1
    rw [← h]
    unfold clip
    rw [max_eq_left (neg_one_le_cos _), min_eq_left (cos_le_one _)]
  rw [hc, ← arccos_supplement p o hp hne]
  congr 2
  ring

/-- The distance from the Earth's center along the line of sight. -/
theorem sight_sq (p o : Vec3) (hp : p ≠ 0) (ho : o ≠ 0) (s : ℝ) :
    (o + s • p).length ^ 2 = o.length ^ 2 - 2 * s * p.length * o.length * cos (angleBetween p (-o)) + s ^ 2 * p.length ^ 2 := by
  have h := (C37_angle p (-o) hp (neg_ne_zero' ho)).1
  have lp := Vec3.length_pos hp
  have lo := Vec3.length_pos ho
  rw [Vec3.length_neg, Vec3.dot_neg] at h
  have h' : p.dot o = -(p.length * o.length * cos (angleBetween p (-o))) := by
    rw [h]; field_simp
  have e : (o + s • p).length ^ 2 = o.dot o + 2 * s * p.dot o + s ^ 2 * p.dot p := by
    rw [sq, Vec3.length_mul_self]; simp only [Vec3.dot, Vec3.add_x, Vec3.add_y, Vec3.add_z, Vec3.smul_x, Vec3.smul_y, Vec3.smul_z]; ring
  rw [e, h', ← Vec3.length_mul_self o, ← Vec3.length_mul_self p]
  ring

/-- **C43 (limb).** The first angle is not negative exactly when the line of sight, from the observer onwards, never comes
nearer to the Earth's center than the Earth's radius. -/
theorem C43_limb_meaning (p o : Vec3) (hp : p ≠ 0) (ho : equatorAu ≤ o.length) (limb nadir : ℝ)
    (h : computeLimbAngle p o = some (limb, nadir)) :
    0 ≤ limb ↔ ∀ s : ℝ, 0 ≤ s → equatorAu ≤ (o + s • p).length := by
  obtain ⟨h1, h2, h3⟩ := C43_limb_angles p o hp ho
  rw [h, Option.some.injEq, Prod.mk.injEq] at h1
  rw [h1.1]
  have R0 : 0 < equatorAu := by unfold equatorAu; norm_num
  have o0 : 0 < o.length := by linarith
  have hne : o ≠ 0 := by rintro rfl; rw [Vec3.length_zero] at o0; exact lt_irrefl _ o0
  have lp := Vec3.length_pos hp
  obtain ⟨-, a0, a1⟩ := C37_angle p (-o) hp (neg_ne_zero' hne)
  have hs := sight_sq p o hp hne
  have hsr : sin (arcsin (equatorAu / o.length)) = equatorAu / o.length :=
    sin_arcsin (by have : 0 < equatorAu / o.length := by positivity
                   linarith) (by rw [div_le_one o0]; exact ho)
  set θ := angleBetween p (-o) with hθ
  set α := arcsin (equatorAu / o.length) with hα
  have hR : equatorAu = o.length * sin α := by rw [hsr]; field_simp
  rw [sub_nonneg]
  constructor
  · intro hle s s0
    refine (sq_le_sq₀ R0.le (Vec3.length_nonneg _)).1 ?_
    rw [hs s]
    rcases le_total (π / 2) θ with hc | hc
    · have : cos θ ≤ 0 := cos_nonpos_of_pi_div_two_le_of_le hc (by linarith [pi_pos])
      have h4 : 0 ≤ s * p.length * o.length := by positivity
      nlinarith [mul_nonneg h4 (neg_nonneg.2 this), sq_nonneg (s * p.length)]
    · have h4 : sin α ≤ sin θ := sin_le_sin_of_le_of_le_pi_div_two (by linarith [pi_pos]) hc hle
      have h5 : 0 < sin α := sin_pos_of_pos_of_lt_pi h2 (by linarith [pi_pos])
      have h6 : equatorAu ^ 2 ≤ o.length ^ 2 * sin θ ^ 2 := by
        rw [hR, mul_pow]; gcongr
      have h7 := sin_sq_add_cos_sq θ
      have h8 : o.length ^ 2 * sin θ ^ 2 = o.length ^ 2 - o.length ^ 2 * cos θ ^ 2 := by
        have : sin θ ^ 2 = 1 - cos θ ^ 2 := by linarith
        rw [this]; ring
      nlinarith [sq_nonneg (s * p.length - o.length * cos θ)]
  · intro hall
    by_contra hlt
    push Not at hlt
    have hc : 0 < cos θ := cos_pos_of_mem_Ioo ⟨by linarith [pi_pos], by linarith⟩
    have h4 : sin θ < sin α := sin_lt_sin_of_lt_of_le_pi_div_two (by linarith [pi_pos]) h3 hlt
    have h5 : 0 ≤ sin θ := sin_nonneg_of_nonneg_of_le_pi a0 a1
    have h6 := hall (o.length * cos θ / p.length) (by positivity)
    have h7 := (sq_le_sq₀ R0.le (Vec3.length_nonneg _)).2 h6
    rw [hs] at h7
    have e : o.length ^ 2 - 2 * (o.length * cos θ / p.length) * p.length * o.length * cos θ +
        (o.length * cos θ / p.length) ^ 2 * p.length ^ 2 = o.length ^ 2 * sin θ ^ 2 := by
      rw [sin_sq]; field_simp; ring
    rw [e, hR, mul_pow] at h7
    have h8 : sin α ^ 2 ≤ sin θ ^ 2 := le_of_mul_le_mul_left h7 (by positivity)
    nlinarith

/-- **C43 (the Earth's own deflection).** It is applied, as computed for the Earth's mass, to objects at least four fifths
of the Earth's apparent radius away from the nadir, and to no others. -/
theorem C43_earth_deflection (p o : Vec3) (hp : p ≠ 0) (ho : equatorAu ≤ o.length) (d : Vec3)
    (hd : computeDeflection p o 332946.050895 = some d) :
    (4 / 5 * arcsin (equatorAu / o.length) ≤ angleBetween p (-o) → applyEarth (some o) p = .ok (p + d)) ∧
    (angleBetween p (-o) < 4 / 5 * arcsin (equatorAu / o.length) → applyEarth (some o) p = .ok p) := by
  obtain ⟨h1, h2, -⟩ := C43_limb_angles p o hp ho
  unfold applyEarth
  simp only [hd, h1]
  constructor
  · intro h
    rw [if_pos]
    rw [le_div_iff₀ h2]; norm_num at h ⊢; linarith
  · intro h
    rw [if_neg]
    rw [not_le, div_lt_iff₀ h2]; norm_num at h ⊢; linarith

/-- … and an observer at the Earth's center, or one with no known place on the Earth, gets none. -/
theorem C43_no_earth_deflection (p : Vec3) : applyEarth none p = .ok p := rfl

/-- The hypotheses hold for an observer on the equator looking straight up, and for one looking level. -/
example : let o : Vec3 := ⟨equatorAu, 0, 0⟩
    (⟨0, 1, 0⟩ : Vec3) ≠ 0 ∧ equatorAu ≤ o.length ∧
    ∃ d, computeDeflection ⟨0, 1, 0⟩ o 332946.050895 = some d := by
  have R0 : 0 < equatorAu := by unfold equatorAu; norm_num
  have hp : (⟨0, 1, 0⟩ : Vec3) ≠ 0 := by intro h; have := congrArg Vec3.y h; simp at this
  simp only
  have hl : (⟨equatorAu, 0, 0⟩ : Vec3).length = equatorAu := by
    simp [Vec3.length, Real.sqrt_mul_self R0.le]
  refine ⟨hp, hl.ge, ?_⟩
  cases h : computeDeflection ⟨0, 1, 0⟩ ⟨equatorAu, 0, 0⟩ 332946.050895 with
  | some d => exact ⟨d, rfl⟩
  | none =>
    rcases (C43_deflection_nan _ _ _ hp).1 h with h | ⟨k, hk, h⟩
    · have := congrArg Vec3.x h; simp at this; exact absurd this R0.ne'
    · have := congrArg Vec3.y h; simp at this

end Skyfield
