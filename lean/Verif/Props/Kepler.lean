import Verif.Model.Kepler
import Verif.Lemmas.Linear
import Verif.Lemmas.Angles
import Mathlib.Analysis.SpecialFunctions.Trigonometric.Bounds
import Mathlib.Analysis.SpecialFunctions.Trigonometric.DerivHyp
import Mathlib.Tactic.NormNum

/-
C44: orbital elements give the orbit they describe.  C58: mean anomaly to position on the orbit.
-/
namespace Skyfield
open Real

namespace Vec3
theorem cross_add (u v w : Vec3) : u.cross (v + w) = u.cross v + u.cross w := by
  ext <;> simp [cross] <;> ring
theorem add_cross (u v w : Vec3) : (u + v).cross w = u.cross w + v.cross w := by
  ext <;> simp [cross] <;> ring
theorem cross_smul (k : ℝ) (u v : Vec3) : u.cross (k • v) = k • u.cross v := by
  ext <;> simp [cross] <;> ring
theorem smul_cross (k : ℝ) (u v : Vec3) : (k • u).cross v = k • u.cross v := by
  ext <;> simp [cross] <;> ring
theorem cross_self (u : Vec3) : u.cross u = 0 := by
  ext <;> simp [cross] <;> ring
end Vec3

/-! ### Specification: the orbital plane -/

/-- The direction of the ascending node. -/
noncomputable def nodeDir (Om : ℝ) : Vec3 := ⟨cos Om, sin Om, 0⟩

/-- The direction in the orbital plane a quarter turn ahead of the ascending node. -/
noncomputable def aheadDir (Om i : ℝ) : Vec3 := ⟨-(sin Om * cos i), cos Om * cos i, sin i⟩

/-- The direction in the orbital plane at the angle `u` from the ascending node. -/
noncomputable def planeDir (Om i u : ℝ) : Vec3 := cos u • nodeDir Om + sin u • aheadDir Om i

/-- The pole of the orbit: inclined by `i` to the z axis, with the node at longitude `Om`. -/
noncomputable def poleDir (Om i : ℝ) : Vec3 := ⟨sin Om * sin i, -(cos Om * sin i), cos i⟩

theorem planeDir_unit (Om i u : ℝ) : (planeDir Om i u).dot (planeDir Om i u) = 1 := by
  have h1 := sin_sq_add_cos_sq Om
  have h2 := sin_sq_add_cos_sq i
  have h3 := sin_sq_add_cos_sq u
  simp only [planeDir, nodeDir, aheadDir, Vec3.dot, Vec3.add_x, Vec3.add_y, Vec3.add_z, Vec3.smul_x, Vec3.smul_y, Vec3.smul_z]
  grind

/-- The direction at `u` and the one a quarter turn ahead are perpendicular, and their cross product is the pole. -/
theorem planeDir_cross (Om i u : ℝ) : (planeDir Om i u).cross (planeDir Om i (u + π / 2)) = poleDir Om i := by
  have h1 := sin_sq_add_cos_sq Om
  have h2 := sin_sq_add_cos_sq i
  have h3 := sin_sq_add_cos_sq u
  have e1 : cos (u + π / 2) = -sin u := cos_add_pi_div_two u
  have e2 : sin (u + π / 2) = cos u := sin_add_pi_div_two u
  ext
  all_goals
    simp only [planeDir, nodeDir, aheadDir, poleDir, Vec3.cross, Vec3.add_x, Vec3.add_y, Vec3.add_z, Vec3.smul_x,
      Vec3.smul_y, Vec3.smul_z, e1, e2]
    grind

theorem planeDir_dot (Om i u : ℝ) : (planeDir Om i u).dot (planeDir Om i (u + π / 2)) = 0 := by
  have h1 := sin_sq_add_cos_sq Om
  have h2 := sin_sq_add_cos_sq i
  have e1 : cos (u + π / 2) = -sin u := cos_add_pi_div_two u
  have e2 : sin (u + π / 2) = cos u := sin_add_pi_div_two u
  simp only [planeDir, nodeDir, aheadDir, Vec3.dot, Vec3.add_x, Vec3.add_y, Vec3.add_z, Vec3.smul_x, Vec3.smul_y,
    Vec3.smul_z, e1, e2]
  grind

theorem planeDir_cross_pole (Om i u : ℝ) : (planeDir Om i u).cross (poleDir Om i) = -planeDir Om i (u + π / 2) := by
  have h1 := sin_sq_add_cos_sq Om
  have h2 := sin_sq_add_cos_sq i
  have e1 : cos (u + π / 2) = -sin u := cos_add_pi_div_two u
  have e2 : sin (u + π / 2) = cos u := sin_add_pi_div_two u
  ext
  all_goals
    simp only [planeDir, nodeDir, aheadDir, poleDir, Vec3.cross, Vec3.add_x, Vec3.add_y, Vec3.add_z, Vec3.smul_x,
      Vec3.smul_y, Vec3.smul_z, e1, e2, Vec3.neg_x, Vec3.neg_y, Vec3.neg_z]
    grind

theorem planeDir_half (Om i u : ℝ) : planeDir Om i (u + π / 2 + π / 2) = -planeDir Om i u := by
  have e1 : cos (u + π / 2 + π / 2) = -cos u := by rw [cos_add_pi_div_two, sin_add_pi_div_two]
  have e2 : sin (u + π / 2 + π / 2) = -sin u := by rw [sin_add_pi_div_two, cos_add_pi_div_two]
  ext <;> simp only [planeDir, Vec3.add_x, Vec3.add_y, Vec3.add_z, Vec3.smul_x, Vec3.smul_y, Vec3.smul_z, e1, e2,
    Vec3.neg_x, Vec3.neg_y, Vec3.neg_z] <;> ring

theorem planeDir_back (Om i u v : ℝ) :
    cos v • planeDir Om i (v + u) + -(sin v) • planeDir Om i (v + u + π / 2) = planeDir Om i u := by
  have e1 : cos (v + u + π / 2) = -sin (v + u) := cos_add_pi_div_two _
  have e2 : sin (v + u + π / 2) = cos (v + u) := sin_add_pi_div_two _
  have h1 : cos v * cos (v + u) + sin v * sin (v + u) = cos u := by
    rw [← cos_sub]; rw [← cos_neg]; congr 1; ring
  have h2 : cos v * sin (v + u) - sin v * cos (v + u) = sin u := by
    have := sin_sub (v + u) v
    rw [show v + u - v = u by ring] at this
    linarith
  ext
  all_goals
    simp only [planeDir, nodeDir, aheadDir, Vec3.add_x, Vec3.add_y, Vec3.add_z, Vec3.smul_x, Vec3.smul_y, Vec3.smul_z, e1, e2]
    rw [← h1, ← h2]
    ring

theorem eleToVec_form {p e i Om w v mu : ℝ} {r vel : Vec3} (hp : 0 < p) (hd : 1 + e * cos v ≠ 0)
    (h : eleToVec p e i Om w v mu = .state r vel) :
    r = (p / (1 + e * cos v)) • planeDir Om i (v + w) ∧
    vel = (√(p * mu) * e * sin v / p) • planeDir Om i (v + w) +
      (√(p * mu) * (1 + e * cos v) / p) • planeDir Om i (v + w + π / 2) := by
  have e1 : cos (v + w + π / 2) = -sin (v + w) := cos_add_pi_div_two _
  have e2 : sin (v + w + π / 2) = cos (v + w) := sin_add_pi_div_two _
  unfold eleToVec at h
  split at h
  · cases h
  · split at h
    · cases h
    · simp only [EleResult.state.injEq] at h
      obtain ⟨h1, h2⟩ := h
      subst h1 h2
      constructor
      · ext <;> simp only [planeDir, nodeDir, aheadDir, Vec3.add_x, Vec3.add_y, Vec3.add_z, Vec3.smul_x, Vec3.smul_y,
          Vec3.smul_z] <;> ring
      · ext <;> simp only [planeDir, nodeDir, aheadDir, Vec3.add_x, Vec3.add_y, Vec3.add_z, Vec3.smul_x, Vec3.smul_y,
          Vec3.smul_z, e1, e2] <;> field_simp <;> ring

section
variable {p e i Om w v mu : ℝ} {r vel : Vec3} (hp : 0 < p) (hmu : 0 < mu) (hd : 0 < 1 + e * cos v)
  (h : eleToVec p e i Om w v mu = .state r vel)
include hp hd h

/-- **C44.** Position: at the distance p/(1 + e cos v), in the direction at argument of latitude v + w in the plane of the
elements; so it is on the conic, at angle v from periapsis. -/
theorem C44_position : r = r.length • planeDir Om i (v + w) ∧ r.length = p / (1 + e * cos v) := by
  have hr := (eleToVec_form hp hd.ne' h).1
  have hlen : r.length = p / (1 + e * cos v) := by
    rw [hr, Vec3.length_smul_of_nonneg (by positivity), Vec3.length_eq, planeDir_unit, Real.sqrt_one, mul_one]
  exact ⟨by rw [hlen]; exact hr, hlen⟩

include hmu

/-- **C44.** Angular momentum: of size √(mu p), along the pole of the plane with the given inclination and node. -/
theorem C44_angular_momentum : r.cross vel = √(mu * p) • poleDir Om i := by
  obtain ⟨hr, hv⟩ := eleToVec_form hp hd.ne' h
  rw [hr, hv, Vec3.cross_add]
  simp only [Vec3.smul_cross, Vec3.cross_smul, planeDir_cross, Vec3.cross_self, mul_comm mu p]
  ext <;> simp <;> field_simp

/-- **C44.** Orbital energy. -/
theorem C44_energy : vel.dot vel / 2 - mu / r.length = mu * (e ^ 2 - 1) / (2 * p) := by
  obtain ⟨hr, hv⟩ := eleToVec_form hp hd.ne' h
  have hlen := (C44_position hp hd h).2
  have hs : √(p * mu) * √(p * mu) = p * mu := Real.mul_self_sqrt (by positivity)
  have h3 := sin_sq_add_cos_sq v
  have u1 := planeDir_unit Om i (v + w)
  have u2 := planeDir_unit Om i (v + w + π / 2)
  have u3 := planeDir_dot Om i (v + w)
  have u4 := u3
  rw [Vec3.dot_comm] at u4
  rw [hlen, hv]
  simp only [Vec3.add_dot, Vec3.dot_add, Vec3.smul_dot, Vec3.dot_smul, u1, u2, u3, u4]
  generalize √(p * mu) = S at *
  have hS : S ^ 2 = p * mu := by rw [sq]; exact hs
  field_simp
  rw [hS]
  field_simp
  linear_combination e ^ 2 * h3

/-- **C44.** Shape and orientation: the eccentricity vector has length e and points to periapsis, at the angle w from the
node. -/
theorem C44_eccentricity_vector :
    (1 / mu) • vel.cross (r.cross vel) - (1 / r.length) • r = e • planeDir Om i w := by
  have hL := C44_angular_momentum hp hmu hd h
  obtain ⟨hr, hv⟩ := eleToVec_form hp hd.ne' h
  obtain ⟨h1, hlen⟩ := C44_position hp hd h
  have hs : √(p * mu) * √(p * mu) = p * mu := Real.mul_self_sqrt (by positivity)
  have hrl : 0 < r.length := by rw [hlen]; positivity
  have hn : (1 / r.length) • r = planeDir Om i (v + w) := by
    have hx := congrArg Vec3.x h1
    have hy := congrArg Vec3.y h1
    have hz := congrArg Vec3.z h1
    simp only [Vec3.smul_x, Vec3.smul_y, Vec3.smul_z] at hx hy hz
    ext
    · rw [Vec3.smul_x, hx]; field_simp
    · rw [Vec3.smul_y, hy]; field_simp
    · rw [Vec3.smul_z, hz]; field_simp
  rw [hn, hL, hv, mul_comm mu p, ← planeDir_back Om i w v]
  simp only [Vec3.add_cross, Vec3.smul_cross, Vec3.cross_smul, planeDir_cross_pole, planeDir_half]
  set N := planeDir Om i (v + w)
  set T := planeDir Om i (v + w + π / 2)
  generalize √(p * mu) = S at *
  have e1 : 1 / mu * (S * e * sin v / p * S) = e * sin v := by
    rw [show 1 / mu * (S * e * sin v / p * S) = 1 / mu * ((S * S) * e * sin v / p) by ring, hs]; field_simp
  have e2 : 1 / mu * (S * (1 + e * cos v) / p * S) = 1 + e * cos v := by
    rw [show 1 / mu * (S * (1 + e * cos v) / p * S) = 1 / mu * ((S * S) * (1 + e * cos v) / p) by ring, hs]; field_simp
  ext
  · simp only [Vec3.sub_x, Vec3.smul_x, Vec3.add_x, Vec3.neg_x]
    linear_combination N.x * e2 - T.x * e1
  · simp only [Vec3.sub_y, Vec3.smul_y, Vec3.add_y, Vec3.neg_y]
    linear_combination N.y * e2 - T.y * e1
  · simp only [Vec3.sub_z, Vec3.smul_z, Vec3.add_z, Vec3.neg_z]
    linear_combination N.z * e2 - T.z * e1

end

/-- **C44.** Which elements are accepted: every inclination from 0 to a half turn, and for hyperbolas every true anomaly up
to the asymptote. -/
theorem C44_accepted (p e i Om w v mu : ℝ) :
    (∃ r vel, eleToVec p e i Om w v mu = .state r vel) ↔ 0 ≤ i ∧ i ≤ π ∧ (e ≤ 1 ∨ v ≤ arccos (-1 / e)) := by
  unfold eleToVec
  split
  · rename_i hh
    constructor
    · rintro ⟨_, _, h⟩; cases h
    · rintro ⟨-, -, h | h⟩ <;> linarith [hh.1, hh.2]
  · rename_i hh
    split
    · rename_i hi
      constructor
      · rintro ⟨_, _, h⟩; cases h
      · rintro ⟨h0, h1, -⟩; exact absurd ⟨h0, h1⟩ hi
    · rename_i hi
      push Not at hi hh
      refine ⟨fun _ => ⟨hi.1, hi.2, ?_⟩, fun _ => ⟨_, _, rfl⟩⟩
      by_cases he : e > 1
      · exact Or.inr (hh he)
      · exact Or.inl (not_lt.1 he)

/-- Non-vacuity: an ellipse and a hyperbola. -/
example : (0 : ℝ) < 1 + 0.5 * cos 0 ∧ (∃ r vel, eleToVec 1 0.5 1 2 3 0 1 = .state r vel) ∧
    (0 : ℝ) < 1 + 2 * cos 0 ∧ ∃ r vel, eleToVec 1 2 1 2 3 0 1 = .state r vel := by
  have := pi_gt_three
  refine ⟨by rw [cos_zero]; norm_num, (C44_accepted ..).2 ⟨by norm_num, by linarith, Or.inl (by norm_num)⟩,
    by rw [cos_zero]; norm_num, (C44_accepted ..).2 ⟨by norm_num, by linarith, Or.inr (arccos_nonneg _)⟩⟩

/-- **C44 (limitation).** A hyperbola has no points beyond either asymptote, but only one side is refused: a true anomaly
beyond the other asymptote gives a position, on the side of the focus opposite to the direction it asks for. -/
theorem C44_unchecked_side : ∃ e v : ℝ, 1 < e ∧ v < -arccos (-1 / e) ∧ 1 + e * cos v < 0 ∧
    ∃ r vel, eleToVec 1 e 1 0 0 v 1 = .state r vel ∧ r = (-r.length) • planeDir 0 1 v := by
  have hpi := pi_gt_three
  have hd : (1 : ℝ) + 2 * cos (-π) = -1 := by rw [cos_neg, cos_pi]; norm_num
  have hac : arccos (-1 / 2) < π := by
    refine lt_of_le_of_ne (arccos_le_pi _) fun h => ?_
    rw [arccos_eq_pi] at h; norm_num at h
  obtain ⟨r, vel, h⟩ := (C44_accepted 1 2 1 0 0 (-π) 1).2 ⟨by norm_num, by linarith, Or.inr (by
    have := arccos_nonneg (-1 / 2); linarith)⟩
  refine ⟨2, -π, by norm_num, by linarith, by rw [hd]; norm_num, r, vel, h, ?_⟩
  have hr := (eleToVec_form one_pos (by rw [hd]; norm_num) h).1
  rw [hd, add_zero] at hr
  have hlen : r.length = 1 := by
    rw [hr, Vec3.length_smul, Vec3.length_eq, planeDir_unit]; norm_num
  rw [hlen]
  conv_lhs => rw [hr]
  norm_num

/-! ### C58: mean anomaly -/

theorem sin_step (E d : ℝ) (hd : |d| ≤ 1) : |sin E - sin (E - d) - d * cos E| ≤ d ^ 2 := by
  have h1 : sin E - sin (E - d) - d * cos E = sin E * (1 - cos d) + cos E * (sin d - d) := by rw [sin_sub]; ring
  have h2 := one_sub_sq_div_two_le_cos (x := d)
  have h3 := cos_le_one d
  have h4 : |sin d - d| ≤ |d| ^ 3 / 6 := by
    rcases lt_trichotomy d 0 with h | h | h
    · have a := sin_gt_sub_cube (x := -d) (by linarith)
      have b := sin_lt (x := -d) (by linarith)
      rw [sin_neg] at a b
      rw [abs_of_neg h, abs_of_pos (by linarith)]
      linarith
    · subst h; simp
    · have a := sin_gt_sub_cube h
      have b := sin_lt h
      rw [abs_of_pos h, abs_of_neg (by linarith)]
      linarith
  rw [h1]
  refine (abs_add_le _ _).trans ?_
  rw [abs_mul, abs_mul]
  have h5 := abs_sin_le_one E
  have h6 := abs_cos_le_one E
  have h7 : |1 - cos d| ≤ d ^ 2 / 2 := by rw [abs_of_nonneg (by linarith)]; linarith
  have h8 : |d| ^ 3 ≤ d ^ 2 := by
    rw [← sq_abs d, pow_succ]
    have := abs_nonneg d
    nlinarith [sq_nonneg |d|]
  have h9 := abs_nonneg (1 - cos d)
  have h10 := abs_nonneg (sin d - d)
  nlinarith [abs_nonneg (sin E), abs_nonneg (cos E)]

/-- One accepted step leaves next to nothing of Kepler's equation unsatisfied. -/
theorem eccentricLoop_residual {e M : ℝ} (he0 : 0 ≤ e) (he1 : e ≤ 1 - 1e-10) :
    ∀ n E E', eccentricLoop e M n E = some E' → |E' - e * sin E' - M| ≤ 1e-16 := by
  intro n
  induction n with
  | zero => intro E E' h; cases h
  | succ n ih =>
    intro E E' h
    unfold eccentricLoop at h
    simp only at h
    split at h
    · cases h
    · rename_i hden
      split at h
      · rename_i hd
        cases h
        set f1 := 1 - e * cos E with hf1
        set f2 := e * sin E with hf2
        set f := E - f2 - M with hf
        set d := f * f1 / (f1 * f1 - 1 / 2 * f * f2) with hdd
        have b1 : 1e-10 ≤ f1 := by
          have := cos_le_one E
          have := neg_one_le_cos E
          rw [hf1]; nlinarith
        have b2 : f1 ≤ 2 := by
          have := neg_one_le_cos E
          rw [hf1]; norm_num at he1; nlinarith
        have b3 : |f2| ≤ 1 := by
          rw [hf2, abs_mul, abs_of_nonneg he0]
          have := abs_sin_le_one E
          norm_num at he1
          nlinarith [abs_nonneg (sin E)]
        have hd1 : |d| < 1e-14 := hd
        have key : d * (f1 * f1 - 1 / 2 * f * f2) = f * f1 := by rw [hdd]; exact div_mul_cancel₀ _ hden
        -- f = d (f1 - f f2 / (2 f1)), so f is about d f1
        have hf1p : 0 < f1 := lt_of_lt_of_le (by norm_num) b1
        have fb : |f| ≤ 2.001 * |d| := by
          have e1 : f * (f1 + 1 / 2 * d * f2) = d * f1 * f1 := by linear_combination -key
          have h2 : |1 / 2 * d * f2| ≤ 1e-4 * f1 * (1/2) := by
            rw [abs_mul, abs_mul]
            have : |d| * |f2| ≤ 1e-14 := by
              have := mul_le_mul hd1.le b3 (abs_nonneg _) (by norm_num)
              linarith
            have : |(1 / 2 : ℝ)| = 1 / 2 := by norm_num
            rw [this]
            norm_num at *
            linarith
          have h3 : f1 * 0.99995 ≤ |f1 + 1 / 2 * d * f2| := by
            have := (abs_le.1 h2).1
            refine le_trans ?_ (le_abs_self _)
            norm_num at *
            linarith
          have h4 : |f| * |f1 + 1 / 2 * d * f2| = |d| * f1 * f1 := by
            rw [← abs_mul, e1, abs_mul, abs_mul, abs_of_pos hf1p]
          have h5 : |f| * (f1 * 0.99995) ≤ |d| * f1 * f1 := by
            rw [← h4]; exact mul_le_mul_of_nonneg_left h3 (abs_nonneg _)
          have h6 : f1 * (|f| * 0.99995) ≤ f1 * (|d| * f1) := by linarith
          have h7 := le_of_mul_le_mul_left h6 hf1p
          have h8 : |d| * f1 ≤ |d| * 2 := mul_le_mul_of_nonneg_left b2 (abs_nonneg _)
          norm_num at *
          have := abs_nonneg f
          linarith
        have lin : |f - d * f1| ≤ 1e-17 := by
          have e1 : (f - d * f1) * f1 = -(1 / 2 * d * f * f2) := by linear_combination -key
          have h2 : |f - d * f1| * f1 ≤ 1.0005 * (|d| * |d|) := by
            rw [← abs_of_pos hf1p, ← abs_mul, abs_of_pos hf1p, e1, abs_neg, abs_mul, abs_mul, abs_mul]
            have h3 : |(1 / 2 : ℝ)| = 1 / 2 := by norm_num
            rw [h3]
            have h4 : |d| * |f| ≤ |d| * (2.001 * |d|) := mul_le_mul_of_nonneg_left fb (abs_nonneg _)
            have h5 : 0 ≤ |d| * |f| := by positivity
            have h6 : |d| * |f| * |f2| ≤ |d| * |f| := mul_le_of_le_one_right h5 b3
            linarith
          have h7 : |d| * |d| ≤ 1e-14 * 1e-14 := mul_le_mul hd1.le hd1.le (abs_nonneg _) (by norm_num)
          have h8 : |f - d * f1| * 1e-10 ≤ |f - d * f1| * f1 := mul_le_mul_of_nonneg_left b1 (abs_nonneg _)
          linarith
        have hs := sin_step E d (by norm_num at hd1 ⊢; linarith)
        have e2 : E - d - e * sin (E - d) - M = (f - d * f1) + e * (sin E - sin (E - d) - d * cos E) := by
          rw [hf, hf1, hf2]; ring
        change |E - d - e * sin (E - d) - M| ≤ 1e-16
        rw [e2]
        refine (abs_add_le _ _).trans ?_
        rw [abs_mul, abs_of_nonneg he0]
        have h9 : d ^ 2 ≤ 1e-28 := by
          rw [← sq_abs, sq]
          have := mul_le_mul hd1.le hd1.le (abs_nonneg _) (by norm_num)
          norm_num at this ⊢; linarith
        have h10 : e * |sin E - sin (E - d) - d * cos E| ≤ 1e-28 := by
          have := abs_nonneg (sin E - sin (E - d) - d * cos E)
          norm_num at he1
          nlinarith
        norm_num at *
        linarith
      · exact ih _ _ h

theorem normpi_mem (M : ℝ) : -π ≤ normpi M ∧ normpi M < π ∧ ∃ k : ℤ, M = normpi M + k * (2 * π) := by
  unfold normpi
  refine ⟨?_, ?_, ?_⟩
  · have := pyMod_nonneg' (M + π) tau_pos; linarith
  · have := pyMod_lt' (M + π) tau_pos
    have e : tau = 2 * π := rfl
    linarith
  · obtain ⟨n, hn⟩ := pyMod_eq_sub' (M + π) tau
    refine ⟨n, ?_⟩
    have e : tau = 2 * π := rfl
    rw [hn, e]; ring

/-- **C58.** Kepler's equation: for an ellipse, an eccentric anomaly E that is returned satisfies E - e sin E = M to within
1e-16, where M is the mean anomaly brought into [-half turn, half turn). -/
theorem C58_kepler_equation (e M E : ℝ) (he0 : 0 ≤ e) (he1 : e ≤ 1 - 1e-10) (h : eccentricAnomaly e M = some E) :
    ∃ M', -π ≤ M' ∧ M' < π ∧ (∃ k : ℤ, M = M' + k * (2 * π)) ∧ |E - e * sin E - M'| ≤ 1e-16 := by
  obtain ⟨m0, m1, mk⟩ := normpi_mem M
  refine ⟨normpi M, m0, m1, mk, ?_⟩
  unfold eccentricAnomaly at h
  simp only at h
  split at h
  · cases h
  · split at h
    · cases h
    · rw [Option.map_eq_some_iff] at h
      obtain ⟨E', hE, rfl⟩ := h
      have hr := eccentricLoop_residual he0 he1 _ _ _ hE
      rcases lt_trichotomy (normpi M) 0 with hs | hs | hs
      · rw [sign_neg hs] at hr ⊢
        simp only [SignType.coe_neg, SignType.coe_one, mul_neg, mul_one] at hr ⊢
        rw [sin_neg]
        rw [show -E' - e * -sin E' - normpi M = -(E' - e * sin E' - -normpi M) by ring, abs_neg]
        exact hr
      · rw [hs, sign_zero]
        simp only [SignType.coe_zero, mul_zero, sin_zero, sub_zero, abs_zero]
        norm_num
      · rw [sign_pos hs] at hr ⊢
        simp only [SignType.coe_one, mul_one] at hr ⊢
        exact hr

/-- **C58.** So it is within 1e-16/(1 - e) of the true solution. -/
theorem C58_eccentric_anomaly_accuracy (e M E : ℝ) (he0 : 0 ≤ e) (he1 : e ≤ 1 - 1e-10) (h : eccentricAnomaly e M = some E) :
    ∃ k : ℤ, ∀ Etrue : ℝ, Etrue - e * sin Etrue = M - k * (2 * π) → |E - Etrue| ≤ 1e-16 / (1 - e) := by
  obtain ⟨M', -, -, ⟨k, hk⟩, hr⟩ := C58_kepler_equation e M E he0 he1 h
  refine ⟨k, fun E2 h2 => ?_⟩
  have he : 0 < 1 - e := by norm_num at he1; linarith
  rw [le_div_iff₀ he]
  have hs : |sin E - sin E2| ≤ |E - E2| := by
    rw [sin_sub_sin, abs_mul, abs_mul]
    have h1 : |sin ((E - E2) / 2)| ≤ |(E - E2) / 2| := abs_sin_le_abs
    have h2 := abs_cos_le_one ((E + E2) / 2)
    have h4 : |(2 : ℝ)| = 2 := by norm_num
    rw [h4]
    rw [abs_div, abs_of_pos (by norm_num : (0 : ℝ) < 2)] at h1
    nlinarith [abs_nonneg (sin ((E - E2) / 2)), abs_nonneg (cos ((E + E2) / 2))]
  have e1 : E - E2 = (E - e * sin E - M') + e * (sin E - sin E2) := by linarith
  have h3 : |E - E2| ≤ 1e-16 + e * |E - E2| := by
    calc |E - E2| = |(E - e * sin E - M') + e * (sin E - sin E2)| := by rw [← e1]
      _ ≤ |E - e * sin E - M'| + |e * (sin E - sin E2)| := abs_add_le _ _
      _ ≤ 1e-16 + e * |E - E2| := by
        rw [abs_mul, abs_of_nonneg he0]
        exact add_le_add hr (mul_le_mul_of_nonneg_left hs he0)
  linarith

/-- **C58.** True anomaly of an ellipse from the eccentric anomaly: the point at true anomaly v has the coordinates
a (cos E - e) along and a √(1 - e²) sin E across the major axis, and the distance a (1 - e cos E). -/
theorem C58_true_anomaly (a e E : ℝ) (he0 : 0 ≤ e) (he1 : e < 1) (hE : cos (E / 2) ≠ 0) :
    let v := trueAnomalyClosed e E
    let r := a * (1 - e ^ 2) / (1 + e * cos v)
    r * cos v = a * (cos E - e) ∧ r * sin v = a * √(1 - e ^ 2) * sin E ∧ r = a * (1 - e * cos E) := by
  have hq : 0 < (1 + e) / (1 - e) := div_pos (by linarith) (by linarith)
  set k := √((1 + e) / (1 - e)) with hk
  have hk0 : 0 < k := Real.sqrt_pos.2 hq
  have hkk : k * k * (1 - e) = 1 + e := by
    rw [hk, Real.mul_self_sqrt hq.le]
    have : (1 - e) ≠ 0 := by linarith
    field_simp
  have hcE : cos E = 2 * cos (E / 2) ^ 2 - 1 := by rw [← cos_two_mul]; congr 1; ring
  have hsE : sin E = 2 * sin (E / 2) * cos (E / 2) := by rw [← sin_two_mul]; congr 1; ring
  have h1 := sin_sq_add_cos_sq (E / 2)
  set c := cos (E / 2)
  set s := sin (E / 2)
  have ht : tan (E / 2) = s / c := tan_eq_sin_div_cos _
  -- half of the true anomaly
  set x := k * tan (E / 2) with hx
  have hcv : cos (arctan x) = 1 / √(1 + x ^ 2) := cos_arctan x
  have hsv : sin (arctan x) = x / √(1 + x ^ 2) := sin_arctan x
  have hS : √(1 + x ^ 2) * √(1 + x ^ 2) = 1 + x ^ 2 := Real.mul_self_sqrt (by positivity)
  have hS0 : 0 < √(1 + x ^ 2) := Real.sqrt_pos.2 (by positivity)
  have hv : trueAnomalyClosed e E = 2 * arctan x := rfl
  have hcos : cos (2 * arctan x) = (1 - x ^ 2) / (1 + x ^ 2) := by
    rw [cos_two_mul, hcv, div_pow, sq √_, hS]; field_simp; ring
  have hsin : sin (2 * arctan x) = 2 * x / (1 + x ^ 2) := by
    rw [sin_two_mul, hcv, hsv, show 2 * (x / √(1 + x ^ 2)) * (1 / √(1 + x ^ 2)) = 2 * x / (√(1 + x ^ 2) * √(1 + x ^ 2)) by
      field_simp, hS]
  have hxc : x * c = k * s := by rw [hx, ht]; field_simp
  have hx2 : 0 < 1 + x ^ 2 := by positivity
  have hc2 : 0 < c ^ 2 := by positivity
  have hcE1 : 0 < 1 - e * cos E := by nlinarith [cos_le_one E]
  -- (1 + x²)(1 - e) c² = 1 - e cos E
  have hX : (1 + x ^ 2) * (1 - e) * c ^ 2 = 1 - e * cos E := by
    have : x ^ 2 * c ^ 2 = k * k * s ^ 2 := by
      calc x ^ 2 * c ^ 2 = (x * c) ^ 2 := by ring
        _ = k * k * s ^ 2 := by rw [hxc]; ring
    rw [hcE]
    linear_combination (1 - e) * this + s ^ 2 * hkk + (1 + e) * h1
  have hY : (1 - x ^ 2) * (1 - e) * c ^ 2 = cos E - e := by
    have : x ^ 2 * c ^ 2 = k * k * s ^ 2 := by
      calc x ^ 2 * c ^ 2 = (x * c) ^ 2 := by ring
        _ = k * k * s ^ 2 := by rw [hxc]; ring
    rw [hcE]
    linear_combination (-(1 - e)) * this - s ^ 2 * hkk - (1 + e) * h1
  have hcv2 : cos (2 * arctan x) = (cos E - e) / (1 - e * cos E) := by
    rw [hcos, ← hX, ← hY]
    have : (1 - e) ≠ 0 := by linarith
    field_simp
  have hsq : √(1 - e ^ 2) = k * (1 - e) := by
    rw [Real.sqrt_eq_iff_mul_self_eq (by nlinarith) (mul_nonneg hk0.le (by linarith))]
    first
      | linear_combination (1 - e) * hkk
      | linear_combination (-(1 - e)) * hkk
  have hsv2 : sin (2 * arctan x) = √(1 - e ^ 2) * sin E / (1 - e * cos E) := by
    rw [hsin, ← hX, hsq, hsE]
    have : (1 - e) ≠ 0 := by linarith
    field_simp
    exact hxc
  have hr : a * (1 - e ^ 2) / (1 + e * cos (2 * arctan x)) = a * (1 - e * cos E) := by
    rw [hcv2]
    have : 1 + e * ((cos E - e) / (1 - e * cos E)) = (1 - e ^ 2) / (1 - e * cos E) := by
      field_simp; ring
    have he2 : 1 - e ^ 2 ≠ 0 := by nlinarith
    rw [this]
    field_simp
  simp only [hv]
  rw [hr]
  refine ⟨?_, ?_, rfl⟩
  · rw [hcv2]; field_simp
  · rw [hsv2]; field_simp

/-- Non-vacuity. -/
example : (0 : ℝ) ≤ 0.5 ∧ (0.5 : ℝ) < 1 ∧ cos ((1 : ℝ) / 2) ≠ 0 :=
  ⟨by norm_num, by norm_num, (cos_pos_of_mem_Ioo ⟨by linarith [pi_pos], by linarith [pi_gt_three]⟩).ne'⟩

/-- **C58.** True anomaly of a hyperbola from the eccentric anomaly: the point at true anomaly v has the coordinates
a (e - cosh E) along and a √(e² - 1) sinh E across the axis, and the distance a (e cosh E - 1), where a is the (positive)
distance from the center to the periapsis. -/
theorem C58_hyperbolic_true_anomaly (a e E : ℝ) (he : 1 < e) :
    let v := trueAnomalyHyperbolic e E
    let r := a * (e ^ 2 - 1) / (1 + e * cos v)
    r * cos v = a * (e - cosh E) ∧ r * sin v = a * √(e ^ 2 - 1) * sinh E ∧ r = a * (e * cosh E - 1) := by
  have hq : 0 < (e + 1) / (e - 1) := div_pos (by linarith) (by linarith)
  set k := √((e + 1) / (e - 1)) with hk
  have hk0 : 0 < k := Real.sqrt_pos.2 hq
  have hkk : k * k * (e - 1) = e + 1 := by
    rw [hk, Real.mul_self_sqrt hq.le]
    have : (e - 1) ≠ 0 := by linarith
    field_simp
  have hc0 : 0 < cosh (E / 2) := cosh_pos _
  have hcE : cosh E = 2 * cosh (E / 2) ^ 2 - 1 := by
    have := cosh_two_mul (E / 2)
    have h2 := cosh_sq (E / 2)
    rw [show 2 * (E / 2) = E by ring] at this
    rw [this]; linarith
  have hsE : sinh E = 2 * sinh (E / 2) * cosh (E / 2) := by
    rw [← sinh_two_mul]; congr 1; ring
  have hcs := cosh_sq (E / 2)
  set C := cosh (E / 2) with hC
  set S := sinh (E / 2) with hS
  set x := k * tanh (E / 2) with hx
  have hxC : x * C = k * S := by rw [hx, tanh_eq_sinh_div_cosh, ← hC, ← hS]; field_simp
  have hv : trueAnomalyHyperbolic e E = 2 * arctan x := rfl
  have hx2 : 0 < 1 + x ^ 2 := by positivity
  have hcv : cos (2 * arctan x) = (1 - x ^ 2) / (1 + x ^ 2) := by
    rw [cos_two_mul, cos_sq_arctan]; field_simp; ring
  have hsv : sin (2 * arctan x) = 2 * x / (1 + x ^ 2) := by
    rw [sin_two_mul, sin_arctan, cos_arctan]
    have h0 : √(1 + x ^ 2) ≠ 0 := (Real.sqrt_pos.2 hx2).ne'
    have : 2 * (x / √(1 + x ^ 2)) * (1 / √(1 + x ^ 2)) = 2 * x / (√(1 + x ^ 2) * √(1 + x ^ 2)) := by field_simp
    rw [this, Real.mul_self_sqrt hx2.le]
  have hD : 0 < e * cosh E - 1 := by
    have := one_le_cosh E
    nlinarith
  have h1 : (1 + x ^ 2) * (C ^ 2 * (e - 1)) = e * cosh E - 1 := by
    have : x ^ 2 * C ^ 2 * (e - 1) = (e + 1) * S ^ 2 := by
      rw [← hkk, show x ^ 2 * C ^ 2 = (x * C) ^ 2 by ring, hxC]; ring
    rw [hcE]; nlinarith
  have h2 : (1 - x ^ 2) * (C ^ 2 * (e - 1)) = e - cosh E := by
    have : x ^ 2 * C ^ 2 * (e - 1) = (e + 1) * S ^ 2 := by
      rw [← hkk, show x ^ 2 * C ^ 2 = (x * C) ^ 2 by ring, hxC]; ring
    rw [hcE]; nlinarith
  have hroot : √(e ^ 2 - 1) = k * (e - 1) := by
    rw [show e ^ 2 - 1 = (k * (e - 1)) ^ 2 by rw [mul_pow]; nlinarith, Real.sqrt_sq (mul_nonneg hk0.le (by linarith))]
  have h3 : 2 * x * (C ^ 2 * (e - 1)) = √(e ^ 2 - 1) * sinh E := by
    rw [hroot, hsE, show 2 * x * (C ^ 2 * (e - 1)) = 2 * (x * C) * C * (e - 1) by ring, hxC]; ring
  have hw : C ^ 2 * (e - 1) ≠ 0 := by
    have : 0 < e - 1 := by linarith
    positivity
  have hcv2 : cos (2 * arctan x) = (e - cosh E) / (e * cosh E - 1) := by
    rw [hcv, ← h1, ← h2, mul_div_mul_right _ _ hw]
  have hsv2 : sin (2 * arctan x) = √(e ^ 2 - 1) * sinh E / (e * cosh E - 1) := by
    rw [hsv, ← h1, ← h3, mul_div_mul_right _ _ hw]
  have hden : 1 + e * cos (2 * arctan x) = (e ^ 2 - 1) / (e * cosh E - 1) := by
    rw [hcv2]; field_simp; ring
  have he2 : e ^ 2 - 1 ≠ 0 := by nlinarith
  have hr : a * (e ^ 2 - 1) / (1 + e * cos (2 * arctan x)) = a * (e * cosh E - 1) := by
    rw [hden]; field_simp
  simp only [hv]
  rw [hr]
  refine ⟨?_, ?_, rfl⟩
  · rw [hcv2]; field_simp
  · rw [hsv2]; field_simp

example : (1 : ℝ) < 2 := by norm_num

/-- **C58 (limitation).** No circular orbit can be built from a mean anomaly: the starting guess divides by e. -/
theorem C58_circular_refused (M : ℝ) : eccentricAnomaly 0 M = none := by
  unfold eccentricAnomaly; simp

/-- **C58 (limitation).** For a parabola, the true anomaly must satisfy Barker's equation s + s³/3 = (time since periapsis)
× √(gm/(2 q³)) with s = tan(v/2) and q = p/2; the returned one does not (a square root is missing in the code). -/
theorem C58_parabola_wrong : ∃ p gm M : ℝ, 0 < p ∧ 0 < gm ∧
    let q := p / 2
    let deltaT := √(2 * p ^ 3 / gm) * M
    let s := tan (trueAnomalyParabolic p gm M / 2)
    s + s ^ 3 / 3 ≠ deltaT * √(gm / (2 * q ^ 3)) := by
  -- p = 2, gm = 2: q = 1, the right side is √8·M, and A = 3/2·√8·M
  refine ⟨2, 2, 1 / (3 / 2 * √8), by norm_num, by norm_num, ?_⟩
  have h8 : 0 < √8 := Real.sqrt_pos.2 (by norm_num)
  simp only
  unfold trueAnomalyParabolic
  simp only
  have e1 : (2 : ℝ) * 2 ^ 3 / 2 = 8 := by norm_num
  have e2 : (2 : ℝ) / (2 * (2 / 2) ^ 3) = 1 := by norm_num
  rw [e1, e2, Real.sqrt_one]
  have hA : 3 / 2 * 1 * (√8 * (1 / (3 / 2 * √8))) = 1 := by field_simp
  rw [hA]
  have e3 : √8 * (1 / (3 / 2 * √8)) * 1 = 2 / 3 := by field_simp
  rw [e3]
  rw [mul_div_cancel_left₀ _ (by norm_num : (2 : ℝ) ≠ 0), tan_arctan]
  have e4 : (1 : ℝ) + (1 * 1 + 1) = 3 := by norm_num
  rw [e4]
  set B := (3 : ℝ) ^ (1 / 3 : ℝ) with hB
  have hB0 : 0 < B := by positivity
  have hB3 : B ^ 3 = 3 := by
    rw [hB, ← Real.rpow_natCast, ← Real.rpow_mul (by norm_num)]; norm_num
  intro h
  have h5 : 3 * (B - 1 / B) + (B - 1 / B) ^ 3 = 2 := by linarith
  have h6 : 3 * (B - 1 / B) + (B - 1 / B) ^ 3 = B ^ 3 - 1 / B ^ 3 := by field_simp; ring
  rw [h6, hB3] at h5
  norm_num at h5

/-- **C58 (limitation).** For a hyperbola, the eccentric anomaly must satisfy e sinh E - E = M, but the code solves the
ellipse's equation E - e sin E = M for every eccentricity (see `trueFromMean`); no E other than 0
satisfies both. -/
theorem C58_hyperbola_equation (e E : ℝ) (he : 1 < e) (hE : 0 < E) : E - e * sin E ≠ e * sinh E - E := by
  intro h
  have h1 : E < sinh E := self_lt_sinh_iff.2 hE
  have h2 : -sin E ≤ E := by
    rcases le_or_gt E π with hp | hp
    · have := sin_nonneg_of_nonneg_of_le_pi hE.le hp; linarith
    · have := neg_one_le_sin E; have := pi_gt_three; linarith
  have h3 : 2 * E = e * (sinh E + sin E) := by linarith
  by_cases h4 : 0 ≤ sinh E + sin E
  · -- sinh E + sin E > 2 E
    have key : 2 * E < sinh E + sin E := by
      have a := sin_gt_sub_cube hE
      have b : E + E ^ 3 / 6 ≤ sinh E := by
        have hc : ∀ x : ℝ, 0 ≤ x → x + x ^ 3 / 6 ≤ sinh x := by
          intro x hx
          have mono : MonotoneOn (fun x => sinh x - (x + x ^ 3 / 6)) (Set.Ici 0) := by
            apply monotoneOn_of_deriv_nonneg (convex_Ici 0)
            · fun_prop
            · exact (differentiable_sinh.sub (by fun_prop)).differentiableOn
            · intro y hy
              have hd : HasDerivAt (fun x => sinh x - (x + x ^ 3 / 6)) (cosh y - (1 + y ^ 2 / 2)) y := by
                refine ((hasDerivAt_sinh y).sub ((hasDerivAt_id y).add ((hasDerivAt_pow 3 y).div_const 6))).congr_deriv ?_
                norm_num
                ring
              rw [hd.deriv]
              have hy0 : 0 < y := by simpa using hy
              have h5 : cosh y = 1 + 2 * sinh (y / 2) ^ 2 := by
                have := cosh_two_mul (y / 2)
                rw [show 2 * (y / 2) = y by ring, cosh_sq] at this
                linarith
              have h6 := self_le_sinh_iff.2 (by linarith : 0 ≤ y / 2)
              rw [h5]
              nlinarith
          have := mono (Set.mem_Ici.2 le_rfl) (Set.mem_Ici.2 hx) hx
          simp at this
          linarith
        exact hc E hE.le
      linarith
    nlinarith
  · push Not at h4
    nlinarith

/-! ### Comets -/

/-- **C58.** A comet's orbit has the perihelion distance of its catalogue entry, whichever way it is loaded: the nearest
distance p/(1 + e) is q for ellipses, parabolas and hyperbolas. -/
theorem C58_comet_perihelion (q e : ℝ) (he : 0 ≤ e) :
    cometP q e / (1 + e * cos 0) = q ∧ cometsP q e = cometP q e := by
  have h1 : 1 + e ≠ 0 := by linarith
  unfold cometP cometsP
  rw [cos_zero, mul_one]
  by_cases h : e = 1
  · subst h
    norm_num
    ring
  · have h2 : 1 - e ≠ 0 := fun h3 => h (by linarith)
    simp only [h, if_false, add_zero]
    constructor
    · field_simp; ring
    · field_simp

end Skyfield
