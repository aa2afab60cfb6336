import Verif.Spec.LitDisc
import Verif.Props.Almanac
import Mathlib.Analysis.SpecialFunctions.Integrals.Basic
import Mathlib.LinearAlgebra.Matrix.NonsingularInverse
import Mathlib.Tactic.LinearCombination

/-
C46: the illuminated fraction is the lit share of the area of the disc.
-/
namespace Skyfield
open Real Spec MeasureTheory

/-- Lit or not, at one point of the disc, with the Sun's direction resolved along and across the line of sight. -/
theorem lit_iff {k m x y z w : ℝ} (hk : 0 ≤ k) (hkm : k ^ 2 + m ^ 2 = 1) (hz : 0 < z) (hw : 0 < w)
    (hx : x ^ 2 + z ^ 2 = w ^ 2) : 0 < x * k + z * m ↔ -m * w < x := by
  clear y
  rcases le_or_gt 0 m with hm | hm
  · rcases le_or_gt 0 x with h0 | h0
    · rcases hm.eq_or_lt with hm0 | hm0
      · have hk1 : k = 1 := by nlinarith
        rw [← hm0, hk1]; simp
      · exact ⟨fun _ => by nlinarith, fun _ => by nlinarith [mul_nonneg h0 hk, mul_pos hz hm0]⟩
    · constructor
      · intro h
        have h1 : -x * k < z * m := by linarith
        have h2 : (-x * k) ^ 2 < (z * m) ^ 2 := pow_lt_pow_left₀ h1 (by nlinarith) two_ne_zero
        have h3 : (-x) ^ 2 < (m * w) ^ 2 := by nlinarith
        have := lt_of_pow_lt_pow_left₀ 2 (by positivity) h3
        linarith
      · intro h
        have h1 : -x < m * w := by linarith
        have h2 : (-x) ^ 2 < (m * w) ^ 2 := pow_lt_pow_left₀ h1 (by linarith) two_ne_zero
        have h3 : (-x * k) ^ 2 < (z * m) ^ 2 := by nlinarith
        have := lt_of_pow_lt_pow_left₀ 2 (by positivity) h3
        linarith
  · rcases le_or_gt 0 x with h0 | h0
    · constructor
      · intro h
        have h1 : z * -m < x * k := by linarith
        have h2 : (z * -m) ^ 2 < (x * k) ^ 2 := pow_lt_pow_left₀ h1 (by nlinarith) two_ne_zero
        have h3 : (-m * w) ^ 2 < x ^ 2 := by nlinarith
        exact lt_of_pow_lt_pow_left₀ 2 h0 h3
      · intro h
        have h2 : (-m * w) ^ 2 < x ^ 2 := pow_lt_pow_left₀ h (by nlinarith) two_ne_zero
        have h3 : (z * -m) ^ 2 < (x * k) ^ 2 := by nlinarith
        have := lt_of_pow_lt_pow_left₀ 2 (by positivity) h3
        linarith
    · constructor
      · intro h; nlinarith [mul_pos hz (neg_pos.2 hm), mul_nonneg (neg_pos.2 h0).le hk]
      · intro h; nlinarith [mul_pos hw (neg_pos.2 hm)]

/-- The area between a half-ellipse and a half-circle. -/
theorem area_between {m : ℝ} (hm : -1 ≤ m) :
    volume (regionBetween (fun y : ℝ => -m * √(1 - y ^ 2)) (fun y => √(1 - y ^ 2)) (Set.Ioc (-1) 1)) =
      ENNReal.ofReal ((1 + m) * (π / 2)) := by
  have hc : Continuous fun y : ℝ => √(1 - y ^ 2) := by fun_prop
  have hi : IntegrableOn (fun y : ℝ => √(1 - y ^ 2)) (Set.Ioc (-1) 1) :=
    (hc.integrableOn_Icc).mono_set Set.Ioc_subset_Icc_self
  rw [Measure.volume_eq_prod, volume_regionBetween_eq_integral (hi.const_mul (-m)) hi measurableSet_Ioc
    (fun y _ => by nlinarith [sqrt_nonneg (1 - y ^ 2)])]
  congr 1
  rw [← integral_sqrt_one_sub_sq, ← intervalIntegral.integral_const_mul, intervalIntegral.integral_of_le (by norm_num)]
  refine setIntegral_congr_fun measurableSet_Ioc fun y _ => ?_
  simp only [Pi.sub_apply]
  ring

/-- The squares of the components along three perpendicular directions add up to the square of the length. -/
theorem axes_squares {a b n : Vec3} (h : DiscAxes a b n) (d : Vec3) :
    d.dot d = a.dot d ^ 2 + b.dot d ^ 2 + n.dot d ^ 2 := by
  have h1 := h.aa; have h2 := h.bb; have h3 := h.nn; have h4 := h.ab; have h5 := h.an; have h6 := h.bn
  simp only [Vec3.dot] at h1 h2 h3 h4 h5 h6 ⊢
  let M : Matrix (Fin 3) (Fin 3) ℝ := !![a.x, a.y, a.z; b.x, b.y, b.z; n.x, n.y, n.z]
  have hM : M * M.transpose = 1 := by
    ext i j
    fin_cases i <;> fin_cases j <;> simp [M, Matrix.mul_apply, Fin.sum_univ_three] <;> linarith
  have hM' := mul_eq_one_comm.1 hM
  have e : ∀ i j, (M.transpose * M) i j = (1 : Matrix (Fin 3) (Fin 3) ℝ) i j := fun i j => by rw [hM']
  have x1 := e 0 0; have x2 := e 1 1; have x3 := e 2 2; have x4 := e 0 1; have x5 := e 0 2; have x6 := e 1 2
  simp [M, Matrix.mul_apply, Fin.sum_univ_three] at x1 x2 x3 x4 x5 x6
  linear_combination -d.x ^ 2 * x1 - d.y ^ 2 * x2 - d.z ^ 2 * x3 - 2 * d.x * d.y * x4 - 2 * d.x * d.z * x5 - 2 * d.y * d.z * x6

/-- **C46.** The illuminated fraction is the share of the disc's area that the Sun lights.  Take the target as a sphere with
its middle at `p`, looked at along the direction to the observer at `c` and lit along the direction to the Sun at `s`; let
`n` be the direction to the observer and `a`, `b` two directions across the line of sight, `a` on the Sun's side and `b`
perpendicular to the Sun's direction.  Then the area of the part of the disc whose points have the Sun above their horizon is
the reported fraction of the area of the whole disc. -/
theorem C46_lit_area (c p s a b n : Vec3) (ho : p ≠ c) (hs : p ≠ s) (hax : DiscAxes a b n)
    (hn : c - p = (c - p).length • n) (hb : b.dot (s - p) = 0) (ha : 0 ≤ a.dot (s - p)) :
    (volume (litDisc a b n (s - p))).toReal = fractionIlluminated (p - c) s c * (volume disc).toReal ∧
    (volume disc).toReal = π := by
  obtain ⟨hcos, -, -⟩ := C46_phase_angle c p s ho hs
  have lc : 0 < (c - p).length := Vec3.length_pos fun h => ho (by
    ext <;> [have := congrArg Vec3.x h; have := congrArg Vec3.y h; have := congrArg Vec3.z h] <;> simp at this <;> linarith)
  have ls : 0 < (s - p).length := Vec3.length_pos fun h => hs (by
    ext <;> [have := congrArg Vec3.x h; have := congrArg Vec3.y h; have := congrArg Vec3.z h] <;> simp at this <;> linarith)
  set S := (s - p).length with hS
  set d := s - p with hd
  obtain ⟨m, hm⟩ : ∃ m, m = cos (phaseAngle (p - c) s c) := ⟨_, rfl⟩
  have hnm : n.dot d = S * m := by
    rw [hm, hcos]
    conv_rhs => rw [show (c - p).dot d = (c - p).length * n.dot d by conv_lhs => rw [hn]; rw [Vec3.smul_dot]]
    field_simp
  obtain ⟨k, hk⟩ : ∃ k, k = a.dot d / S := ⟨_, rfl⟩
  have hak : a.dot d = S * k := by rw [hk]; field_simp
  have hk0 : 0 ≤ k := by rw [hk]; positivity
  have hkm : k ^ 2 + m ^ 2 = 1 := by
    -- the three directions span space, so the squares of the components add up
    have key := axes_squares hax d
    rw [hak, hb, hnm, ← Vec3.length_sq, ← hS] at key
    have : S ^ 2 * (k ^ 2 + m ^ 2) = S ^ 2 * 1 := by linear_combination -key
    exact mul_left_cancel₀ (by positivity) this
  have hm1 : -1 ≤ m := by nlinarith
  have hm2 : m ≤ 1 := by nlinarith
  have hdisc : ∀ y x : ℝ, y ^ 2 + x ^ 2 < 1 ↔ y ∈ Set.Ioc (-1 : ℝ) 1 ∧ -√(1 - y ^ 2) < x ∧ x < √(1 - y ^ 2) := by
    intro y x
    constructor
    · intro h
      have hx : |x| < √(1 - y ^ 2) := by rw [← sqrt_sq_eq_abs]; exact sqrt_lt_sqrt (sq_nonneg _) (by linarith)
      exact ⟨⟨by nlinarith, by nlinarith⟩, (abs_lt.1 hx).1, (abs_lt.1 hx).2⟩
    · rintro ⟨-, h1, h2⟩
      have h3 : |x| < √(1 - y ^ 2) := abs_lt.2 ⟨h1, h2⟩
      rw [lt_sqrt (abs_nonneg _), sq_abs] at h3
      linarith
  have e1 : disc = regionBetween (fun y : ℝ => -1 * √(1 - y ^ 2)) (fun y => √(1 - y ^ 2)) (Set.Ioc (-1) 1) := by
    ext ⟨y, x⟩
    simp only [disc, regionBetween, Set.mem_setOf_eq, Set.mem_Ioo, hdisc, neg_one_mul]
  have e2 : litDisc a b n d = regionBetween (fun y : ℝ => -m * √(1 - y ^ 2)) (fun y => √(1 - y ^ 2)) (Set.Ioc (-1) 1) := by
    ext ⟨y, x⟩
    simp only [litDisc, disc, regionBetween, Set.mem_setOf_eq, Set.mem_Ioo]
    have hdot : (surfacePoint a b n (y, x)).dot d = S * (x * k + √(1 - y ^ 2 - x ^ 2) * m) := by
      unfold surfacePoint
      simp only [Vec3.add_dot, Vec3.smul_dot, hak, hnm, hb]; ring
    have hpos : ∀ t : ℝ, 0 < S * t ↔ 0 < t := fun t => by constructor <;> intro h <;> [exact (mul_pos_iff_of_pos_left ls).1 h; positivity]
    rw [hdot, hpos]
    have main : y ^ 2 + x ^ 2 < 1 → (0 < x * k + √(1 - y ^ 2 - x ^ 2) * m ↔ -m * √(1 - y ^ 2) < x) := by
      intro h
      refine lit_iff (y := y) hk0 hkm (sqrt_pos.2 (by linarith)) (sqrt_pos.2 (by nlinarith)) ?_
      rw [sq_sqrt (by linarith), sq_sqrt (by nlinarith)]; ring
    constructor
    · rintro ⟨h1, h2⟩
      obtain ⟨g1, -, g3⟩ := (hdisc y x).1 h1
      exact ⟨g1, (main h1).1 h2, g3⟩
    · rintro ⟨g1, g2, g3⟩
      have hle : -√(1 - y ^ 2) ≤ -m * √(1 - y ^ 2) := by nlinarith [sqrt_nonneg (1 - y ^ 2)]
      have h1 := (hdisc y x).2 ⟨g1, lt_of_le_of_lt hle g2, g3⟩
      exact ⟨h1, (main h1).2 g2⟩
  have hv : (volume disc).toReal = π := by
    rw [e1, area_between (by norm_num), ENNReal.toReal_ofReal (by positivity)]; ring
  refine ⟨?_, hv⟩
  rw [hv, e2, area_between hm1, ENNReal.toReal_ofReal (mul_nonneg (by linarith) (by positivity))]
  unfold fractionIlluminated
  rw [← hm]; ring

/-- Non-vacuity of `C46_lit_area`: seen from the origin, a body on the x axis with the Sun off to one side. -/
example : let c : Vec3 := ⟨0, 0, 0⟩
    let p : Vec3 := ⟨1, 0, 0⟩
    let s : Vec3 := ⟨3, 5, 0⟩
    p ≠ c ∧ p ≠ s ∧ DiscAxes ⟨0, 1, 0⟩ ⟨0, 0, 1⟩ ⟨-1, 0, 0⟩ ∧ c - p = (c - p).length • ⟨-1, 0, 0⟩ ∧
      (⟨0, 0, 1⟩ : Vec3).dot (s - p) = 0 ∧ 0 ≤ (⟨0, 1, 0⟩ : Vec3).dot (s - p) := by
  refine ⟨fun h => ?_, fun h => ?_, ⟨?_, ?_, ?_, ?_, ?_, ?_⟩, ?_, ?_, ?_⟩ <;> try norm_num [Vec3.dot]
  · have := congrArg Vec3.x h; norm_num at this
  · have := congrArg Vec3.y h; norm_num at this
  · ext <;> simp [Vec3.length]

end Skyfield
