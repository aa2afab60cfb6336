import Verif.Model.Spherical
import Verif.Lemmas.Angles
import Mathlib.Tactic.NormNum
import Mathlib.Analysis.SpecialFunctions.Complex.LogDeriv
import Mathlib.Analysis.SpecialFunctions.Trigonometric.ArctanDeriv
import Mathlib.Analysis.SpecialFunctions.Sqrt
import Mathlib.Analysis.Complex.RealDeriv

/-
C36: spherical coordinates.  C37: angles between vectors.  C57: rates of change of spherical coordinates.
-/
namespace Skyfield
open Real

/-! ### C36 -/

/-- **C36.** Distance, latitude and longitude are in range: the distance is the length (positive for a non-zero vector),
the latitude within a quarter turn and the longitude in [0, one turn). -/
theorem C36_range (v : Vec3) :
    (toSpherical v).1 = v.length ∧ (v ≠ 0 → 0 < (toSpherical v).1) ∧ |(toSpherical v).2.1| ≤ π / 2 ∧
    0 ≤ (toSpherical v).2.2 ∧ (toSpherical v).2.2 < 2 * π := by
  refine ⟨rfl, fun h => Vec3.length_pos h, ?_, ?_, ?_⟩
  · exact arctan2_abs_le _ (hypot_nonneg _ _)
  · exact pyMod_nonneg' _ tau_pos
  · exact pyMod_lt' _ tau_pos

/-- **C36.** Converting a vector to spherical coordinates and back gives the same vector. -/
theorem C36_round_trip (v : Vec3) :
    fromSpherical (toSpherical v).1 (toSpherical v).2.1 (toSpherical v).2.2 = v := by
  have h1 := hypot_mul_cos_arctan2 v.z (hypot v.x v.y)
  have h2 := hypot_mul_sin_arctan2 v.z (hypot v.x v.y)
  rw [hypot_hypot] at h1 h2
  have h3 := hypot_mul_cos_arctan2 v.y v.x
  have h4 := hypot_mul_sin_arctan2 v.y v.x
  have e : (⟨v.x, v.y, v.z⟩ : Vec3) = v := rfl
  rw [e] at h1 h2
  unfold fromSpherical toSpherical
  simp only [cos_pyMod_tau, sin_pyMod_tau, h1, h2, h3, h4]

/-- The coordinates are a direction's usual ones: `x = r cos lat cos lon`, `y = r cos lat sin lon`, `z = r sin lat`. -/
theorem C36_meaning (v : Vec3) :
    v.x = (toSpherical v).1 * cos (toSpherical v).2.1 * cos (toSpherical v).2.2 ∧
    v.y = (toSpherical v).1 * cos (toSpherical v).2.1 * sin (toSpherical v).2.2 ∧
    v.z = (toSpherical v).1 * sin (toSpherical v).2.1 := by
  have h := C36_round_trip v
  unfold fromSpherical at h
  exact ⟨(congrArg Vec3.x h).symm, (congrArg Vec3.y h).symm, (congrArg Vec3.z h).symm⟩

theorem fromSpherical_length {r : ℝ} (hr : 0 ≤ r) (θ φ : ℝ) : (fromSpherical r θ φ).length = r := by
  unfold fromSpherical Vec3.length
  simp only
  rw [show r * cos θ * cos φ * (r * cos θ * cos φ) + r * cos θ * sin φ * (r * cos θ * sin φ) + r * sin θ * (r * sin θ)
    = r * r by
    linear_combination (r * r * cos θ ^ 2) * sin_sq_add_cos_sq φ + (r * r) * sin_sq_add_cos_sq θ]
  exact Real.sqrt_mul_self hr

theorem cos_nonneg_of_abs {θ : ℝ} (h : |θ| ≤ π / 2) : 0 ≤ cos θ := by
  rw [abs_le] at h
  exact cos_nonneg_of_mem_Icc ⟨by linarith, h.2⟩

theorem fromSpherical_hypot {r θ : ℝ} (hr : 0 ≤ r) (h : |θ| ≤ π / 2) (φ : ℝ) :
    hypot (fromSpherical r θ φ).x (fromSpherical r θ φ).y = r * cos θ := by
  unfold fromSpherical
  exact hypot_polar (mul_nonneg hr (cos_nonneg_of_abs h))

theorem toSpherical_lat {r θ : ℝ} (hr : 0 < r) (h : |θ| ≤ π / 2) (φ : ℝ) : (toSpherical (fromSpherical r θ φ)).2.1 = θ := by
  unfold toSpherical
  simp only
  rw [fromSpherical_hypot hr.le h]
  rw [abs_le] at h
  have hpi := pi_pos
  exact arctan2_polar hr (by linarith) (by linarith)

/-- **C36.** Converting in-range coordinates (off the poles) to a vector and back gives the same coordinates. -/
theorem C36_round_trip' (r θ φ : ℝ) (hr : 0 < r) (hθ : |θ| < π / 2) (h0 : 0 ≤ φ) (h1 : φ < 2 * π) :
    toSpherical (fromSpherical r θ φ) = (r, θ, φ) := by
  have hc : 0 < cos θ := by
    rw [abs_lt] at hθ
    exact cos_pos_of_mem_Ioo ⟨by linarith, hθ.2⟩
  have hpi := pi_pos
  refine Prod.ext (fromSpherical_length hr.le θ φ) (Prod.ext (toSpherical_lat hr hθ.le φ) ?_)
  unfold toSpherical fromSpherical
  simp only
  by_cases hφ : φ ≤ π
  · rw [arctan2_polar (mul_pos hr hc) (by linarith) hφ]
    exact pyMod_unique' _ 0 tau_pos h0 h1 (by simp)
  · push Not at hφ
    have e : arctan2 (r * cos θ * sin φ) (r * cos θ * cos φ) = φ - 2 * π := by
      rw [← cos_sub_two_pi φ, ← sin_sub_two_pi φ]
      exact arctan2_polar (mul_pos hr hc) (by linarith) (by linarith)
    rw [e]
    exact pyMod_unique' _ (-1) tau_pos h0 h1 (by unfold tau; push_cast; ring)

/-- **C36.** At the poles the longitude is lost, and given as 0; distance and latitude come back. -/
theorem C36_pole (r φ : ℝ) (hr : 0 < r) :
    toSpherical (fromSpherical r (π / 2) φ) = (r, π / 2, 0) ∧
    toSpherical (fromSpherical r (-(π / 2)) φ) = (r, -(π / 2), 0) := by
  have hpi := pi_pos
  have key : ∀ θ, |θ| ≤ π / 2 → cos θ = 0 → toSpherical (fromSpherical r θ φ) = (r, θ, 0) := by
    intro θ hθ hc
    refine Prod.ext (fromSpherical_length hr.le θ φ) (Prod.ext (toSpherical_lat hr hθ φ) ?_)
    unfold toSpherical fromSpherical
    simp only [hc, mul_zero, zero_mul, arctan2_zero_zero]
    exact pyMod_unique' _ 0 tau_pos le_rfl tau_pos (by simp)
  constructor
  · exact key _ (by rw [abs_of_pos (by linarith)]) cos_pi_div_two
  · exact key _ (by rw [abs_neg, abs_of_pos (by linarith)]) (by rw [cos_neg, cos_pi_div_two])

/-! ### C37 -/

theorem arctan2_of_lengths {p q L : ℝ} (hp : 0 ≤ p) (hq : 0 ≤ q) (h : p * p + q * q = L * L) (hL : 0 < L) :
    cos (2 * arctan2 q p) = (p * p - q * q) / (L * L) ∧ 0 ≤ 2 * arctan2 q p ∧ 2 * arctan2 q p ≤ π := by
  have hh : hypot p q = L := by
    unfold hypot; rw [h]; exact Real.sqrt_mul_self hL.le
  have h1 := hypot_mul_cos_arctan2 q p
  have h2 := hypot_mul_sin_arctan2 q p
  rw [hh] at h1 h2
  refine ⟨?_, ?_, ?_⟩
  · rw [cos_two_mul']
    rw [eq_div_iff (by positivity)]
    linear_combination (L * cos (arctan2 q p) + p) * h1 - (L * sin (arctan2 q p) + q) * h2
  · have := arctan2_nonneg hq p
    linarith
  · have := arctan2_abs_le q hp
    rw [abs_le] at this
    linarith

theorem dot_self_scaled_sub (u v : Vec3) :
    (v.length • u - u.length • v).dot (v.length • u - u.length • v) =
      2 * (u.length * v.length) ^ 2 - 2 * (u.length * v.length) * u.dot v := by
  have h1 := Vec3.length_mul_self u
  have h2 := Vec3.length_mul_self v
  simp only [Vec3.sub_dot, Vec3.dot_sub, Vec3.smul_dot, Vec3.dot_smul, Vec3.dot_comm v u]
  linear_combination (-v.length * v.length) * h1 - (u.length * u.length) * h2

theorem dot_self_scaled_add (u v : Vec3) :
    (v.length • u + u.length • v).dot (v.length • u + u.length • v) =
      2 * (u.length * v.length) ^ 2 + 2 * (u.length * v.length) * u.dot v := by
  have h1 := Vec3.length_mul_self u
  have h2 := Vec3.length_mul_self v
  simp only [Vec3.add_dot, Vec3.dot_add, Vec3.smul_dot, Vec3.dot_smul, Vec3.dot_comm v u]
  linear_combination (-v.length * v.length) * h1 - (u.length * u.length) * h2

/-- **C37.** The separation of two non-zero vectors is the angle between 0 and a half turn whose cosine is their
normalized dot product. -/
theorem C37_angle (u v : Vec3) (hu : u ≠ 0) (hv : v ≠ 0) :
    cos (angleBetween u v) = u.dot v / (u.length * v.length) ∧ 0 ≤ angleBetween u v ∧ angleBetween u v ≤ π := by
  have lu := Vec3.length_pos hu
  have lv := Vec3.length_pos hv
  unfold angleBetween
  simp only
  have e1 : (v.length • u - u.length • v).length * (v.length • u - u.length • v).length =
      2 * (u.length * v.length) ^ 2 - 2 * (u.length * v.length) * u.dot v := by
    rw [Vec3.length_mul_self, dot_self_scaled_sub]
  have e2 : (v.length • u + u.length • v).length * (v.length • u + u.length • v).length =
      2 * (u.length * v.length) ^ 2 + 2 * (u.length * v.length) * u.dot v := by
    rw [Vec3.length_mul_self, dot_self_scaled_add]
  have hL : 0 < 2 * (u.length * v.length) := by positivity
  have := arctan2_of_lengths (Vec3.length_nonneg _) (Vec3.length_nonneg (v.length • u - u.length • v))
    (show (v.length • u + u.length • v).length * (v.length • u + u.length • v).length + _ =
      (2 * (u.length * v.length)) * (2 * (u.length * v.length)) by rw [e1, e2]; ring) hL
  refine ⟨?_, this.2⟩
  rw [this.1, e1, e2]
  field_simp
  ring

/-- **C37.** Hence it is the arc cosine of it. -/
theorem C37_arccos (u v : Vec3) (hu : u ≠ 0) (hv : v ≠ 0) :
    angleBetween u v = arccos (u.dot v / (u.length * v.length)) := by
  obtain ⟨h1, h2, h3⟩ := C37_angle u v hu hv
  rw [← h1, arccos_cos h2 h3]

/-- **C37.** Symmetric. -/
theorem C37_symmetric (u v : Vec3) : angleBetween u v = angleBetween v u := by
  unfold angleBetween
  simp only
  rw [Vec3.length_sub_comm, add_comm]

/-- **C37.** The lengths do not matter. -/
theorem C37_scale (u v : Vec3) (hu : u ≠ 0) (hv : v ≠ 0) (j k : ℝ) (hj : 0 < j) (hk : 0 < k) :
    angleBetween (j • u) (k • v) = angleBetween u v := by
  have hne : ∀ (k : ℝ) (v : Vec3), 0 < k → v ≠ 0 → k • v ≠ 0 := by
    intro k v hk hv h
    apply hv
    have := Vec3.length_smul_of_nonneg hk.le v
    rw [h, Vec3.length_zero] at this
    have lv := Vec3.length_pos hv
    nlinarith
  rw [C37_arccos _ _ (hne j u hj hu) (hne k v hk hv), C37_arccos _ _ hu hv, Vec3.smul_dot, Vec3.dot_smul,
    Vec3.length_smul_of_nonneg hj.le, Vec3.length_smul_of_nonneg hk.le]
  congr 1
  have lu := (Vec3.length_pos hu).ne'
  have lv := (Vec3.length_pos hv).ne'
  field_simp

/-- **C37.** Zero exactly for vectors in the same direction, a half turn exactly for opposite ones. -/
theorem C37_extremes (u v : Vec3) (hu : u ≠ 0) (hv : v ≠ 0) :
    (angleBetween u v = 0 ↔ v.length • u = u.length • v) ∧ (angleBetween u v = π ↔ v.length • u = -(u.length • v)) := by
  obtain ⟨h1, h2, h3⟩ := C37_angle u v hu hv
  have lu := Vec3.length_pos hu
  have lv := Vec3.length_pos hv
  have e1 : (v.length • u - u.length • v).dot (v.length • u - u.length • v) =
      2 * (u.length * v.length) ^ 2 - 2 * (u.length * v.length) * u.dot v := dot_self_scaled_sub u v
  have e2 : (v.length • u + u.length • v).dot (v.length • u + u.length • v) =
      2 * (u.length * v.length) ^ 2 + 2 * (u.length * v.length) * u.dot v := dot_self_scaled_add u v
  have hL : 0 < u.length * v.length := by positivity
  constructor
  · rw [← sub_eq_zero (a := v.length • u), ← Vec3.dot_self_eq_zero, e1]
    constructor
    · intro h
      rw [h, cos_zero, eq_div_iff hL.ne'] at h1
      rw [← h1]; ring
    · intro h
      have : u.dot v = u.length * v.length := by
        have : 2 * (u.length * v.length) * (u.length * v.length - u.dot v) = 0 := by linarith
        rcases mul_eq_zero.1 this with h' | h' <;> linarith
      rw [C37_arccos u v hu hv, this, div_self hL.ne', arccos_one]
  · rw [eq_neg_iff_add_eq_zero, ← Vec3.dot_self_eq_zero, e2]
    constructor
    · intro h
      rw [h, cos_pi, eq_div_iff hL.ne'] at h1
      rw [← h1]; ring
    · intro h
      have : u.dot v = -(u.length * v.length) := by
        have : 2 * (u.length * v.length) * (u.length * v.length + u.dot v) = 0 := by linarith
        rcases mul_eq_zero.1 this with h' | h' <;> linarith
      rw [C37_arccos u v hu hv, this, neg_div, div_self hL.ne', arccos_neg_one]

/-! ### C57: rates -/

/-- `r` is the position and `v t` the velocity at time `t`, componentwise. -/
def MovesWith (r : ℝ → Vec3) (t : ℝ) (v : Vec3) : Prop :=
  HasDerivAt (fun s => (r s).x) v.x t ∧ HasDerivAt (fun s => (r s).y) v.y t ∧ HasDerivAt (fun s => (r s).z) v.z t

/-- **C57.** The range rate is the derivative of the distance. -/
theorem C57_range_rate (r : ℝ → Vec3) (t : ℝ) (v : Vec3) (h : MovesWith r t v) (h0 : r t ≠ 0) :
    HasDerivAt (fun s => (toSphericalAndRates 0 (r s) v).length) (toSphericalAndRates 0 (r t) v).rangeRate t := by
  obtain ⟨hx, hy, hz⟩ := h
  have hpos : 0 < (r t).dot (r t) := lt_of_le_of_ne (Vec3.dot_self_nonneg _) fun e => h0 (Vec3.dot_self_eq_zero.1 e.symm)
  have h1 := ((hx.mul hx).add (hy.mul hy)).add (hz.mul hz)
  have h2 := h1.sqrt (by exact hpos.ne')
  refine HasDerivAt.congr_deriv (f' := _) h2 ?_
  simp only [toSphericalAndRates, Vec3.length, Vec3.dot, Pi.add_apply, Pi.mul_apply]
  rw [div_eq_div_iff]
  · ring
  · have := Real.sqrt_pos.2 hpos
    unfold Vec3.dot at this
    positivity
  · have := Real.sqrt_pos.2 hpos
    unfold Vec3.dot at this
    positivity

theorem hypot_pos_of {x y : ℝ} (h : x ≠ 0 ∨ y ≠ 0) : 0 < hypot x y := by
  unfold hypot
  apply Real.sqrt_pos.2
  rcases h with h | h
  · have := mul_self_pos.2 h; nlinarith [mul_self_nonneg y]
  · have := mul_self_pos.2 h; nlinarith [mul_self_nonneg x]

theorem arctan2_eq_arctan (y : ℝ) {x : ℝ} (hx : 0 < x) : arctan2 y x = arctan (y / x) := by
  have h1 := hypot_mul_cos_arctan2 y x
  have h2 := hypot_mul_sin_arctan2 y x
  have hp : 0 < hypot x y := hypot_pos_of (Or.inl hx.ne')
  have hb := arctan2_abs_le y hx.le
  have hc : 0 < cos (arctan2 y x) := by
    by_contra hc
    push Not at hc
    nlinarith
  have hlt : -(π / 2) < arctan2 y x ∧ arctan2 y x < π / 2 := by
    rw [abs_le] at hb
    constructor
    · rcases hb.1.eq_or_lt with e | e
      · rw [← e, cos_neg, cos_pi_div_two] at hc; exact absurd hc (lt_irrefl 0)
      · exact e
    · rcases hb.2.eq_or_lt with e | e
      · rw [e, cos_pi_div_two] at hc; exact absurd hc (lt_irrefl 0)
      · exact e
  rw [← arctan_tan hlt.1 hlt.2, tan_eq_sin_div_cos]
  congr 1
  rw [div_eq_div_iff hc.ne' hx.ne']
  linear_combination (-sin (arctan2 y x)) * h1 + (cos (arctan2 y x)) * h2

/-- **C57.** Off the polar axis, the latitude rate is the derivative of the latitude. -/
theorem C57_lat_rate (r : ℝ → Vec3) (t : ℝ) (v : Vec3) (h : MovesWith r t v) (h0 : (r t).x ≠ 0 ∨ (r t).y ≠ 0) :
    HasDerivAt (fun s => (toSphericalAndRates 0 (r s) v).lat) (toSphericalAndRates 0 (r t) v).latRate t := by
  obtain ⟨hx, hy, hz⟩ := h
  have hp := hypot_pos_of h0
  have hsq : 0 < (r t).x * (r t).x + (r t).y * (r t).y := Real.sqrt_pos.1 hp
  have h1 := ((hx.mul hx).add (hy.mul hy)).sqrt hsq.ne'
  have h2 := (hz.div h1 hp.ne').arctan
  have hev : (fun s => (toSphericalAndRates 0 (r s) v).lat) =ᶠ[nhds t]
      fun s => arctan ((r s).z / √((r s).x * (r s).x + (r s).y * (r s).y)) := by
    have hcont : ContinuousAt (fun s => (r s).x * (r s).x + (r s).y * (r s).y) t :=
      ((hx.mul hx).add (hy.mul hy)).continuousAt
    filter_upwards [hcont.eventually (lt_mem_nhds hsq)] with s hs
    exact arctan2_eq_arctan _ (Real.sqrt_pos.2 hs)
  refine HasDerivAt.congr_of_eventuallyEq (HasDerivAt.congr_deriv h2 ?_) hev
  simp only [toSphericalAndRates, add_zero, Pi.add_apply, Pi.mul_apply, Pi.div_apply]
  have hs := Real.mul_self_sqrt hsq.le
  unfold hypot at hp
  generalize hS : √((r t).x * (r t).x + (r t).y * (r t).y) = S at hp hs ⊢
  rw [← hs]
  have hne : S ≠ 0 := hp.ne'
  have hne2 : S * S + (r t).z * (r t).z ≠ 0 := by
    have h1 := mul_pos hp hp
    have h2 := mul_self_nonneg (r t).z
    linarith
  have hne3 : 1 + ((r t).z / S) ^ 2 ≠ 0 := by positivity
  field_simp
  rw [show S ^ 2 = (r t).x * (r t).x + (r t).y * (r t).y by rw [pow_two, hs]]
  ring

theorem lon_eq_of_not_positive_axis {x y : ℝ} (h : ¬ (y = 0 ∧ 0 ≤ x)) :
    pyMod (arctan2 y x) tau = arctan2 (-y) (-x) + π := by
  have e : (⟨-x, -y⟩ : ℂ) = -⟨x, y⟩ := by apply Complex.ext <;> simp
  have hpi := pi_pos
  unfold arctan2
  rw [e]
  rcases lt_trichotomy y 0 with hy | hy | hy
  · have h1 := Complex.arg_neg_eq_arg_add_pi_of_im_neg (x := ⟨x, y⟩) hy
    have h2 := Complex.arg_neg_iff.2 (show (⟨x, y⟩ : ℂ).im < 0 from hy)
    have h3 := Complex.neg_pi_lt_arg ⟨x, y⟩
    rw [h1]
    exact pyMod_unique' _ (-1) tau_pos (by linarith) (by unfold tau; linarith) (by unfold tau; push_cast; ring)
  · subst hy
    have hx : x < 0 := by
      by_contra hc; exact h ⟨rfl, not_lt.1 hc⟩
    have e1 : (⟨x, 0⟩ : ℂ) = (x : ℂ) := by apply Complex.ext <;> simp
    have e2 : (-⟨x, 0⟩ : ℂ) = ((-x : ℝ) : ℂ) := by apply Complex.ext <;> simp
    rw [e2, e1, Complex.arg_ofReal_of_neg hx, Complex.arg_ofReal_of_nonneg (by linarith)]
    exact pyMod_unique' _ 0 tau_pos (by linarith) (by unfold tau; linarith) (by simp)
  · have h1 := Complex.arg_neg_eq_arg_sub_pi_of_im_pos (x := ⟨x, y⟩) hy
    have h2 := Complex.arg_nonneg_iff.2 (show 0 ≤ (⟨x, y⟩ : ℂ).im from hy.le)
    have h3 := Complex.arg_le_pi ⟨x, y⟩
    rw [h1]
    exact pyMod_unique' _ 0 tau_pos (by linarith) (by unfold tau; linarith) (by simp)

theorem hasDerivAt_arctan2 {x y : ℝ → ℝ} {t x' y' : ℝ} (hx : HasDerivAt x x' t) (hy : HasDerivAt y y' t)
    (h : 0 < x t ∨ y t ≠ 0) :
    HasDerivAt (fun s => arctan2 (y s) (x s)) ((x t * y' - x' * y t) / (x t * x t + y t * y t)) t := by
  have hz : HasDerivAt (fun s => ((x s : ℂ) + (y s : ℂ) * Complex.I)) ((x' : ℂ) + (y' : ℂ) * Complex.I) t :=
    hx.ofReal_comp.add (hy.ofReal_comp.mul_const _)
  have hmem : ((x t : ℂ) + (y t : ℂ) * Complex.I) ∈ Complex.slitPlane := by
    rw [Complex.mem_slitPlane_iff]
    simpa using h
  have h1 := hz.clog_real hmem
  have h2 : HasDerivAt (fun s => (Complex.log ((x s : ℂ) + (y s : ℂ) * Complex.I)).im)
      (((x' : ℂ) + (y' : ℂ) * Complex.I) / ((x t : ℂ) + (y t : ℂ) * Complex.I)).im t :=
    Complex.imCLM.hasFDerivAt.comp_hasDerivAt t h1
  have e : (fun s => (Complex.log ((x s : ℂ) + (y s : ℂ) * Complex.I)).im) = fun s => arctan2 (y s) (x s) := by
    funext s
    rw [Complex.log_im]
    unfold arctan2
    congr 1
    apply Complex.ext <;> simp
  rw [e] at h2
  refine h2.congr_deriv ?_
  rw [Complex.div_im]
  have hn : Complex.normSq ((x t : ℂ) + (y t : ℂ) * Complex.I) = x t * x t + y t * y t := by
    rw [Complex.normSq_apply]; simp
  rw [hn]
  simp
  ring

/-- **C57.** Off the polar axis, the longitude rate is the derivative of the longitude; where the longitude passes through
zero (and so jumps by a whole turn), of the longitude counted from minus to plus half a turn. -/
theorem C57_lon_rate (r : ℝ → Vec3) (t : ℝ) (v : Vec3) (h : MovesWith r t v) (h0 : (r t).x ≠ 0 ∨ (r t).y ≠ 0) :
    (¬ ((r t).y = 0 ∧ 0 ≤ (r t).x) →
      HasDerivAt (fun s => (toSphericalAndRates 0 (r s) v).lon) (toSphericalAndRates 0 (r t) v).lonRate t) ∧
    ((r t).y = 0 ∧ 0 ≤ (r t).x →
      HasDerivAt (fun s => arctan2 (r s).y (r s).x) (toSphericalAndRates 0 (r t) v).lonRate t) := by
  obtain ⟨hx, hy, hz⟩ := h
  constructor
  · intro hne
    have hev : (fun s => (toSphericalAndRates 0 (r s) v).lon) =ᶠ[nhds t]
        fun s => arctan2 (-(r s).y) (-(r s).x) + π := by
      have hcx := hx.continuousAt
      have hcy := hy.continuousAt
      have : ∀ᶠ s in nhds t, ¬ ((r s).y = 0 ∧ 0 ≤ (r s).x) := by
        by_cases hy0 : (r t).y = 0
        · have hx0 : (r t).x < 0 := by
            by_contra hc; exact hne ⟨hy0, not_lt.1 hc⟩
          filter_upwards [hcx.eventually (gt_mem_nhds hx0)] with s hs
          intro hh
          exact absurd hh.2 (not_le.2 hs)
        · filter_upwards [hcy.eventually_ne hy0] with s hs
          intro hh
          exact hs hh.1
      filter_upwards [this] with s hs
      exact lon_eq_of_not_positive_axis hs
    have h1 := (hasDerivAt_arctan2 hx.neg hy.neg (by
      by_cases hy0 : (r t).y = 0
      · left
        have : (r t).x < 0 := by
          by_contra hc; exact hne ⟨hy0, not_lt.1 hc⟩
        simpa using this
      · right; simpa using hy0)).add_const π
    refine HasDerivAt.congr_of_eventuallyEq (h1.congr_deriv ?_) hev
    simp [toSphericalAndRates]
  · intro hpos
    have hx0 : 0 < (r t).x := by
      rcases h0 with h0 | h0
      · exact lt_of_le_of_ne hpos.2 (Ne.symm h0)
      · exact absurd hpos.1 h0
    have h1 := hasDerivAt_arctan2 hx hy (Or.inl hx0)
    refine h1.congr_deriv ?_
    simp [toSphericalAndRates]

/-- Non-vacuity: uniform circular motion at radius 2. -/
example (t : ℝ) : MovesWith (fun s => ⟨2 * cos s, 2 * sin s, 1⟩) t ⟨2 * (-sin t), 2 * cos t, 0⟩ ∧
    ((⟨2 * cos t, 2 * sin t, 1⟩ : Vec3).x ≠ 0 ∨ (⟨2 * cos t, 2 * sin t, 1⟩ : Vec3).y ≠ 0) := by
  refine ⟨⟨(hasDerivAt_cos t).const_mul 2, (hasDerivAt_sin t).const_mul 2, hasDerivAt_const t 1⟩, ?_⟩
  by_contra hc
  push Not at hc
  have h := sin_sq_add_cos_sq t
  simp only [mul_eq_zero, OfNat.ofNat_ne_zero, false_or] at hc
  rw [hc.1, hc.2] at h
  norm_num at h

/-- Non-vacuity: coordinates of a concrete vector off the axes. -/
example : toSpherical (fromSpherical 2 (π / 6) 5) = (2, π / 6, 5) := by
  have h3 := pi_gt_three
  exact C36_round_trip' 2 (π / 6) 5 (by norm_num) (by rw [abs_of_pos (by positivity)]; linarith) (by norm_num)
    (by linarith)

end Skyfield
