import Verif.Spec.TwoBody
import Verif.Props.ElementSizes
import Mathlib.Analysis.SpecialFunctions.Arsinh
import Mathlib.Analysis.SpecialFunctions.Trigonometric.Deriv

/-
Constants of the two-body motion and the time dependence of the anomalies.
-/
namespace Skyfield
open Real

theorem MovesWith.dot {a b : ℝ → Vec3} {t : ℝ} {a' b' : Vec3} (ha : MovesWith a t a') (hb : MovesWith b t b') :
    HasDerivAt (fun s => (a s).dot (b s)) (a'.dot (b t) + (a t).dot b') t := by
  obtain ⟨a1, a2, a3⟩ := ha
  obtain ⟨b1, b2, b3⟩ := hb
  refine HasDerivAt.congr_deriv (((a1.mul b1).add (a2.mul b2)).add (a3.mul b3)) ?_
  simp only [Vec3.dot]; ring

theorem MovesWith.cross {a b : ℝ → Vec3} {t : ℝ} {a' b' : Vec3} (ha : MovesWith a t a') (hb : MovesWith b t b') :
    MovesWith (fun s => (a s).cross (b s)) t (a'.cross (b t) + (a t).cross b') := by
  obtain ⟨a1, a2, a3⟩ := ha
  obtain ⟨b1, b2, b3⟩ := hb
  refine ⟨HasDerivAt.congr_deriv ((a2.mul b3).sub (a3.mul b2)) ?_, HasDerivAt.congr_deriv ((a3.mul b1).sub (a1.mul b3)) ?_,
    HasDerivAt.congr_deriv ((a1.mul b2).sub (a2.mul b1)) ?_⟩ <;> simp only [Vec3.cross, Vec3.add_x, Vec3.add_y, Vec3.add_z] <;> ring

theorem MovesWith.smul {k : ℝ → ℝ} {a : ℝ → Vec3} {t k' : ℝ} {a' : Vec3} (hk : HasDerivAt k k' t) (ha : MovesWith a t a') :
    MovesWith (fun s => k s • a s) t (k' • a t + k t • a') := by
  obtain ⟨a1, a2, a3⟩ := ha
  refine ⟨HasDerivAt.congr_deriv (hk.mul a1) ?_, HasDerivAt.congr_deriv (hk.mul a2) ?_, HasDerivAt.congr_deriv (hk.mul a3) ?_⟩ <;>
    simp

theorem MovesWith.sub {a b : ℝ → Vec3} {t : ℝ} {a' b' : Vec3} (ha : MovesWith a t a') (hb : MovesWith b t b') :
    MovesWith (fun s => a s - b s) t (a' - b') :=
  ⟨ha.1.sub hb.1, ha.2.1.sub hb.2.1, ha.2.2.sub hb.2.2⟩

theorem MovesWith.length {a : ℝ → Vec3} {t : ℝ} {a' : Vec3} (ha : MovesWith a t a') (h0 : a t ≠ 0) :
    HasDerivAt (fun s => (a s).length) ((a t).dot a' / (a t).length) t := C57_range_rate a t a' ha h0

theorem const_of_deriv {f : ℝ → ℝ} (h : ∀ t, HasDerivAt f 0 t) (s t : ℝ) : f s = f t :=
  is_const_of_deriv_eq_zero (fun x => (h x).differentiableAt) (fun x => (h x).deriv) s t

theorem const_of_movesWith {a : ℝ → Vec3} (h : ∀ t, MovesWith a t 0) (s t : ℝ) : a s = a t := by
  ext
  · exact const_of_deriv (fun t => (h t).1) s t
  · exact const_of_deriv (fun t => (h t).2.1) s t
  · exact const_of_deriv (fun t => (h t).2.2) s t

namespace TwoBody
variable {mu : ℝ} {r v : ℝ → Vec3}

/-- The osculating orbit at a time. -/
def at_ (mu : ℝ) (r v : ℝ → Vec3) (t : ℝ) : Osculating := ⟨r t, v t, mu⟩

theorem hVec_const (h : TwoBody mu r v) (s t : ℝ) : (at_ mu r v s).hVec = (at_ mu r v t).hVec := by
  refine const_of_movesWith (a := fun t => (r t).cross (v t)) (fun t => ?_) s t
  have := (h.moves t).cross (h.pull t)
  have e : (v t).cross (v t) + (r t).cross ((-(mu / (r t).length ^ 3)) • r t) = 0 := by
    ext <;> simp [Vec3.cross] <;> ring
  rwa [e] at this

theorem eVec_const (h : TwoBody mu r v) (hm : 0 < mu) (s t : ℝ) : (at_ mu r v s).eVec = (at_ mu r v t).eVec := by
  have hH := fun t => h.hVec_const t 0
  set H := (at_ mu r v 0).hVec with hHd
  have he : ∀ t, (at_ mu r v t).eVec = (1 / mu) • (v t).cross H - (1 / (r t).length) • r t := by
    intro t
    rw [Osculating.eVec_eq hm (h.away t), ← hH t]; rfl
  rw [he, he]
  refine const_of_movesWith (a := fun t => (1 / mu) • (v t).cross H - (1 / (r t).length) • r t) (fun t => ?_) s t
  have lr := Vec3.length_pos (h.away t)
  have hlen := (h.moves t).length (h.away t)
  have hHc : MovesWith (fun _ : ℝ => H) t 0 := ⟨hasDerivAt_const _ _, hasDerivAt_const _ _, hasDerivAt_const _ _⟩
  have d1 := MovesWith.smul (hasDerivAt_const t (1 / mu)) ((h.pull t).cross hHc)
  have hinv : HasDerivAt (fun s => 1 / (r s).length) (-((r t).dot (v t) / (r t).length) / (r t).length ^ 2) t := by
    have := hlen.inv lr.ne'
    refine this.congr_of_eventuallyEq (Filter.Eventually.of_forall fun s => ?_)
    simp [one_div]
  have d2 := MovesWith.smul hinv (h.moves t)
  have d := d1.sub d2
  convert d using 1
  have hHt : H = (r t).cross (v t) := (hH t).symm
  have h2 := Vec3.length_sq (r t)
  rw [hHt]
  have key : ((r t).cross ((r t).cross (v t))) = (r t).dot (v t) • r t - (r t).length ^ 2 • v t := by
    rw [h2]
    ext <;> simp [Vec3.cross, Vec3.dot] <;> ring
  have key2 : ((-(mu / (r t).length ^ 3)) • r t).cross ((r t).cross (v t)) =
      (-(mu / (r t).length ^ 3)) • ((r t).dot (v t) • r t - (r t).length ^ 2 • v t) := by
    rw [← key]; ext <;> simp [Vec3.cross] <;> ring
  rw [key2]
  have z : (v t).cross (0 : Vec3) = 0 := by ext <;> simp [Vec3.cross]
  rw [z]
  ext
  · simp only [Vec3.smul_x, Vec3.add_x, Vec3.sub_x, Vec3.zero_x]; field_simp; ring
  · simp only [Vec3.smul_y, Vec3.add_y, Vec3.sub_y, Vec3.zero_y]; field_simp; ring
  · simp only [Vec3.smul_z, Vec3.add_z, Vec3.sub_z, Vec3.zero_z]; field_simp; ring

theorem ecc_const (h : TwoBody mu r v) (hm : 0 < mu) (s t : ℝ) : (at_ mu r v s).eccentricity = (at_ mu r v t).eccentricity := by
  unfold Osculating.eccentricity; rw [h.eVec_const hm s t]

theorem latus_const (h : TwoBody mu r v) (s t : ℝ) : (at_ mu r v s).latusRectum = (at_ mu r v t).latusRectum := by
  unfold Osculating.latusRectum; rw [h.hVec_const s t]; rfl

/-- Energy and angular momentum in terms of `alpha = (1 - e²) / p`. -/
theorem scalars (h : TwoBody mu r v) (hm : 0 < mu) (hh : (r 0).cross (v 0) ≠ 0) {e p al : ℝ}
    (he : (at_ mu r v 0).eccentricity = e) (hp : (at_ mu r v 0).latusRectum = p) (ha : al = (1 - e ^ 2) / p) (t : ℝ) :
    0 < p ∧ 0 ≤ e ∧ (v t).dot (v t) = 2 * mu / (r t).length - mu * al ∧
      2 * mu * (r t).length - mu * al * (r t).length ^ 2 - (r t).dot (v t) ^ 2 = mu * p ∧ 1 - al * p = e ^ 2 := by
  have hht : (at_ mu r v t).pos.cross (at_ mu r v t).vel ≠ 0 := by
    have := h.hVec_const t 0
    unfold Osculating.hVec at this
    rw [this]; exact hh
  have lr := Vec3.length_pos (h.away t)
  have hpp : 0 < p := hp ▸ Osculating.latusRectum_pos (o := at_ mu r v 0) hm hh
  have hs := Osculating.ecc_sq (o := at_ mu r v t) hm hht
  rw [h.ecc_const hm t 0, h.latus_const t 0, he, hp] at hs
  have hv : (v t).dot (v t) = 2 * mu / (r t).length - mu * al := by
    have : e ^ 2 = 1 + p * ((v t).dot (v t) - 2 * mu / (r t).length) / mu := hs
    rw [ha, this]; field_simp; ring
  refine ⟨hpp, he ▸ Osculating.ecc_nonneg _, hv, ?_, by rw [ha]; field_simp; ring⟩
  have hl := (at_ mu r v t).h_dot_h
  rw [← Vec3.length_sq] at hl
  have h2 : (at_ mu r v t).hVec.length ^ 2 = mu * p := by
    rw [← hp, ← h.latus_const t 0]
    unfold Osculating.latusRectum semiLatusRectum
    show _ = mu * (_ / mu)
    field_simp
  rw [h2] at hl
  have hl' : mu * p = (r t).dot (r t) * (v t).dot (v t) - (r t).dot (v t) ^ 2 := hl
  rw [hl', ← Vec3.length_sq, hv]
  field_simp

/-- The derivatives of the distance and of the radial product. -/
theorem rates (h : TwoBody mu r v) {al : ℝ} (hv : ∀ t, (v t).dot (v t) = 2 * mu / (r t).length - mu * al) (t : ℝ) :
    HasDerivAt (fun s => (r s).length) ((r t).dot (v t) / (r t).length) t ∧
    HasDerivAt (fun s => (r s).dot (v s)) (mu * (1 - al * (r t).length) / (r t).length) t := by
  have lr := Vec3.length_pos (h.away t)
  refine ⟨(h.moves t).length (h.away t), ?_⟩
  refine HasDerivAt.congr_deriv ((h.moves t).dot (h.pull t)) ?_
  rw [hv, Vec3.dot_smul, ← Vec3.length_sq]
  field_simp
  ring

/-- Ellipses: the point `(1 - r / a, r·v / √(mu a))` goes round a circle; how far round is mean motion plus the change of
its second coordinate. -/
theorem ellipse_phase (h : TwoBody mu r v) (hm : 0 < mu) {al ka : ℝ} (hal : 0 < al) (hka : 0 < ka) (hk : ka ^ 2 = mu * al)
    (hv : ∀ t, (v t).dot (v t) = 2 * mu / (r t).length - mu * al) (s t : ℝ) :
    let C := fun t => 1 - al * (r t).length
    let S := fun t => al / ka * (r t).dot (v t)
    let D := al * ka * (t - s) + S t - S s
    C t = C s * cos D - S s * sin D ∧ S t = S s * cos D + C s * sin D := by
  intro C S D
  set ph := fun t => al * ka * t + S t with hph
  have dC : ∀ t, HasDerivAt C (-(ka / (r t).length) * S t) t := by
    intro t
    have lr := Vec3.length_pos (h.away t)
    refine HasDerivAt.congr_deriv (((h.rates hv t).1.const_mul al).const_sub 1) ?_
    simp only [S]
    field_simp
  have dS : ∀ t, HasDerivAt S (ka / (r t).length * C t) t := by
    intro t
    have lr := Vec3.length_pos (h.away t)
    refine HasDerivAt.congr_deriv ((h.rates hv t).2.const_mul (al / ka)) ?_
    simp only [C]
    field_simp
    rw [hk]; ring
  have dph : ∀ t, HasDerivAt ph (ka / (r t).length) t := by
    intro t
    have lr := Vec3.length_pos (h.away t)
    refine HasDerivAt.congr_deriv (((hasDerivAt_id t).const_mul (al * ka)).add (dS t)) ?_
    simp only [C]
    field_simp
    ring
  have c1 := const_of_deriv (f := fun t => C t * cos (ph t) + S t * sin (ph t)) (fun t => by
    refine HasDerivAt.congr_deriv (((dC t).mul (dph t).cos).add ((dS t).mul (dph t).sin)) ?_
    ring) s t
  have c2 := const_of_deriv (f := fun t => S t * cos (ph t) - C t * sin (ph t)) (fun t => by
    refine HasDerivAt.congr_deriv (((dS t).mul (dph t).cos).sub ((dC t).mul (dph t).sin)) ?_
    ring) s t
  have hD : D = ph t - ph s := by simp only [D, hph]; ring
  have q := sin_sq_add_cos_sq (ph t)
  rw [hD, cos_sub, sin_sub]
  constructor
  · linear_combination (-cos (ph t)) * c1 + sin (ph t) * c2 - C t * q
  · linear_combination (-sin (ph t)) * c1 - cos (ph t) * c2 - S t * q

/-- Hyperbolas: `S - arsinh (S / e)`, with `S = r·v / √(mu |a|)`, grows uniformly. -/
theorem hyperbola_phase (h : TwoBody mu r v) (hm : 0 < mu) {e al ka : ℝ} (he : 0 < e) (hal : al < 0) (hka : 0 < ka)
    (hk : ka ^ 2 = -(mu * al)) (hv : ∀ t, (v t).dot (v t) = 2 * mu / (r t).length - mu * al)
    (hC : ∀ t, (1 - al * (r t).length) ^ 2 = e ^ 2 + (-al / ka * (r t).dot (v t)) ^ 2) (s t : ℝ) :
    let S := fun t => -al / ka * (r t).dot (v t)
    S t - arsinh (S t / e) = S s - arsinh (S s / e) + (-al * ka) * (t - s) := by
  intro S
  have dS : ∀ t, HasDerivAt S (ka / (r t).length * (1 - al * (r t).length)) t := by
    intro t
    have lr := Vec3.length_pos (h.away t)
    refine HasDerivAt.congr_deriv ((h.rates hv t).2.const_mul (-al / ka)) ?_
    field_simp
    rw [hk]; ring
  have c := const_of_deriv (f := fun t => S t - arsinh (S t / e) - (-al * ka) * t) (fun t => by
    have lr := Vec3.length_pos (h.away t)
    refine HasDerivAt.congr_deriv (((dS t).sub ((dS t).div_const e).arsinh).sub ((hasDerivAt_id t).const_mul (-al * ka))) ?_
    have hCp : 0 < 1 - al * (r t).length := by nlinarith
    have hs : √(1 + (S t / e) ^ 2) = (1 - al * (r t).length) / e := by
      rw [sqrt_eq_iff_mul_self_eq (by positivity) (by positivity)]
      have := hC t
      simp only [S]
      field_simp
      field_simp at this
      linear_combination -this
    rw [hs]
    rw [smul_eq_mul]
    have hne := hCp.ne'
    have e1 : ((1 - al * (r t).length) / e)⁻¹ * (ka / (r t).length * (1 - al * (r t).length) / e) = ka / (r t).length := by
      field_simp
    rw [e1]
    field_simp
    ring) s t
  linear_combination -c

/-- Parabolas: Barker's equation. -/
theorem parabola_phase (h : TwoBody mu r v) (hm : 0 < mu) {p k : ℝ} (hp : 0 < p) (hk0 : 0 < k) (hk : k ^ 2 = mu * p)
    (hv : ∀ t, (v t).dot (v t) = 2 * mu / (r t).length - mu * 0)
    (hr : ∀ t, 2 * (r t).length = p * (1 + ((r t).dot (v t) / k) ^ 2)) (s t : ℝ) :
    let D := fun t => (r t).dot (v t) / k
    D t + D t ^ 3 / 3 = D s + D s ^ 3 / 3 + 2 * mu / (p * k) * (t - s) := by
  intro D
  have dD : ∀ t, HasDerivAt D (mu / (r t).length / k) t := by
    intro t
    refine HasDerivAt.congr_deriv ((h.rates hv t).2.div_const k) ?_
    ring
  have c := const_of_deriv (f := fun t => D t + D t ^ 3 / 3 - 2 * mu / (p * k) * t) (fun t => by
    have lr := Vec3.length_pos (h.away t)
    refine HasDerivAt.congr_deriv (((dD t).add (((dD t).pow 3).div_const 3)).sub ((hasDerivAt_id t).const_mul (2 * mu / (p * k)))) ?_
    have := hr t
    have e : (1 + D t ^ 2) = 2 * (r t).length / p := by rw [this]; show 1 + ((r t).dot (v t) / k) ^ 2 = _; field_simp
    have : mu / (r t).length / k * (1 + D t ^ 2) - 2 * mu / (p * k) = 0 := by rw [e]; field_simp; ring
    push_cast
    linear_combination this) s t
  linear_combination -c

end TwoBody
end Skyfield
