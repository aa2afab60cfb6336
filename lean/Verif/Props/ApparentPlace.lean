import Mathlib.Analysis.Complex.ExponentialBounds
import Mathlib.Geometry.Euclidean.Angle.Unoriented.RightAngle
import Mathlib.Geometry.Euclidean.Triangle
import Verif.Props.Deflection
import Verif.Props.Eclipse
import Verif.Props.Masses

/-
C107: apparent places stay close to astrometric ones.
-/
namespace Skyfield
open _root_.Spec Real InnerProductGeometry RealInnerProductSpace

/-! ### The specification -/

/-- The bending at right angles: twice the gravitational radius of a mass, the Sun's divided by `m`, over a distance of `D` au. -/
noncomputable def bendingAt (D m : ℝ) : ℝ := 2 * (gravSun / m) / (lightSpeed ^ 2 * (D * auM))

/-- From `t - lt` to `t` the body on the path `f` is never nearer to the observer than `D`, and the target is either at least the
angle `ψ` away from it on the sky or well in front of it: at most half as far. -/
def ClearOf (ψ D t lt : ℝ) (observer target : Vec3) (f : ℝ → Vec3) : Prop :=
  ∀ s, t - lt ≤ s → s ≤ t → D ≤ (f s - observer).length ∧
    (ψ ≤ angleBetween target (f s - observer) ∨ 2 * target.length ≤ (f s - observer).length)

/-- The path of a deflector: its own, or that of the barycenter of its system if the ephemeris lacks the planet itself. -/
def DeflectorPath (eph : ℕ → Option (ℝ → Vec3)) (code : ℕ) (f : ℝ → Vec3) : Prop :=
  eph code = some f ∨ (eph code = none ∧ code % 100 = 99 ∧ eph (code / 100) = some f)

/-! ### One deflection -/

theorem angle_at_deflector {p e : Vec3} (hp : p ≠ 0) (he : e ≠ 0) (hq : p + e ≠ 0) :
    angleBetween (p + e) e ≤ π - angleBetween p (-e) := by
  have hne := neg_ne_zero' he
  rw [C79_euclidean _ _ hq he, C79_euclidean _ _ hp hne, Vec3.toEuclidean_neg, Vec3.toEuclidean_add]
  have hE : e.toEuclidean ≠ 0 := by
    intro h
    have := Vec3.norm_toEuclidean e
    rw [h, norm_zero] at this
    exact (Vec3.length_pos he).ne this
  have h := angle_add_angle_sub_add_angle_sub_eq_pi p.toEuclidean (neg_ne_zero.2 hE)
  have h2 : angle (-e.toEuclidean) (-e.toEuclidean - p.toEuclidean) = angle (p.toEuclidean + e.toEuclidean) e.toEuclidean := by
    rw [show -e.toEuclidean - p.toEuclidean = -(p.toEuclidean + e.toEuclidean) by abel, angle_neg_neg, angle_comm]
  have h3 := angle_nonneg p.toEuclidean (p.toEuclidean - -e.toEuclidean)
  rw [h2] at h
  linarith

theorem deflection_zero_of_reach {p e d : Vec3} {m : ℝ} (hq : p + e = 0) (h : computeDeflection p e m = some d) : d = 0 := by
  unfold computeDeflection at h
  simp only [hq, Vec3.length_zero] at h
  split at h
  · cases h
  · cases h
    have hz : ∀ k : ℝ, k • (0 : Vec3) = 0 := by intro k; ext <;> simp
    have hzz : ∀ V : Vec3, (0 : ℝ) • V = 0 := by intro V; ext <;> simp
    have h00 : (0 : Vec3) - 0 = 0 := by ext <;> simp
    simp only [hz, Vec3.dot_zero, hzz, h00]

theorem arctan_le_self' {x : ℝ} (hx : 0 ≤ x) : arctan x ≤ x := by
  have h1 := Real.le_tan (x := arctan x) (Real.arctan_nonneg.2 hx) (Real.arctan_lt_pi_div_two x)
  rwa [Real.tan_arctan] at h1

/-- A shift at right angles turns the direction by no more than its share of the length. -/
theorem angle_of_perp {p d : Vec3} {b : ℝ} (hp : p ≠ 0) (hd : d.dot p = 0) (hb : d.length ≤ p.length * b) :
    p + d ≠ 0 ∧ angleBetween p (p + d) ≤ b ∧ (p + d).length ^ 2 ≤ p.length ^ 2 * exp (b ^ 2) := by
  have lp := Vec3.length_pos hp
  have hl := length_add_perp hd
  have hne : p + d ≠ 0 := by
    intro h; rw [h, Vec3.length_zero] at hl; linarith
  have hi : ⟪p.toEuclidean, d.toEuclidean⟫ = 0 := by rw [Vec3.inner_toEuclidean, Vec3.dot_comm, hd]
  have hP : p.toEuclidean ≠ 0 := by
    intro h
    have := Vec3.norm_toEuclidean p
    rw [h, norm_zero] at this
    exact lp.ne this
  refine ⟨hne, ?_, ?_⟩
  · rw [C79_euclidean _ _ hp hne, Vec3.toEuclidean_add, angle_add_eq_arctan_of_inner_eq_zero hi hP, Vec3.norm_toEuclidean,
      Vec3.norm_toEuclidean]
    refine (arctan_le_self' (div_nonneg (Vec3.length_nonneg d) lp.le)).trans ?_
    rw [div_le_iff₀ lp]; linarith
  · have h1 : (p + d).length ^ 2 = p.length ^ 2 + d.length ^ 2 := by
      rw [sq, Vec3.length_mul_self, sq, Vec3.length_mul_self, sq, Vec3.length_mul_self]
      simp only [Vec3.add_dot, Vec3.dot_add, Vec3.dot_comm p d, hd]
      ring
    have h2 : d.length ^ 2 ≤ (p.length * b) ^ 2 := pow_le_pow_left₀ (Vec3.length_nonneg d) hb 2
    have h3 := add_one_le_exp (b ^ 2)
    have h4 := mul_le_mul_of_nonneg_left h3 (sq_nonneg p.length)
    rw [h1]
    nlinarith

theorem deflection_step {p e : Vec3} {m ψ D : ℝ} (hm : 0 < m) (hp : p ≠ 0) (hψ : 0 < ψ) (hψ2 : ψ ≤ π / 2) (hD : 0 < D) (hDe : D ≤ e.length)
    (hc : ψ ≤ angleBetween p (-e) ∨ p.length ≤ e.length) :
    ∃ d, computeDeflection p e m = some d ∧ d.dot p = 0 ∧ d.length ≤ p.length * (bendingAt D m / tan (ψ / 2)) := by
  have lp := Vec3.length_pos hp
  have hpi := pi_pos
  have le : 0 < e.length := lt_of_lt_of_le hD hDe
  have he : e ≠ 0 := by rintro rfl; rw [Vec3.length_zero] at le; exact lt_irrefl _ le
  have ht : 0 < tan (ψ / 2) := tan_pos_of_pos_of_lt_pi_div_two (by linarith) (by linarith)
  have ht1 : tan (ψ / 2) ≤ 1 := by
    rw [← tan_pi_div_four]
    exact strictMonoOn_tan.monotoneOn ⟨by linarith, by linarith⟩ ⟨by linarith, by linarith⟩ (by linarith)
  have hB : 0 ≤ bendingAt D m := by unfold bendingAt gravSun lightSpeed auM; positivity
  have hS : deflectionScale e m ≤ bendingAt D m := by
    unfold deflectionScale bendingAt
    have : (0 : ℝ) < gravSun := by unfold gravSun; norm_num
    have : (0 : ℝ) < lightSpeed := by unfold lightSpeed; norm_num
    have : (0 : ℝ) < auM := by unfold auM; norm_num
    refine div_le_div_of_nonneg_left (by positivity) (by positivity) ?_
    gcongr
  have hS0 : 0 ≤ deflectionScale e m := by unfold deflectionScale gravSun lightSpeed auM; positivity
  cases h : computeDeflection p e m with
  | none =>
    exfalso
    rcases (C43_deflection_nan p e m hp).1 h with h | ⟨k, hk, hpk⟩
    · exact he h
    · rcases hc with hc | hc
      · have hne := neg_ne_zero' he
        have := (C37_extremes p (-e) hp hne).1.2 (by
          rw [hpk, Vec3.length_smul_of_nonneg (by linarith)]
          ext <;> simp <;> ring)
        linarith
      · rw [hpk, Vec3.length_smul_of_nonneg (by linarith), Vec3.length_neg] at hc
        nlinarith
  | some d =>
    refine ⟨d, rfl, C43_deflection_perpendicular h, ?_⟩
    have hR : 0 ≤ bendingAt D m / tan (ψ / 2) := div_nonneg hB ht.le
    have triv : d = 0 → d.length ≤ p.length * (bendingAt D m / tan (ψ / 2)) := by
      rintro rfl; rw [Vec3.length_zero]; positivity
    by_cases hq : p + e = 0
    · exact triv (deflection_zero_of_reach hq h)
    by_cases hf : |cos (angleBetween e p)| ≤ 0.99999999999
    · rw [C43_deflection_size hm hp hq h hf]
      refine mul_le_mul_of_nonneg_left ?_ lp.le
      have hφ0 := (C37_angle (p + e) e hq he).2.1
      have key : angleBetween (p + e) e ≤ π - ψ := by
        rcases hc with hc | hc
        · have := angle_at_deflector hp he hq
          linarith
        · have hcos := (C37_angle (p + e) e hq he).1
          have hn : 0 ≤ (p + e).dot e := by
            have h1 := Vec3.abs_dot_le p e
            have h2 := Vec3.length_mul_self e
            have h3 := neg_abs_le (p.dot e)
            rw [Vec3.add_dot]
            nlinarith
          have : 0 ≤ cos (angleBetween (p + e) e) := by
            rw [hcos]; exact div_nonneg hn (mul_nonneg (Vec3.length_nonneg _) (Vec3.length_nonneg _))
          have : angleBetween (p + e) e ≤ π / 2 := by
            by_contra hcon
            push Not at hcon
            have := cos_neg_of_pi_div_two_lt_of_lt hcon (by have := (C37_angle (p + e) e hq he).2.2; linarith)
            linarith
          linarith
      have htan : tan (angleBetween (p + e) e / 2) ≤ (tan (ψ / 2))⁻¹ := by
        rw [← tan_half_supplement]
        exact strictMonoOn_tan.monotoneOn ⟨by linarith, by linarith⟩ ⟨by linarith, by linarith⟩ (by linarith)
      rw [div_eq_mul_inv]
      calc deflectionScale e m * tan (angleBetween (p + e) e / 2) ≤ deflectionScale e m * (tan (ψ / 2))⁻¹ :=
            mul_le_mul_of_nonneg_left htan hS0
        _ ≤ bendingAt D m * (tan (ψ / 2))⁻¹ := mul_le_mul_of_nonneg_right hS (inv_nonneg.2 ht.le)
    · push Not at hf
      exact triv (C43_deflection_none_when_aligned hp h hf)

/-! ### The loop over the deflectors -/

/-- What a deflector may shift at most. -/
noncomputable def deflectorBudget (ψ D m : ℝ) : ℝ := bendingAt D m / tan (ψ / 4)

theorem deflectorBudget_nonneg {ψ D m : ℝ} (hψ : 0 < ψ) (hψ2 : ψ ≤ π) (hD : 0 < D) (hm : 0 < m) : 0 ≤ deflectorBudget ψ D m := by
  have := pi_pos
  have ht : 0 < tan (ψ / 4) := tan_pos_of_pos_of_lt_pi_div_two (by linarith) (by linarith)
  unfold deflectorBudget bendingAt gravSun lightSpeed auM
  positivity

theorem clip_between {x lo hi : ℝ} (h : lo ≤ hi) : lo ≤ clip x lo hi ∧ clip x lo hi ≤ hi := by
  unfold clip
  exact ⟨le_min (le_max_right _ _) h, min_le_right _ _⟩

/-- What the general theorem asks of a deflector and of the numbers `ψ`, `D` and `m` that go with it. -/
def DeflectorClear (masses : ℕ → Option ℝ) (eph : ℕ → Option (ℝ → Vec3)) (t lt : ℝ) (observer target : Vec3) (ψ D m : ℕ → ℝ) (c : ℕ) : Prop :=
  masses c = some (m c) ∧ 0 < m c ∧ 0 < D c ∧ 0 < ψ c ∧ ψ c ≤ π ∧
    ∃ f, DeflectorPath eph c f ∧ ClearOf (ψ c) (D c) t lt observer target f

theorem twice_of_exp {a b S : ℝ} (ha : 0 ≤ a) (hb : 0 ≤ b) (h : a ^ 2 ≤ b ^ 2 * exp (S ^ 2)) (h0 : 0 ≤ S) (h1 : S ≤ 1 / 2) : a ≤ 2 * b := by
  have h2 : exp (S ^ 2) ≤ exp 1 := exp_le_exp.2 (by nlinarith)
  have h3 := exp_one_lt_d9
  have h4 : a ^ 2 ≤ (2 * b) ^ 2 := by nlinarith [sq_nonneg b]
  exact (pow_le_pow_iff_left₀ ha (by linarith) two_ne_zero).1 h4

theorem applyDeflector_near {tiny : ℝ} {masses : ℕ → Option ℝ} {eph : ℕ → Option (ℝ → Vec3)} {t lt : ℝ} {observer target p : Vec3}
    {ψ D m : ℕ → ℝ} {c : ℕ} {S : ℝ} (hlt : 0 ≤ lt) (ht : target ≠ 0) (hp : p ≠ 0) (hpt : angleBetween target p ≤ S)
    (hpl : p.length ^ 2 ≤ target.length ^ 2 * exp (S ^ 2)) (hS : S ≤ ψ c / 2) (hS0 : 0 ≤ S) (hS2 : S ≤ 1 / 2)
    (h : DeflectorClear masses eph t lt observer target ψ D m c) :
    ∃ q, applyDeflector tiny masses eph t observer lt c p = .ok q ∧ q ≠ 0 ∧ p.length ≤ q.length ∧
      angleBetween p q ≤ deflectorBudget (ψ c) (D c) (m c) ∧ q.length ^ 2 ≤ p.length ^ 2 * exp (deflectorBudget (ψ c) (D c) (m c) ^ 2) := by
  obtain ⟨h1, h2, h3, h4, h5, f, hf, hclear⟩ := h
  have lp := Vec3.length_pos hp
  have hb := deflectorBudget_nonneg h4 h5 h3 h2
  obtain ⟨k1, k2⟩ := clip_between (x := lightTimeDifference tiny p (f t - observer)) hlt
  set s := t - clip (lightTimeDifference tiny p (f t - observer)) 0 lt with hs
  obtain ⟨c1, c2⟩ := hclear s (by linarith) (by linarith)
  have hneg : -(observer - f s) = f s - observer := by ext <;> simp
  have hlen : (observer - f s).length = (f s - observer).length := Vec3.length_sub_comm _ _
  have hfo : f s - observer ≠ 0 := by
    intro h; rw [h, Vec3.length_zero] at c1; linarith
  have h2t := twice_of_exp (Vec3.length_nonneg p) (Vec3.length_nonneg target) hpl hS0 hS2
  have hcase : ψ c / 2 ≤ angleBetween p (-(observer - f s)) ∨ p.length ≤ (observer - f s).length := by
    rw [hneg, hlen]
    rcases c2 with c2 | c2
    · left
      have := C79_triangle target p (f s - observer) ht hp hfo
      linarith
    · right; linarith
  obtain ⟨d, hd, hperp, hdl⟩ := deflection_step (p := p) (e := observer - f s) (m := m c) (ψ := ψ c / 2) (D := D c) h2 hp (by linarith)
    (by linarith) h3 (by rw [hlen]; exact c1) hcase
  rw [show ψ c / 2 / 2 = ψ c / 4 by ring] at hdl
  obtain ⟨a1, a2, a3⟩ := angle_of_perp hp hperp hdl
  refine ⟨p + d, ?_, a1, length_add_perp hperp, a2, a3⟩
  · unfold applyDeflector
    simp only [h1]
    have hpath : eph (if c % 100 = 99 ∧ (eph c).isNone = true then c / 100 else c) = some f := by
      rcases hf with hf | ⟨e1, e2, e3⟩
      · rw [if_neg (by rw [hf]; simp), hf]
      · rw [if_pos ⟨e2, by rw [e1]; rfl⟩, e3]
    rw [hpath]
    unfold deflectorPosition
    simp only
    rw [← hs, hd]

/-- Deflection.  If the target is clear of every deflector, then nothing fails, and the direction turns by no more than the
sum of what the deflectors may do. -/
theorem applyDeflectors_near {tiny : ℝ} {masses : ℕ → Option ℝ} {eph : ℕ → Option (ℝ → Vec3)} {t lt : ℝ} {observer target : Vec3}
    {ψ D m : ℕ → ℝ} {B : ℝ} (hlt : 0 ≤ lt) (ht : target ≠ 0) (hB : B ≤ 1 / 2) (ds : List ℕ) :
    ∀ (p : Vec3) (S : ℝ), 0 ≤ S → p ≠ 0 → target.length ≤ p.length → angleBetween target p ≤ S → p.length ^ 2 ≤ target.length ^ 2 * exp (S ^ 2) →
      S + (ds.map fun c => deflectorBudget (ψ c) (D c) (m c)).sum ≤ B → (∀ c ∈ ds, B ≤ ψ c / 2) →
      (∀ c ∈ ds, DeflectorClear masses eph t lt observer target ψ D m c) →
      ∃ q, applyDeflectors tiny masses eph t observer lt ds p = .ok q ∧ q ≠ 0 ∧ target.length ≤ q.length ∧
        angleBetween target q ≤ S + (ds.map fun c => deflectorBudget (ψ c) (D c) (m c)).sum ∧
        q.length ^ 2 ≤ target.length ^ 2 * exp ((S + (ds.map fun c => deflectorBudget (ψ c) (D c) (m c)).sum) ^ 2) := by
  induction ds with
  | nil =>
    intro p S _ hp hl ha hle _ _ _
    simp only [List.map_nil, List.sum_nil, add_zero]
    exact ⟨p, rfl, hp, hl, ha, hle⟩
  | cons c ds ih =>
    intro p S hS0 hp hl ha hle hsum hψ hc
    simp only [List.map_cons, List.sum_cons] at hsum ⊢
    have hcc := hc c List.mem_cons_self
    have hb : 0 ≤ deflectorBudget (ψ c) (D c) (m c) := by
      obtain ⟨-, h2, h3, h4, h5, -⟩ := hcc
      exact deflectorBudget_nonneg h4 h5 h3 h2
    have hrest : 0 ≤ (ds.map fun c => deflectorBudget (ψ c) (D c) (m c)).sum := by
      apply List.sum_nonneg
      intro x hx
      rw [List.mem_map] at hx
      obtain ⟨c', hc', rfl⟩ := hx
      obtain ⟨-, h2, h3, h4, h5, -⟩ := hc c' (List.mem_cons_of_mem _ hc')
      exact deflectorBudget_nonneg h4 h5 h3 h2
    generalize hgb : deflectorBudget (ψ c) (D c) (m c) = b at *
    generalize hgs : (ds.map fun c => deflectorBudget (ψ c) (D c) (m c)).sum = R at *
    have hψc := hψ c List.mem_cons_self
    obtain ⟨q, e, q0, ql, qa, qe⟩ := applyDeflector_near (tiny := tiny) hlt ht hp ha hle (by linarith) hS0 (by linarith) hcc
    rw [hgb] at qa qe
    have htri := C79_triangle target p q ht hp q0
    have lt0 := Vec3.length_nonneg target
    obtain ⟨r, e', r1, r2, r3, r4⟩ := ih q (S + b) (by linarith) q0 (hl.trans ql) (by linarith) (by
      refine qe.trans ?_
      refine (mul_le_mul_of_nonneg_right hle (exp_pos _).le).trans ?_
      rw [mul_assoc, ← exp_add]
      exact mul_le_mul_of_nonneg_left (exp_le_exp.2 (by nlinarith)) (sq_nonneg _)) (by linarith) (fun c' h' => hψ c' (List.mem_cons_of_mem _ h'))
      (fun c' h' => hc c' (List.mem_cons_of_mem _ h'))
    refine ⟨r, ?_, r1, r2, by linarith, by rw [← add_assoc]; exact r4⟩
    unfold applyDeflectors
    rw [e]
    exact e'

/-! ### The Earth -/

/-- What the Earth may shift at most. -/
noncomputable def earthBudget : ℝ := 5 / 2 * bendingAt Spec.equatorAu 332946.050895

theorem earthBudget_nonneg : 0 ≤ earthBudget := by
  unfold earthBudget bendingAt gravSun lightSpeed auM Spec.equatorAu; norm_num

theorem applyEarth_near {o : Option Vec3} {p : Vec3} (hp : p ≠ 0)
    (ho : ∀ o', o = some o' → Spec.equatorAu ≤ o'.length ∧ 0 < angleBetween p (-o')) :
    ∃ q, applyEarth o p = .ok q ∧ q ≠ 0 ∧ p.length ≤ q.length ∧ angleBetween p q ≤ earthBudget ∧
      q.length ^ 2 ≤ p.length ^ 2 * exp (earthBudget ^ 2) := by
  have lp := Vec3.length_pos hp
  have stay : p ≠ 0 ∧ p.length ≤ p.length ∧ angleBetween p p ≤ earthBudget ∧ p.length ^ 2 ≤ p.length ^ 2 * exp (earthBudget ^ 2) := by
    refine ⟨hp, le_rfl, ?_, ?_⟩
    · rw [(C37_extremes p p hp hp).1.2 rfl]; exact earthBudget_nonneg
    · exact le_mul_of_one_le_right (sq_nonneg _) (one_le_exp (sq_nonneg _))
  cases o with
  | none => exact ⟨p, rfl, stay⟩
  | some o =>
    obtain ⟨h1, h2⟩ := ho o rfl
    have R0 : 0 < Spec.equatorAu := by unfold Spec.equatorAu; norm_num
    have o0 : 0 < o.length := by linarith
    have hne : o ≠ 0 := by rintro rfl; rw [Vec3.length_zero] at o0; exact lt_irrefl _ o0
    cases hd : computeDeflection p o 332946.050895 with
    | none =>
      exfalso
      rcases (C43_deflection_nan p o _ hp).1 hd with h | ⟨k, hk, hpk⟩
      · exact hne h
      · have := (C37_extremes p (-o) hp (neg_ne_zero' hne)).1.2 (by
          rw [hpk, Vec3.length_smul_of_nonneg (by linarith)]
          ext <;> simp <;> ring)
        linarith
    | some d =>
      obtain ⟨e1, e2⟩ := C43_earth_deflection p o hp h1 d hd
      by_cases hn : 4 / 5 * arcsin (Spec.equatorAu / o.length) ≤ angleBetween p (-o)
      · rw [e1 hn]
        have hq0 : 0 < Spec.equatorAu / o.length := by positivity
        have hq1 : Spec.equatorAu / o.length ≤ 1 := by rw [div_le_one o0]; exact h1
        have ha := Shadow.arcsin_ge hq0.le hq1
        have ha2 := arcsin_le_pi_div_two (Spec.equatorAu / o.length)
        have hpi := pi_pos
        obtain ⟨d', hd', hperp, hl⟩ := deflection_step (p := p) (e := o) (m := 332946.050895) (ψ := 4 / 5 * arcsin (Spec.equatorAu / o.length))
          (D := o.length) (by norm_num) hp (by linarith) (by linarith) o0 le_rfl (Or.inl hn)
        rw [hd, Option.some.injEq] at hd'
        subst hd'
        have hbound : bendingAt o.length 332946.050895 / tan (4 / 5 * arcsin (Spec.equatorAu / o.length) / 2) ≤ earthBudget := by
          have htan : 2 / 5 * (Spec.equatorAu / o.length) ≤ tan (4 / 5 * arcsin (Spec.equatorAu / o.length) / 2) := by
            have := Real.le_tan (x := 4 / 5 * arcsin (Spec.equatorAu / o.length) / 2) (by linarith) (by linarith)
            linarith
          have hB : 0 ≤ bendingAt o.length 332946.050895 := by unfold bendingAt gravSun lightSpeed auM; positivity
          refine (div_le_div_of_nonneg_left hB (by positivity) htan).trans (le_of_eq ?_)
          unfold earthBudget bendingAt
          have : (lightSpeed : ℝ) ≠ 0 := by unfold lightSpeed; norm_num
          have : (auM : ℝ) ≠ 0 := by unfold auM; norm_num
          field_simp
        obtain ⟨a1, a2, a3⟩ := angle_of_perp hp hperp (hl.trans (mul_le_mul_of_nonneg_left hbound lp.le))
        exact ⟨_, rfl, a1, length_add_perp hperp, a2, a3⟩
      · rw [e2 (not_le.1 hn)]
        exact ⟨p, rfl, stay⟩

/-! ### Aberration -/

theorem aberration_near {tiny : ℝ} (ht : 0 ≤ tiny) {p v : Vec3} {lt : ℝ} (hlt : 0 < lt) (hp1 : lt * cAuDay ≤ p.length)
    (hp2 : p.length ≤ 2 * (lt * cAuDay)) (hv : v.length / cAuDay < 1 / 2) :
    addAberration tiny p v lt ≠ 0 ∧
    angleBetween (addAberration tiny p v lt) p ≤ arcsin (v.length / cAuDay / (1 - v.length / cAuDay)) := by
  have hc := cAuDay_pos
  have hL : 0 < lt * cAuDay := by positivity
  have hp' : 0 < p.length := by linarith
  have hp : p ≠ 0 := by rintro rfl; rw [Vec3.length_zero] at hp'; exact lt_irrefl _ hp'
  have hV := Vec3.length_nonneg v
  have hcs := Vec3.abs_dot_le p v
  have hβ0 : 0 ≤ v.length / cAuDay := by positivity
  have hk : |v.length / cAuDay * (p.dot v / (lt * cAuDay * v.length + tiny))| * (lt * cAuDay) ≤ v.length / cAuDay * p.length := by
    rw [abs_mul, abs_of_nonneg hβ0, mul_assoc]
    refine mul_le_mul_of_nonneg_left ?_ hβ0
    have h1 : 0 ≤ lt * cAuDay * v.length + tiny := by positivity
    rw [abs_div, abs_of_nonneg h1, div_mul_eq_mul_div]
    refine div_le_of_le_mul₀ h1 hp'.le ?_
    calc |p.dot v| * (lt * cAuDay) ≤ p.length * v.length * (lt * cAuDay) := mul_le_mul_of_nonneg_right hcs hL.le
      _ ≤ p.length * (lt * cAuDay * v.length + tiny) := by
        have := mul_nonneg hp'.le ht
        nlinarith
  unfold addAberration
  simp only
  generalize v.length / cAuDay * (p.dot v / (lt * cAuDay * v.length + tiny)) = k at hk ⊢
  have e : v.length = v.length / cAuDay * cAuDay := by field_simp
  generalize hβ : v.length / cAuDay = β at *
  have hk1 : |k| < 1 := by
    by_contra hcon
    push Not at hcon
    nlinarith
  obtain ⟨k1, k2⟩ := abs_lt.1 hk1
  have hpos : 0 < 1 - β * β := by nlinarith
  have hg := Real.sqrt_pos.2 hpos
  have hgg := Real.mul_self_sqrt hpos.le
  generalize √(1 - β * β) = g at *
  have hg1 : g ≤ 1 := by nlinarith
  have hr : 0 < 1 + k := by linarith
  have hgβ : 1 - β * β ≤ g := by nlinarith
  have hq0 : 0 ≤ (1 + k / (1 + g)) * lt := by
    have : -1 ≤ k / (1 + g) := by rw [le_div_iff₀ (by linarith)]; linarith
    have : 0 ≤ 1 + k / (1 + g) := by linarith
    positivity
  have hq1 : (1 + k / (1 + g)) * lt * v.length ≤ g * p.length * (β / (1 - β)) := by
    have h1 : k / (1 + g) ≤ |k| := by
      rw [div_le_iff₀ (by linarith)]
      have := le_abs_self k
      have := abs_nonneg k
      nlinarith
    have h2 : (1 + k / (1 + g)) * lt * v.length = (1 + k / (1 + g)) * (lt * cAuDay) * β := by rw [e]; ring
    have h3 : (1 + k / (1 + g)) * (lt * cAuDay) * β ≤ (1 + |k|) * (lt * cAuDay) * β := by gcongr
    have h3' : (1 + |k|) * (lt * cAuDay) * β ≤ (1 + β) * (p.length * β) := by
      have : (1 + |k|) * (lt * cAuDay) ≤ (1 + β) * p.length := by linarith
      have := mul_le_mul_of_nonneg_right this hβ0
      linarith
    have h4 : (1 + β) * (p.length * β) = (1 - β * β) * p.length * (β / (1 - β)) := by
      have : 1 - β ≠ 0 := by linarith
      field_simp
      ring
    have h5 : (1 - β * β) * p.length * (β / (1 - β)) ≤ g * p.length * (β / (1 - β)) := by
      refine mul_le_mul_of_nonneg_right (mul_le_mul_of_nonneg_right hgβ hp'.le) (div_nonneg hβ0 (by linarith))
    linarith
  have hratio : β / (1 - β) < 1 := by rw [div_lt_one (by linarith)]; linarith
  have hratio0 : 0 ≤ β / (1 - β) := div_nonneg hβ0 (by linarith)
  generalize hq : (1 + k / (1 + g)) * lt = q at *
  have hE : ((1 / (1 + k)) • (g • p + q • v)).toEuclidean = (1 / (1 + k)) • (g • p.toEuclidean + q • v.toEuclidean) := by
    rw [Vec3.toEuclidean_smul, Vec3.toEuclidean_add, Vec3.toEuclidean_smul, Vec3.toEuclidean_smul]
  have hc1 : ‖g • p.toEuclidean‖ = g * p.length := by
    rw [norm_smul, Vec3.norm_toEuclidean, Real.norm_eq_abs, abs_of_pos hg]
  have hgp : 0 < g * p.length := by positivity
  have hx : ‖(g • p.toEuclidean + q • v.toEuclidean) - g • p.toEuclidean‖ ≤ g * p.length * (β / (1 - β)) := by
    rw [add_sub_cancel_left, norm_smul, Vec3.norm_toEuclidean, Real.norm_eq_abs, abs_of_nonneg hq0]
    exact hq1
  have hlt : g * p.length * (β / (1 - β)) < ‖g • p.toEuclidean‖ := by rw [hc1]; nlinarith
  have hne : g • p.toEuclidean + q • v.toEuclidean ≠ 0 := by
    intro h0
    rw [h0, zero_sub, norm_neg] at hx
    linarith
  have hne' : (1 / (1 + k)) • (g • p + q • v) ≠ (0 : Vec3) := by
    intro h0
    have hz : (0 : Vec3).toEuclidean = 0 := by
      ext i
      fin_cases i <;> simp [Vec3.toEuclidean]
    rw [h0, hz] at hE
    rcases smul_eq_zero.1 hE.symm with h | h
    · exact (one_div_pos.2 hr).ne' h
    · exact hne h
  refine ⟨hne', ?_⟩
  rw [C79_euclidean _ _ hne' hp, hE, angle_smul_left_of_pos _ _ (one_div_pos.2 hr)]
  have := Shadow.angle_of_ball (c := g • p.toEuclidean) (x := g • p.toEuclidean + q • v.toEuclidean) (by positivity) hlt hx
  rw [hc1, angle_smul_right_of_pos _ _ hg, mul_div_cancel_left₀ _ hgp.ne'] at this
  exact this

/-- The length after aberration, exactly. -/
theorem aberration_length_sq {p v : Vec3} {lt : ℝ} (hlt : 0 < lt) (hv : v.length < cAuDay) (hV : 0 < v.length)
    (hr : 0 < 1 + p.dot v / (lt * cAuDay * cAuDay)) :
    (addAberration 0 p v lt).length ^ 2 = (lt * cAuDay) ^ 2 +
      (1 - (v.length / cAuDay) ^ 2) * (p.length ^ 2 - (lt * cAuDay) ^ 2) / (1 + p.dot v / (lt * cAuDay * cAuDay)) ^ 2 := by
  have hc := cAuDay_pos
  have e : v.length / cAuDay * (p.dot v / (lt * cAuDay * v.length + 0)) = p.dot v / (lt * cAuDay * cAuDay) := by
    rw [add_zero]; field_simp
  have hb0 : 0 ≤ v.length / cAuDay := by positivity
  have hb1 : v.length / cAuDay < 1 := by rw [div_lt_one hc]; exact hv
  have hvv := Vec3.length_mul_self v
  have hpp := Vec3.length_mul_self p
  unfold addAberration
  simp only
  rw [e]
  have hD : p.dot v = p.dot v / (lt * cAuDay * cAuDay) * (lt * cAuDay) * cAuDay := by field_simp
  have hVe : v.length = v.length / cAuDay * cAuDay := by field_simp
  generalize p.dot v / (lt * cAuDay * cAuDay) = s at *
  generalize hβ : v.length / cAuDay = β at *
  have hpos : 0 < 1 - β * β := by nlinarith
  have hg := Real.sqrt_pos.2 hpos
  have hgg := Real.mul_self_sqrt hpos.le
  generalize √(1 - β * β) = g at *
  have h1g : 1 + g ≠ 0 := by linarith
  rw [Vec3.length_smul_of_nonneg (by positivity), mul_pow, sq (Vec3.length _), Vec3.length_mul_self]
  simp only [Vec3.add_dot, Vec3.dot_add, Vec3.smul_dot, Vec3.dot_smul, Vec3.dot_comm v p, ← hpp, ← hvv, hVe]
  rw [hD]
  generalize p.length = P at *
  have hβg : β ^ 2 = 1 - g * g := by rw [hgg]; ring
  have key : g * (g * (P * P)) + (1 + s / (1 + g)) * lt * (g * (s * (lt * cAuDay) * cAuDay)) +
      ((1 + s / (1 + g)) * lt * (g * (s * (lt * cAuDay) * cAuDay)) + (1 + s / (1 + g)) * lt * ((1 + s / (1 + g)) * lt * (β * cAuDay * (β * cAuDay)))) =
      (lt * cAuDay) ^ 2 * (1 + s) ^ 2 + g * g * (P ^ 2 - (lt * cAuDay) ^ 2) := by
    have : β * cAuDay * (β * cAuDay) = (1 - g) * (1 + g) * cAuDay ^ 2 := by
      rw [show (1 - g) * (1 + g) = β ^ 2 by rw [hβg]; ring]; ring
    rw [this]
    field_simp
    ring
  have hs : 1 + s ≠ 0 := hr.ne'
  rw [hβg]
  have key2 : g * (g * (P * P) + (1 + s / (1 + g)) * lt * (s * (lt * cAuDay) * cAuDay)) + (1 + s / (1 + g)) * lt *
      (g * (s * (lt * cAuDay) * cAuDay) + (1 + s / (1 + g)) * lt * (β * cAuDay * (β * cAuDay))) =
      (lt * cAuDay) ^ 2 * (1 + s) ^ 2 + g * g * (P ^ 2 - (lt * cAuDay) ^ 2) := by rw [← key]; ring
  rw [key2]
  field_simp
  ring

/-! ### Apparent places -/

/-- What the deflectors and the Earth may shift at most together. -/
noncomputable def totalBudget (ψ D m : ℕ → ℝ) (ds : List ℕ) : ℝ := (ds.map fun c => deflectorBudget (ψ c) (D c) (m c)).sum

theorem totalBudget_nonneg {masses : ℕ → Option ℝ} {eph : ℕ → Option (ℝ → Vec3)} {t lt : ℝ} {observer target : Vec3}
    {ψ D m : ℕ → ℝ} {ds : List ℕ} (hc : ∀ c ∈ ds, DeflectorClear masses eph t lt observer target ψ D m c) : 0 ≤ totalBudget ψ D m ds := by
  apply List.sum_nonneg
  intro x hx
  rw [List.mem_map] at hx
  obtain ⟨c', hc', rfl⟩ := hx
  obtain ⟨-, h2, h3, h4, h5, -⟩ := hc c' hc'
  exact deflectorBudget_nonneg h4 h5 h3 h2

theorem earthBudget_lt : earthBudget < 4e-9 := by
  unfold earthBudget bendingAt gravSun lightSpeed auM Spec.equatorAu; norm_num

theorem apparent_steps {tiny : ℝ} {masses : ℕ → Option ℝ} {eph : ℕ → Option (ℝ → Vec3)} {t : ℝ} {observer v target : Vec3} {o : Option Vec3}
    {ψ D m : ℕ → ℝ} {ds : List ℕ} (ht : target ≠ 0)
    (hc : ∀ c ∈ ds, DeflectorClear masses eph t (target.length / cAuDay) observer target ψ D m c)
    (hS : totalBudget ψ D m ds ≤ 1 / 4) (hψ : ∀ c ∈ ds, totalBudget ψ D m ds ≤ ψ c / 2)
    (ho : ∀ o', o = some o' → Spec.equatorAu ≤ o'.length ∧ totalBudget ψ D m ds < angleBetween target (-o')) :
    ∃ p, apparentPosition tiny masses eph t observer v o (target.length / cAuDay) ds target =
        .ok (addAberration tiny p v (target.length / cAuDay)) ∧ p ≠ 0 ∧ target.length ≤ p.length ∧
      angleBetween target p ≤ totalBudget ψ D m ds + earthBudget ∧
      p.length ^ 2 ≤ target.length ^ 2 * exp ((totalBudget ψ D m ds + earthBudget) ^ 2) := by
  have hS0 := totalBudget_nonneg hc
  have hl := Vec3.length_pos ht
  have hE0 := earthBudget_nonneg
  have hca := cAuDay_pos
  obtain ⟨q, e, q0, ql, qa, qe⟩ := applyDeflectors_near (tiny := tiny) (B := totalBudget ψ D m ds) (by positivity) ht (by linarith) ds target 0 le_rfl ht le_rfl
    (by rw [(C37_extremes target target ht ht).1.2 rfl]) (by simp) (by rw [zero_add]; exact le_rfl) hψ hc
  rw [zero_add] at qa qe
  change angleBetween target q ≤ totalBudget ψ D m ds at qa
  change q.length ^ 2 ≤ target.length ^ 2 * exp (totalBudget ψ D m ds ^ 2) at qe
  obtain ⟨r, e', r0, rl, ra, re⟩ := applyEarth_near (o := o) q0 (by
    intro o' h
    obtain ⟨h1, h2⟩ := ho o' h
    refine ⟨h1, ?_⟩
    have R0 : 0 < Spec.equatorAu := by unfold Spec.equatorAu; norm_num
    have hne : o' ≠ 0 := by rintro rfl; rw [Vec3.length_zero] at h1; linarith
    have := C79_triangle target q (-o') ht q0 (neg_ne_zero' hne)
    linarith)
  refine ⟨r, ?_, r0, ql.trans rl, ?_, ?_⟩
  · unfold apparentPosition
    simp only
    rw [e]
    simp only
    rw [e']
  · have := C79_triangle target q r ht q0 r0
    linarith
  · refine re.trans ((mul_le_mul_of_nonneg_right qe (exp_pos _).le).trans ?_)
    rw [mul_assoc, ← exp_add]
    exact mul_le_mul_of_nonneg_left (exp_le_exp.2 (by nlinarith)) (sq_nonneg _)

/-- **C107.** Apparent places, in general.  Let the target be clear of each deflector, and let the observer not look straight down
through the Earth.  Then `apparent()` neither fails nor gives `nan`, and it moves the target on the sky by no more than the bendings of the
deflectors and of the Earth and the aberration for the speed of the observer. -/
theorem C107_apparent_near (tiny : ℝ) (htiny : 0 ≤ tiny) (masses : ℕ → Option ℝ) (eph : ℕ → Option (ℝ → Vec3)) (t : ℝ)
    (observer v target : Vec3) (o : Option Vec3) (ψ D m : ℕ → ℝ) (ds : List ℕ) (ht : target ≠ 0)
    (hc : ∀ c ∈ ds, DeflectorClear masses eph t (target.length / cAuDay) observer target ψ D m c)
    (hS : totalBudget ψ D m ds ≤ 1 / 4) (hψ : ∀ c ∈ ds, totalBudget ψ D m ds ≤ ψ c / 2)
    (ho : ∀ o', o = some o' → Spec.equatorAu ≤ o'.length ∧ totalBudget ψ D m ds < angleBetween target (-o'))
    (hv : v.length / cAuDay < 1 / 2) :
    ∃ r, apparentPosition tiny masses eph t observer v o (target.length / cAuDay) ds target = .ok r ∧ r ≠ 0 ∧
      angleBetween target r ≤ totalBudget ψ D m ds + earthBudget + arcsin (v.length / cAuDay / (1 - v.length / cAuDay)) := by
  obtain ⟨p, e, p0, pl, pa, pe⟩ := apparent_steps (tiny := tiny) (v := v) ht hc hS hψ ho
  have hl := Vec3.length_pos ht
  have hca := cAuDay_pos
  have hS0 := totalBudget_nonneg hc
  have hE0 := earthBudget_nonneg
  have hE1 := earthBudget_lt
  have hL : target.length / cAuDay * cAuDay = target.length := div_mul_cancel₀ _ hca.ne'
  have h2 := twice_of_exp (Vec3.length_nonneg p) hl.le pe (by linarith) (by linarith)
  obtain ⟨a1, a2⟩ := aberration_near (tiny := tiny) htiny (p := p) (v := v) (lt := target.length / cAuDay) (by positivity) (by rw [hL]; exact pl)
    (by rw [hL]; exact h2) hv
  refine ⟨_, e, a1, ?_⟩
  have := C79_triangle target p _ ht p0 a1
  rw [C37_symmetric p] at this
  linarith

theorem exp_sub_one_le {y : ℝ} (h0 : 0 ≤ y) (h1 : y ≤ 1 / 2) : exp y ≤ 1 + 2 * y := by
  have h := add_one_le_exp (-y)
  rw [exp_neg] at h
  have hp := exp_pos y
  have : (-y + 1) * exp y ≤ 1 := by
    have := mul_le_mul_of_nonneg_right h hp.le
    rwa [inv_mul_cancel₀ hp.ne'] at this
  nlinarith

/-- **C107.** The distance.  Under the same conditions, for an observer at less than a quarter of the speed of light, the apparent distance
is the astrometric one up to the square of what deflection may do.  (`tiny`, about 2·10⁻³⁰⁸, is taken as 0.) -/
theorem C107_apparent_distance (masses : ℕ → Option ℝ) (eph : ℕ → Option (ℝ → Vec3)) (t : ℝ)
    (observer v target : Vec3) (o : Option Vec3) (ψ D m : ℕ → ℝ) (ds : List ℕ) (ht : target ≠ 0)
    (hc : ∀ c ∈ ds, DeflectorClear masses eph t (target.length / cAuDay) observer target ψ D m c)
    (hS : totalBudget ψ D m ds ≤ 1 / 4) (hψ : ∀ c ∈ ds, totalBudget ψ D m ds ≤ ψ c / 2)
    (ho : ∀ o', o = some o' → Spec.equatorAu ≤ o'.length ∧ totalBudget ψ D m ds < angleBetween target (-o'))
    (hv : v.length / cAuDay ≤ 1 / 4) (r : Vec3)
    (hr : apparentPosition 0 masses eph t observer v o (target.length / cAuDay) ds target = .ok r) :
    target.length ≤ r.length ∧ r.length ≤ target.length * (1 + 4 * (totalBudget ψ D m ds + earthBudget) ^ 2) := by
  obtain ⟨p, e, p0, pl, pa, pe⟩ := apparent_steps (tiny := 0) (v := v) ht hc hS hψ ho
  have hl := Vec3.length_pos ht
  have hca := cAuDay_pos
  have hS0 := totalBudget_nonneg hc
  have hE0 := earthBudget_nonneg
  have hE1 := earthBudget_lt
  have hL : target.length / cAuDay * cAuDay = target.length := div_mul_cancel₀ _ hca.ne'
  rw [e] at hr
  cases hr
  have hx0 : 0 ≤ totalBudget ψ D m ds + earthBudget := by linarith
  have hx1 : totalBudget ψ D m ds + earthBudget ≤ 1 / 2 := by linarith
  generalize totalBudget ψ D m ds + earthBudget = x at *
  have h2 := twice_of_exp (Vec3.length_nonneg p) hl.le pe hx0 hx1
  have hexp := exp_sub_one_le (sq_nonneg x) (by nlinarith)
  have hp2 : p.length ^ 2 ≤ target.length ^ 2 * (1 + 2 * x ^ 2) := pe.trans (mul_le_mul_of_nonneg_left hexp (sq_nonneg _))
  have hpl2 : target.length ^ 2 ≤ p.length ^ 2 := pow_le_pow_left₀ hl.le pl 2
  have fin : ∀ R : ℝ, 0 ≤ R → target.length ^ 2 ≤ R ^ 2 → R ^ 2 ≤ target.length ^ 2 + 8 * (target.length ^ 2 * x ^ 2) →
      target.length ≤ R ∧ R ≤ target.length * (1 + 4 * x ^ 2) := by
    intro R hR h1 h3
    refine ⟨(pow_le_pow_iff_left₀ hl.le hR two_ne_zero).1 h1, (pow_le_pow_iff_left₀ hR (by positivity) two_ne_zero).1 ?_⟩
    refine h3.trans ?_
    have : 0 ≤ target.length ^ 2 * (x ^ 2) ^ 2 := by positivity
    nlinarith
  by_cases hV : v.length = 0
  · have hv0 : v = 0 := Vec3.length_eq_zero.1 hV
    rw [hv0, C43_aberration_zero]
    exact fin _ (Vec3.length_nonneg p) hpl2 (by nlinarith [sq_nonneg x, mul_nonneg (sq_nonneg target.length) (sq_nonneg x)])
  · have hVp : 0 < v.length := lt_of_le_of_ne (Vec3.length_nonneg v) (Ne.symm hV)
    have hvl : v.length ≤ cAuDay / 4 := by
      rw [div_le_iff₀ hca] at hv; linarith
    have hs : -(1 / 2) ≤ p.dot v / (target.length / cAuDay * cAuDay * cAuDay) := by
      rw [hL, le_div_iff₀ (by positivity)]
      have h1 := neg_abs_le (p.dot v)
      have h3 := Vec3.abs_dot_le p v
      have h4 : p.length * v.length ≤ 2 * target.length * (cAuDay / 4) := mul_le_mul h2 hvl hVp.le (by positivity)
      linarith
    have hsq := aberration_length_sq (p := p) (v := v) (lt := target.length / cAuDay) (by positivity) (by linarith) hVp (by linarith)
    rw [hL] at hsq hs
    generalize p.dot v / (target.length * cAuDay) = s at *
    have hden : (1 : ℝ) / 4 ≤ (1 + s) ^ 2 := by nlinarith
    have hb0 : 0 ≤ v.length / cAuDay := by positivity
    have hb : 0 ≤ 1 - (v.length / cAuDay) ^ 2 ∧ 1 - (v.length / cAuDay) ^ 2 ≤ 1 := by
      constructor <;> nlinarith
    generalize 1 - (v.length / cAuDay) ^ 2 = g at *
    have hd0 : 0 ≤ p.length ^ 2 - target.length ^ 2 := by linarith
    have n1 : 0 ≤ g * (p.length ^ 2 - target.length ^ 2) / (1 + s) ^ 2 := div_nonneg (mul_nonneg hb.1 hd0) (sq_nonneg _)
    have n2 : g * (p.length ^ 2 - target.length ^ 2) / (1 + s) ^ 2 ≤ 4 * (p.length ^ 2 - target.length ^ 2) := by
      rw [div_le_iff₀ (by linarith)]
      nlinarith
    exact fin _ (Vec3.length_nonneg _) (by rw [hsq]; linarith) (by rw [hsq]; nlinarith)

/-! ### Seen from the Earth -/

theorem rmassOf_599 : rmassOf 599 = some 1047.3486 := by
  unfold rmassOf; rw [show rmassCodes.lookup 599 = some 1047.3486 by decide +kernel]; simp only [Option.map_some]; norm_num
theorem rmassOf_699 : rmassOf 699 = some 3497.898 := by
  unfold rmassOf; rw [show rmassCodes.lookup 699 = some 3497.898 by decide +kernel]; simp only [Option.map_some]; norm_num

/-- The sky as seen from the Earth, or from near it: the Sun is at least 0.98 au away and the target a degree or more away from it, Jupiter
at least 3.9 au and Saturn 7.9 au, and the target an arcminute or more away from them; or the target is well in front of them. -/
def ClearSky (eph : ℕ → Option (ℝ → Vec3)) (t : ℝ) (observer target : Vec3) : Prop :=
  ∃ sun jupiter saturn, DeflectorPath eph 10 sun ∧ DeflectorPath eph 599 jupiter ∧ DeflectorPath eph 699 saturn ∧
    ClearOf (arcseconds 3600) 0.98 t (target.length / cAuDay) observer target sun ∧
    ClearOf (arcseconds 60) 3.9 t (target.length / cAuDay) observer target jupiter ∧
    ClearOf (arcseconds 60) 7.9 t (target.length / cAuDay) observer target saturn

/-- An observer on or above the ground, or one to whom the Earth's deflection does not apply; the target is not within an arcsecond of
straight down. -/
def NotUnderfoot (o : Option Vec3) (target : Vec3) : Prop :=
  ∀ o', o = some o' → Spec.equatorAu ≤ o'.length ∧ arcseconds 1 ≤ angleBetween target (-o')

/-- Kilometers per second. -/
noncomputable def speedKmS (v : Vec3) : ℝ := v.length * 149597870.7 / 86400

private noncomputable def earthPsi (c : ℕ) : ℝ := if c = 10 then arcseconds 3600 else arcseconds 60
private noncomputable def earthDist (c : ℕ) : ℝ := if c = 10 then 0.98 else if c = 599 then 3.9 else 7.9
private noncomputable def earthMass (c : ℕ) : ℝ := if c = 10 then 1 else if c = 599 then 1047.3486 else 3497.898

private theorem budget_le {ψ D m B : ℝ} (h0 : 0 < ψ) (h1 : ψ ≤ π) (hD : 0 < D) (hm : 0 < m) (h : bendingAt D m ≤ B * (ψ / 4)) :
    deflectorBudget ψ D m ≤ B := by
  have hpi := pi_pos
  have ht := Real.le_tan (x := ψ / 4) (by linarith) (by linarith)
  have hb : 0 ≤ bendingAt D m := by unfold bendingAt gravSun lightSpeed auM; positivity
  unfold deflectorBudget
  rw [div_le_iff₀ (by linarith)]
  have : 0 ≤ B := by
    by_contra hn
    push Not at hn
    nlinarith
  nlinarith

private theorem earth_budget : totalBudget earthPsi earthDist earthMass [10, 599, 699] ≤ 4.72e-6 := by
  have h1 := pi_gt_d20
  have h2 := pi_lt_d20
  have b1 : deflectorBudget (arcseconds 3600) 0.98 1 ≤ 4.62e-6 := by
    apply budget_le <;> (try unfold arcseconds) <;> (try unfold bendingAt gravSun lightSpeed auM) <;> norm_num at * <;> linarith
  have b2 : deflectorBudget (arcseconds 60) 3.9 1047.3486 ≤ 7e-8 := by
    apply budget_le <;> (try unfold arcseconds) <;> (try unfold bendingAt gravSun lightSpeed auM) <;> norm_num at * <;> linarith
  have b3 : deflectorBudget (arcseconds 60) 7.9 3497.898 ≤ 1e-8 := by
    apply budget_le <;> (try unfold arcseconds) <;> (try unfold bendingAt gravSun lightSpeed auM) <;> norm_num at * <;> linarith
  unfold totalBudget earthPsi earthDist earthMass
  simp only [List.map_cons, List.map_nil, List.sum_cons, List.sum_nil, if_true]
  rw [if_neg (by norm_num : ¬ (599 = 10)), if_neg (by norm_num : ¬ (699 = 10)), if_neg (by norm_num : ¬ (599 = 10)), if_neg (by norm_num : ¬ (699 = 10)),
    if_neg (by norm_num : ¬ (699 = 599)), if_neg (by norm_num : ¬ (599 = 10)), if_neg (by norm_num : ¬ (699 = 10)),
    if_neg (by norm_num : ¬ (699 = 599))]
  norm_num at *
  linarith

private theorem earth_clear {eph : ℕ → Option (ℝ → Vec3)} {t : ℝ} {observer target : Vec3} (h : ClearSky eph t observer target) :
    ∀ c ∈ [10, 599, 699], DeflectorClear rmassOf eph t (target.length / cAuDay) observer target earthPsi earthDist earthMass c := by
  obtain ⟨s, j, k, h1, h2, h3, h4, h5, h6⟩ := h
  have p1 := pi_gt_d20
  have p2 := pi_lt_d20
  intro c hc
  simp only [List.mem_cons, List.not_mem_nil, or_false] at hc
  rcases hc with rfl | rfl | rfl
  · refine ⟨by rw [rmassOf_sun]; simp [earthMass], by simp [earthMass], by norm_num [earthDist], ?_, ?_, s, h1, by simpa [earthPsi, earthDist] using h4⟩
    · simp only [earthPsi, if_true]; unfold arcseconds; linarith
    · simp only [earthPsi, if_true]; unfold arcseconds; linarith
  · refine ⟨by rw [rmassOf_599]; simp [earthMass], by norm_num [earthMass], by norm_num [earthDist], ?_, ?_, j, h2, by simpa [earthPsi, earthDist] using h5⟩
    · norm_num [earthPsi]; unfold arcseconds; linarith
    · norm_num [earthPsi]; unfold arcseconds; linarith
  · refine ⟨by rw [rmassOf_699]; simp [earthMass], by norm_num [earthMass], by norm_num [earthDist], ?_, ?_, k, h3, by simpa [earthPsi, earthDist] using h6⟩
    · norm_num [earthPsi]; unfold arcseconds; linarith
    · norm_num [earthPsi]; unfold arcseconds; linarith

private theorem earth_psi : ∀ c ∈ [10, 599, 699], totalBudget earthPsi earthDist earthMass [10, 599, 699] ≤ earthPsi c / 2 := by
  have p1 := pi_gt_d20
  have hb := earth_budget
  intro c hc
  have : arcseconds 60 ≤ earthPsi c := by
    unfold earthPsi
    split
    · unfold arcseconds; linarith
    · exact le_rfl
  refine hb.trans ?_
  have : (1e-4 : ℝ) ≤ arcseconds 60 := by unfold arcseconds; norm_num at *; linarith
  norm_num at *
  linarith

private theorem earth_foot {o : Option Vec3} {target : Vec3} (h : NotUnderfoot o target) :
    ∀ o', o = some o' → Spec.equatorAu ≤ o'.length ∧ totalBudget earthPsi earthDist earthMass [10, 599, 699] < angleBetween target (-o') := by
  intro o' ho
  obtain ⟨h1, h2⟩ := h o' ho
  refine ⟨h1, lt_of_le_of_lt earth_budget (lt_of_lt_of_le ?_ h2)⟩
  have p1 := pi_gt_d20
  unfold arcseconds
  norm_num at *
  linarith

private theorem earth_beta {v : Vec3} (hv : speedKmS v ≤ 31) : v.length / cAuDay ≤ 1.0341e-4 := by
  unfold speedKmS at hv
  unfold cAuDay lightSpeed daySeconds auM
  rw [div_le_iff₀ (by norm_num)]
  rw [div_le_iff₀ (by norm_num)] at hv
  norm_num at *
  linarith

/-- **C107.** From the Earth, with the usual deflectors.  An observer who moves at no more than 31 km/s — the Earth's orbital speed and its
rotation together stay below that — sees anything in a clear sky within 22.5 arcseconds of its astrometric place. -/
theorem C107_from_earth (tiny : ℝ) (htiny : 0 ≤ tiny) (eph : ℕ → Option (ℝ → Vec3)) (t : ℝ) (observer v target : Vec3) (o : Option Vec3)
    (ht : target ≠ 0) (hsky : ClearSky eph t observer target) (ho : NotUnderfoot o target) (hv : speedKmS v ≤ 31) :
    ∃ r, apparentPosition tiny rmassOf eph t observer v o (target.length / cAuDay) [10, 599, 699] target = .ok r ∧
      angleBetween target r ≤ arcseconds 22.5 := by
  have hb := earth_budget
  have hE := earthBudget_lt
  have hβ := earth_beta hv
  have hβ0 : 0 ≤ v.length / cAuDay := div_nonneg (Vec3.length_nonneg v) cAuDay_pos.le
  obtain ⟨r, e, -, ha⟩ := C107_apparent_near tiny htiny rmassOf eph t observer v target o earthPsi earthDist earthMass [10, 599, 699] ht
    (earth_clear hsky) (by norm_num at *; linarith) earth_psi (earth_foot ho) (by norm_num at *; linarith)
  refine ⟨r, e, ha.trans ?_⟩
  have p1 := pi_gt_d20
  generalize v.length / cAuDay = β at *
  have hx : β / (1 - β) ≤ 1.03421e-4 := by
    rw [div_le_iff₀ (by norm_num at *; linarith)]
    norm_num at *
    linarith
  have h1 := arcsin_le_arcsin hx
  have h2 := Shadow.arcsin_le_cube (x := 1.03421e-4) (by norm_num) (by norm_num)
  unfold arcseconds
  norm_num at *
  linarith

/-- **C107.** And at the astrometric distance, to one part in ten thousand million. -/
theorem C107_from_earth_distance (eph : ℕ → Option (ℝ → Vec3)) (t : ℝ) (observer v target r : Vec3) (o : Option Vec3)
    (ht : target ≠ 0) (hsky : ClearSky eph t observer target) (ho : NotUnderfoot o target) (hv : speedKmS v ≤ 31)
    (hr : apparentPosition 0 rmassOf eph t observer v o (target.length / cAuDay) [10, 599, 699] target = .ok r) :
    target.length ≤ r.length ∧ r.length ≤ target.length * (1 + 1e-10) := by
  have hb := earth_budget
  have hE := earthBudget_lt
  have hE0 := earthBudget_nonneg
  have hβ := earth_beta hv
  have hS0 := totalBudget_nonneg (earth_clear hsky)
  have hl := Vec3.length_pos ht
  obtain ⟨h1, h2⟩ := C107_apparent_distance rmassOf eph t observer v target o earthPsi earthDist earthMass [10, 599, 699] ht
    (earth_clear hsky) (by norm_num at *; linarith) earth_psi (earth_foot ho) (by norm_num at *; linarith) r hr
  refine ⟨h1, h2.trans (mul_le_mul_of_nonneg_left ?_ hl.le)⟩
  have hx : (totalBudget earthPsi earthDist earthMass [10, 599, 699] + earthBudget) ^ 2 ≤ (5e-6) ^ 2 :=
    pow_le_pow_left₀ (by linarith) (by norm_num at *; linarith) 2
  norm_num at *
  linarith

/-- A star at right angles to the Sun, Jupiter and Saturn, seen by an observer on the ground at thirty kilometers a second: every
hypothesis holds. -/
example : let eph : ℕ → Option (ℝ → Vec3) := fun c =>
      if c = 10 then some fun _ => ⟨0, 0, 0⟩ else if c = 599 then some fun _ => ⟨-4.2, 0, 0⟩ else if c = 6 then some fun _ => ⟨-8, 0, 0⟩ else none
    let target : Vec3 := ⟨0, 1000, 0⟩
    target ≠ 0 ∧ ClearSky eph 0 ⟨1, 0, 0⟩ target ∧ NotUnderfoot (some ⟨Spec.equatorAu, 0, 0⟩) target ∧
      speedKmS ⟨0, 0.0173, 0⟩ ≤ 31 ∧ 29 < speedKmS ⟨0, 0.0173, 0⟩ := by
  have R0 : 0 < Spec.equatorAu := by unfold Spec.equatorAu; norm_num
  have p1 := pi_gt_d20
  have hx : ∀ x : ℝ, (⟨x, 0, 0⟩ : Vec3).length = |x| := by
    intro x; simp [Vec3.length, Real.sqrt_mul_self_eq_abs]
  have ht : (⟨0, 1000, 0⟩ : Vec3) ≠ 0 := by intro h; have := congrArg Vec3.y h; norm_num at this
  have ha : ∀ x : ℝ, x ≠ 0 → angleBetween ⟨0, 1000, 0⟩ ⟨x, 0, 0⟩ = π / 2 := by
    intro x h
    rw [C37_arccos _ _ ht (by intro hc; exact h (congrArg Vec3.x hc))]
    simp [Vec3.dot]
  have hs : ∀ x : ℝ, (⟨x, 0, 0⟩ : Vec3) - ⟨1, 0, 0⟩ = ⟨x - 1, 0, 0⟩ := by intro x; ext <;> simp
  have sec : ∀ y : ℝ, y ≤ 3600 → arcseconds y ≤ π / 2 := by intro y hy; unfold arcseconds; nlinarith
  simp only
  refine ⟨ht, ⟨fun _ => ⟨0, 0, 0⟩, fun _ => ⟨-4.2, 0, 0⟩, fun _ => ⟨-8, 0, 0⟩, Or.inl rfl, Or.inl rfl, Or.inr ⟨rfl, by norm_num, rfl⟩, ?_, ?_, ?_⟩,
    ?_, ?_, ?_⟩
  · intro s _ _
    rw [hs, hx, ha _ (by norm_num)]
    exact ⟨by norm_num, Or.inl (sec _ (by norm_num))⟩
  · intro s _ _
    rw [hs, hx, ha _ (by norm_num)]
    exact ⟨by norm_num, Or.inl (sec _ (by norm_num))⟩
  · intro s _ _
    rw [hs, hx, ha _ (by norm_num)]
    exact ⟨by norm_num, Or.inl (sec _ (by norm_num))⟩
  · intro o' ho
    cases ho
    rw [hx, abs_of_pos R0, show -(⟨Spec.equatorAu, 0, 0⟩ : Vec3) = ⟨-Spec.equatorAu, 0, 0⟩ by ext <;> simp, ha _ (by linarith)]
    exact ⟨le_rfl, sec _ (by norm_num)⟩
  · unfold speedKmS
    rw [show (⟨0, 0.0173, 0⟩ : Vec3).length = 0.0173 by
      simp only [Vec3.length, mul_zero, zero_add, add_zero]; rw [Real.sqrt_mul_self (by norm_num)]]
    norm_num
  · unfold speedKmS
    rw [show (⟨0, 0.0173, 0⟩ : Vec3).length = 0.0173 by
      simp only [Vec3.length, mul_zero, zero_add, add_zero]; rw [Real.sqrt_mul_self (by norm_num)]]
    norm_num

/-- The general theorem's hypotheses are met by no deflectors at all, and then it is the bound for aberration alone. -/
example (ψ D m : ℕ → ℝ) : totalBudget ψ D m [] = 0 := rfl

end Skyfield
