import Verif.Model.Projection
import Verif.Props.Spherical

/-
C55: the stereographic chart.
-/
namespace Skyfield
open Real

theorem unitOf_some {p : Vec3} (h : p ≠ 0) : unitOf p = some ((1 / p.length) • p) := by
  unfold unitOf
  rw [if_neg (Vec3.length_pos h).ne']
  congr 1
  ext <;> simp <;> ring

theorem unit_dot {p : Vec3} (h : p ≠ 0) : ((1 / p.length) • p).dot ((1 / p.length) • p) = 1 := by
  rw [Vec3.dot_smul, Vec3.smul_dot, ← Vec3.length_mul_self]
  have := (Vec3.length_pos h).ne'
  field_simp

/-- The unit vector on the sky to the west of `c`. -/
noncomputable def westOf (c : Vec3) : Vec3 := ⟨c.y / √(c.x ^ 2 + c.y ^ 2), -c.x / √(c.x ^ 2 + c.y ^ 2), 0⟩

/-- The unit vector on the sky to the north of `c`. -/
noncomputable def northOf (c : Vec3) : Vec3 :=
  ⟨-(c.x * c.z) / √(c.x ^ 2 + c.y ^ 2), -(c.y * c.z) / √(c.x ^ 2 + c.y ^ 2), √(c.x ^ 2 + c.y ^ 2)⟩

theorem chart_frame {c : Vec3} (hc : c.dot c = 1) (hp : c.x ≠ 0 ∨ c.y ≠ 0) :
    0 < √(c.x ^ 2 + c.y ^ 2) ∧ √(-c.z ^ 2 + 1) = √(c.x ^ 2 + c.y ^ 2) := by
  constructor
  · apply Real.sqrt_pos.2
    rcases hp with h | h <;> positivity
  · congr 1
    unfold Vec3.dot at hc
    linarith

theorem chartProject_eq {c : Vec3} (hc : c.dot c = 1) (hp : c.x ≠ 0 ∨ c.y ≠ 0) {p : Vec3} (h : p ≠ 0) :
    chartProject c p =
      (let u := (1 / p.length) • p
       open Classical in
       if u.dot c + 1 = 0 then none
       else some (u.dot (westOf c) / (1 + u.dot c), u.dot (northOf c) / (1 + u.dot c))) := by
  obtain ⟨h1, h2⟩ := chart_frame hc hp
  have hs := Real.mul_self_sqrt (show 0 ≤ c.x ^ 2 + c.y ^ 2 by positivity)
  unfold chartProject
  rw [unitOf_some h]
  simp only [Option.bind_eq_bind, Option.bind_some]
  rw [if_neg h1.ne', h2]
  generalize hu : (1 / p.length) • p = u
  generalize hS : √(c.x ^ 2 + c.y ^ 2) = S at *
  have e : u.x * c.x * (1 / S * S) + 1 / S * S * (u.y * c.y) + u.z * c.z + 1 = u.dot c + 1 := by
    have : S ≠ 0 := h1.ne'
    unfold Vec3.dot
    field_simp
  rw [e]
  by_cases hz : u.dot c + 1 = 0
  · rw [if_pos hz, if_pos hz]
  · rw [if_neg hz, if_neg hz]
    have hz' : 1 + u.dot c ≠ 0 := by rwa [add_comm]
    have hne : S ≠ 0 := h1.ne'
    simp only [westOf, northOf, hS]
    congr 1
    rw [add_comm (u.dot c) 1]
    generalize 1 + u.dot c = D at hz'
    congr 1
    · simp only [Vec3.dot]; field_simp; ring
    · simp only [Vec3.dot]; field_simp; ring

theorem west_north {c : Vec3} (hc : c.dot c = 1) (hp : c.x ≠ 0 ∨ c.y ≠ 0) (u v : Vec3) :
    u.dot v = u.dot c * v.dot c + u.dot (westOf c) * v.dot (westOf c) + u.dot (northOf c) * v.dot (northOf c) := by
  obtain ⟨h1, h2⟩ := chart_frame hc hp
  have hs := Real.mul_self_sqrt (show 0 ≤ c.x ^ 2 + c.y ^ 2 by positivity)
  simp only [westOf, northOf]
  generalize √(c.x ^ 2 + c.y ^ 2) = S at *
  unfold Vec3.dot at *
  have hne : S ≠ 0 := h1.ne'
  field_simp
  grind

theorem stereographic_single (q p : Vec3) : stereographic [q] p = (unitOf q).bind fun c => chartProject c p := rfl

/-- **C55.** The chart of a single target: the target itself is plotted at the origin. -/
theorem C55_center (p : Vec3) (hp : p.x ≠ 0 ∨ p.y ≠ 0) : stereographic [p] p = some (0, 0) := by
  have h0 : p ≠ 0 := by rintro rfl; simp at hp
  have hl := Vec3.length_pos h0
  have hd := unit_dot h0
  have hp' : ((1 / p.length) • p).x ≠ 0 ∨ ((1 / p.length) • p).y ≠ 0 := by
    rcases hp with h | h
    · left; simp [h, hl.ne']
    · right; simp [h, hl.ne']
  rw [stereographic_single, unitOf_some h0]
  simp only [Option.bind_some]
  rw [chartProject_eq hd hp' h0]
  simp only
  rw [if_neg (by rw [hd]; norm_num)]
  obtain ⟨h1, -⟩ := chart_frame hd hp'
  have hs := Real.mul_self_sqrt (show 0 ≤ ((1 / p.length) • p).x ^ 2 + ((1 / p.length) • p).y ^ 2 by positivity)
  generalize (1 / p.length) • p = c at *
  have e1 : c.dot (westOf c) = 0 := by
    unfold Vec3.dot westOf; field_simp; ring
  have e2 : c.dot (northOf c) = 0 := by
    simp only [Vec3.dot, northOf]
    generalize √(c.x ^ 2 + c.y ^ 2) = S at *
    have : S ≠ 0 := h1.ne'
    field_simp
    linear_combination c.z * hs
  rw [e1, e2]
  simp

/-- **C55.** A direction at angle `a` from the chart's center is plotted at radius `tan (a/2)`; only the antipode has no place. -/
theorem C55_radius (center : List Vec3) (c p : Vec3) (hcen : chartCenter center = some c) (hp : c.x ≠ 0 ∨ c.y ≠ 0) (h : p ≠ 0) :
    let a := arccos (p.dot c / (p.length * c.length))
    (stereographic center p = none ↔ a = π) ∧
    ∀ X Y, stereographic center p = some (X, Y) → √(X ^ 2 + Y ^ 2) = tan (a / 2) := by
  intro a
  have hc : c.dot c = 1 := by
    have key : ∀ q, unitOf q = some c → c.dot c = 1 := by
      intro q hq
      by_cases h0 : q = 0
      · subst h0; simp [unitOf, Vec3.length_zero] at hq
      · rw [unitOf_some h0] at hq
        rw [← Option.some.inj hq]
        exact unit_dot h0
    unfold chartCenter at hcen
    split at hcen
    · exact key _ hcen
    · simp only [Option.bind_eq_bind, Option.bind_eq_some_iff] at hcen
      obtain ⟨us, _, hu⟩ := hcen
      exact key _ hu
  have hcl : c.length = 1 := by rw [Vec3.length_eq, hc, sqrt_one]
  have hl := Vec3.length_pos h
  have e : stereographic center p = chartProject c p := by
    unfold stereographic; rw [hcen]; rfl
  set u := (1 / p.length) • p with hu
  have ha : a = arccos (u.dot c) := by
    show arccos _ = _
    rw [hu, Vec3.smul_dot, hcl]
    congr 1
    field_simp
  have huu : u.dot u = 1 := unit_dot h
  have hle : u.dot c ≤ 1 := by
    have := Vec3.dot_le u c
    rwa [hcl, Vec3.length_eq, huu, sqrt_one, one_mul] at this
  have hge : -1 ≤ u.dot c := by
    have := Vec3.neg_le_dot u c
    rwa [hcl, Vec3.length_eq, huu, sqrt_one, one_mul] at this
  rw [e, chartProject_eq hc hp h]
  simp only [← hu]
  constructor
  · by_cases hz : u.dot c + 1 = 0
    · rw [if_pos hz, ha]
      simp only [true_iff]
      rw [show u.dot c = -1 by linarith, arccos_neg_one]
    · rw [if_neg hz, ha]
      simp only [reduceCtorEq, false_iff]
      intro hπ
      have := cos_arccos hge hle
      rw [hπ, cos_pi] at this
      exact hz (by linarith)
  · intro X Y hXY
    by_cases hz : u.dot c + 1 = 0
    · rw [if_pos hz] at hXY; simp at hXY
    · rw [if_neg hz] at hXY
      simp only [Option.some.injEq, Prod.mk.injEq] at hXY
      obtain ⟨hX, hY⟩ := hXY
      have hD : 0 < 1 + u.dot c := lt_of_le_of_ne (by linarith) fun he => hz (by linarith)
      have hw := west_north hc hp u u
      rw [huu] at hw
      have hsq : X ^ 2 + Y ^ 2 = (1 - u.dot c) / (1 + u.dot c) := by
        rw [← hX, ← hY, div_pow, div_pow, ← add_div, div_eq_div_iff (by positivity) hD.ne']
        linear_combination (-(1 + u.dot c)) * hw
      have hcos := cos_arccos hge hle
      have ha0 := arccos_nonneg (u.dot c)
      have haπ : arccos (u.dot c) < π := lt_of_le_of_ne (arccos_le_pi _) fun he => by
        rw [he, cos_pi] at hcos; exact hz (by linarith)
      rw [hsq, ha]
      have hch : 0 < cos (arccos (u.dot c) / 2) := cos_pos_of_mem_Ioo ⟨by linarith [pi_pos], by linarith⟩
      have hsh : 0 ≤ sin (arccos (u.dot c) / 2) := sin_nonneg_of_nonneg_of_le_pi (by linarith) (by linarith [pi_pos])
      rw [tan_eq_sin_div_cos, Real.sqrt_eq_iff_mul_self_eq (by apply div_nonneg <;> linarith) (by positivity)]
      have h2 : cos (arccos (u.dot c)) = 2 * cos (arccos (u.dot c) / 2) ^ 2 - 1 := by rw [← cos_two_mul]; ring_nf
      rw [hcos] at h2
      have h3 := sin_sq_add_cos_sq (arccos (u.dot c) / 2)
      rw [div_mul_div_comm, div_eq_div_iff hD.ne' (by positivity)]
      generalize cos (arccos (u.dot c) / 2) = C at *
      generalize sin (arccos (u.dot c) / 2) = S at *
      generalize u.dot c = d at *
      subst h2
      linear_combination (-(2 * C ^ 2)) * h3

/-- **C55.** In coordinates: with the center at right ascension `α₀` and declination `δ₀` (not a pole) and the target at `α`, `δ`, the chart
is the stereographic projection with north up and east to the left, at any distances. -/
theorem C55_formula (r₀ r α₀ δ₀ α δ : ℝ) (hr₀ : 0 < r₀) (hr : 0 < r) (hδ : |δ₀| < π / 2)
    (hanti : 1 + (sin δ * sin δ₀ + cos δ * cos δ₀ * cos (α - α₀)) ≠ 0) :
    stereographic [fromSpherical r₀ δ₀ α₀] (fromSpherical r δ α) =
      some (-(cos δ * sin (α - α₀)) / (1 + (sin δ * sin δ₀ + cos δ * cos δ₀ * cos (α - α₀))),
        (sin δ * cos δ₀ - cos δ * sin δ₀ * cos (α - α₀)) / (1 + (sin δ * sin δ₀ + cos δ * cos δ₀ * cos (α - α₀)))) := by
  have key : ∀ r δ α : ℝ, 0 < r → (fromSpherical r δ α).length = r ∧ fromSpherical r δ α ≠ 0 ∧
      (1 / (fromSpherical r δ α).length) • fromSpherical r δ α = ⟨cos δ * cos α, cos δ * sin α, sin δ⟩ := by
    intro r δ α hr
    have hl : (fromSpherical r δ α).length = r := by
      unfold Vec3.length fromSpherical
      simp only
      rw [Real.sqrt_eq_iff_mul_self_eq (by nlinarith [mul_self_nonneg (r * cos δ * cos α), mul_self_nonneg (r * cos δ * sin α), mul_self_nonneg (r * sin δ)]) hr.le]
      linear_combination (r ^ 2 * cos δ ^ 2) * sin_sq_add_cos_sq α + r ^ 2 * sin_sq_add_cos_sq δ
    refine ⟨hl, ?_, ?_⟩
    · intro h0
      rw [h0, Vec3.length_zero] at hl
      linarith
    · rw [hl]
      unfold fromSpherical
      ext <;> simp <;> field_simp
  obtain ⟨_, n0, e0⟩ := key r₀ δ₀ α₀ hr₀
  obtain ⟨_, n1, e1⟩ := key r δ α hr
  rw [abs_lt] at hδ
  have hcδ : 0 < cos δ₀ := cos_pos_of_mem_Ioo ⟨by linarith [hδ.1], hδ.2⟩
  have hd := unit_dot n0
  rw [e0] at hd
  have hp : (⟨cos δ₀ * cos α₀, cos δ₀ * sin α₀, sin δ₀⟩ : Vec3).x ≠ 0 ∨ (⟨cos δ₀ * cos α₀, cos δ₀ * sin α₀, sin δ₀⟩ : Vec3).y ≠ 0 := by
    simp only
    by_contra hc
    push Not at hc
    have := sin_sq_add_cos_sq α₀
    have h1 : cos α₀ = 0 := by simpa [hcδ.ne'] using hc.1
    have h2 : sin α₀ = 0 := by simpa [hcδ.ne'] using hc.2
    rw [h1, h2] at this
    norm_num at this
  have hS : √((cos δ₀ * cos α₀) ^ 2 + (cos δ₀ * sin α₀) ^ 2) = cos δ₀ := by
    rw [Real.sqrt_eq_iff_mul_self_eq (by positivity) hcδ.le]
    linear_combination (cos δ₀ ^ 2) * sin_sq_add_cos_sq α₀
  rw [stereographic_single, unitOf_some n0, e0]
  simp only [Option.bind_some]
  rw [chartProject_eq hd hp n1, e1]
  simp only
  have hdot : (⟨cos δ * cos α, cos δ * sin α, sin δ⟩ : Vec3).dot ⟨cos δ₀ * cos α₀, cos δ₀ * sin α₀, sin δ₀⟩ =
      sin δ * sin δ₀ + cos δ * cos δ₀ * cos (α - α₀) := by
    rw [cos_sub]; simp only [Vec3.dot]; ring
  rw [hdot, if_neg (by rw [add_comm]; exact hanti)]
  congr 3
  · simp only [Vec3.dot, westOf, hS]
    rw [sin_sub]
    field_simp
    ring
  · simp only [Vec3.dot, northOf, hS]
    rw [cos_sub]
    field_simp
    ring

/-- **C55.** The chart is conformal: where a direction moves with velocity `v` and another, at the same place, with velocity `w`, the dot product of the
plotted velocities is that of the velocities on the sky times the same positive factor; so angles are preserved. -/
theorem C55_conformal (c : Vec3) (hc : c.dot c = 1) (hp : c.x ≠ 0 ∨ c.y ≠ 0) (u₁ u₂ : ℝ → Vec3) (v₁ v₂ u : Vec3)
    (h1 : MovesWith u₁ 0 v₁) (h2 : MovesWith u₂ 0 v₂) (e1 : u₁ 0 = u) (e2 : u₂ 0 = u)
    (hu₁ : ∀ s, (u₁ s).dot (u₁ s) = 1) (hu₂ : ∀ s, (u₂ s).dot (u₂ s) = 1) (ha : 1 + u.dot c ≠ 0)
    (X₁ Y₁ X₂ Y₂ : ℝ → ℝ) (X₁' Y₁' X₂' Y₂' : ℝ)
    (hXY₁ : ∀ s, 1 + (u₁ s).dot c ≠ 0 → chartProject c (u₁ s) = some (X₁ s, Y₁ s))
    (hXY₂ : ∀ s, 1 + (u₂ s).dot c ≠ 0 → chartProject c (u₂ s) = some (X₂ s, Y₂ s))
    (dX₁ : HasDerivAt X₁ X₁' 0) (dY₁ : HasDerivAt Y₁ Y₁' 0) (dX₂ : HasDerivAt X₂ X₂' 0) (dY₂ : HasDerivAt Y₂ Y₂' 0) :
    X₁' * X₂' + Y₁' * Y₂' = v₁.dot v₂ / (1 + u.dot c) ^ 2 := by
  have hdot : ∀ (f : ℝ → Vec3) (v n : Vec3), MovesWith f 0 v → HasDerivAt (fun s => (f s).dot n) (v.dot n) 0 := by
    intro f v n ⟨hx, hy, hz⟩
    exact ((hx.mul_const n.x).add (hy.mul_const n.y)).add (hz.mul_const n.z)
  have main : ∀ (f : ℝ → Vec3) (v : Vec3) (X Y : ℝ → ℝ) (X' Y' : ℝ), MovesWith f 0 v → f 0 = u → (∀ s, (f s).dot (f s) = 1) →
      (∀ s, 1 + (f s).dot c ≠ 0 → chartProject c (f s) = some (X s, Y s)) → HasDerivAt X X' 0 → HasDerivAt Y Y' 0 →
      X' = (v.dot (westOf c) * (1 + u.dot c) - u.dot (westOf c) * v.dot c) / (1 + u.dot c) ^ 2 ∧
      Y' = (v.dot (northOf c) * (1 + u.dot c) - u.dot (northOf c) * v.dot c) / (1 + u.dot c) ^ 2 ∧ u.dot v = 0 := by
    intro f v X Y X' Y' hm e hf hXY dX dY
    have hcn := hdot f v c hm
    have hden : HasDerivAt (fun s => 1 + (f s).dot c) (v.dot c) 0 := hcn.const_add 1
    have hev : ∀ᶠ s in nhds (0:ℝ), 1 + (f s).dot c ≠ 0 :=
      hden.continuousAt.eventually_ne (by rw [e]; exact ha)
    have hval : ∀ᶠ s in nhds (0:ℝ), X s = (f s).dot (westOf c) / (1 + (f s).dot c) ∧
        Y s = (f s).dot (northOf c) / (1 + (f s).dot c) := by
      filter_upwards [hev] with s hs
      have hk := hXY s hs
      have hfl : (f s).length = 1 := by rw [Vec3.length_eq, hf s, sqrt_one]
      have hf0 : f s ≠ 0 := by intro h0; rw [h0, Vec3.length_zero] at hfl; norm_num at hfl
      have hone : (1 / (f s).length) • f s = f s := by rw [hfl]; ext <;> simp
      rw [chartProject_eq hc hp hf0] at hk
      simp only [hone] at hk
      rw [if_neg (by rwa [add_comm])] at hk
      simp only [Option.some.injEq, Prod.mk.injEq] at hk
      exact ⟨hk.1.symm, hk.2.symm⟩
    have q1 := (hdot f v (westOf c) hm).div hden (by rw [e]; exact ha)
    have q2 := (hdot f v (northOf c) hm).div hden (by rw [e]; exact ha)
    have r1 := dX.unique (q1.congr_of_eventuallyEq (by filter_upwards [hval] with s hs using hs.1))
    have r2 := dY.unique (q2.congr_of_eventuallyEq (by filter_upwards [hval] with s hs using hs.2))
    rw [e] at r1 r2
    refine ⟨r1, r2, ?_⟩
    obtain ⟨hx, hy, hz⟩ := hm
    have hsq := ((hx.mul hx).add (hy.mul hy)).add (hz.mul hz)
    have hconst : HasDerivAt (fun _ : ℝ => (1:ℝ)) 0 0 := hasDerivAt_const _ _
    have : (fun _ : ℝ => (1:ℝ)) = ((fun s => (f s).x) * fun s => (f s).x) + ((fun s => (f s).y) * fun s => (f s).y) +
        (fun s => (f s).z) * fun s => (f s).z := by
      funext s; exact (hf s).symm
    rw [this] at hconst
    have := hsq.unique hconst
    simp only [e] at this
    unfold Vec3.dot
    linarith
  obtain ⟨a1, b1, o1⟩ := main u₁ v₁ X₁ Y₁ X₁' Y₁' h1 e1 hu₁ hXY₁ dX₁ dY₁
  obtain ⟨a2, b2, o2⟩ := main u₂ v₂ X₂ Y₂ X₂' Y₂' h2 e2 hu₂ hXY₂ dX₂ dY₂
  have huu : u.dot u = 1 := by rw [← e1]; exact hu₁ 0
  have w1 := west_north hc hp u u
  have w2 := west_north hc hp u v₁
  have w3 := west_north hc hp u v₂
  have w4 := west_north hc hp v₁ v₂
  rw [huu] at w1
  rw [o1] at w2
  rw [o2] at w3
  rw [a1, b1, a2, b2, w4]
  generalize u.dot c = d at *
  generalize u.dot (westOf c) = uw at *
  generalize u.dot (northOf c) = un at *
  generalize v₁.dot c = p at *
  generalize v₁.dot (westOf c) = pw at *
  generalize v₁.dot (northOf c) = pn at *
  generalize v₂.dot c = q at *
  generalize v₂.dot (westOf c) = qw at *
  generalize v₂.dot (northOf c) = qn at *
  have hne : (1 + d) ≠ 0 := ha
  field_simp
  grind

/-- **C55.** The formula breaks down (NaN) when the center is a celestial pole, for every target. -/
theorem C55_pole (r : ℝ) (p : Vec3) : stereographic [⟨0, 0, r⟩] p = none := by
  rw [stereographic_single]
  cases h : unitOf ⟨0, 0, r⟩ with
  | none => rfl
  | some c =>
    have hx : c.x = 0 ∧ c.y = 0 := by
      unfold unitOf at h
      split_ifs at h
      have := Option.some.inj h
      rw [← this]; simp
    simp only [Option.bind_some]
    unfold chartProject
    cases unitOf p with
    | none => rfl
    | some u => simp [hx.1, hx.2]

/-- A center off the pole; two moving directions. -/
example : chartCenter [⟨3, 4, 0⟩] = some ⟨3 / 5, 4 / 5, 0⟩ ∧ ((3 / 5 : ℝ) ≠ 0 ∨ (4 / 5 : ℝ) ≠ 0) := by
  have : (⟨3, 4, 0⟩ : Vec3).length = 5 := by
    unfold Vec3.length
    rw [show (3:ℝ) * 3 + 4 * 4 + 0 * 0 = 5 * 5 by norm_num, Real.sqrt_mul_self (by norm_num)]
  refine ⟨?_, Or.inl (by norm_num)⟩
  simp only [chartCenter, unitOf, this]
  norm_num

example : MovesWith (fun s => ⟨cos s, sin s, 0⟩) 0 ⟨0, 1, 0⟩ ∧ ∀ s : ℝ, (⟨cos s, sin s, 0⟩ : Vec3).dot ⟨cos s, sin s, 0⟩ = 1 := by
  refine ⟨⟨?_, ?_, hasDerivAt_const _ _⟩, fun s => ?_⟩
  · simpa using hasDerivAt_cos 0
  · simpa using hasDerivAt_sin 0
  · simp only [Vec3.dot]; linear_combination sin_sq_add_cos_sq s

end Skyfield
