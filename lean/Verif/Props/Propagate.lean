import Verif.Lemmas.Orbit
import Verif.Props.Spherical
import Verif.Props.Kepler
import Mathlib.Analysis.SpecialFunctions.Trigonometric.Series
import Mathlib.Analysis.SpecificLimits.Normed

/-
C45: two-body propagation.
-/
namespace Skyfield
open Real

/-! ### The motion -/

theorem stateAt_pos (o : OrbitConstants) (P V : Vec3) (dt x : ℝ) :
    (stateAt o P V dt x).1 = (1 - o.qovr0 * uni2 o.f x) • P + (dt - o.bq * uni3 o.f x) • V := by
  simp only [stateAt, uni2, uni3]
  congr 2
  · ring
  · ring

theorem stateAt_vel (o : OrbitConstants) (P V : Vec3) (dt x : ℝ) :
    (stateAt o P V dt x).2 =
      (-o.qovr0 * uni1 o.f x / brFn o x) • P + (1 - o.bq * uni2 o.f x / brFn o x) • V := by
  simp only [stateAt, uni1, uni2]
  congr 2
  · ring
  · ring

/-- **C45.** Zero elapsed time gives the starting state. -/
theorem C45_zero_time (P V : Vec3) (gm : ℝ) (hgm : 0 < gm) (hh : P.cross V ≠ 0) (x : ℝ)
    (hx : keplerFn (orbitConstants P V gm) x = 0) :
    stateAt (orbitConstants P V gm) P V 0 x = (P, V) := by
  obtain ⟨q, hf⟩ := orbit_facts hgm hh
  have : x = 0 := (kepler_strictMono hf).injective (by rw [hx, keplerFn_zero])
  subst this
  obtain ⟨u0, u1, u2, u3⟩ := uni_at_zero (orbitConstants P V gm).f
  refine Prod.ext ?_ ?_
  · rw [stateAt_pos, u2, u3]; ext <;> simp
  · rw [stateAt_vel, u1, u2]; ext <;> simp

/-- The distance from the center, from the universal variable. -/
theorem stateAt_radius {P V : Vec3} {gm q : ℝ}
    (hf : OrbitFacts (orbitConstants P V gm) gm P.length (P.dot V) (V.dot V) q) {dt x : ℝ}
    (hx : keplerFn (orbitConstants P V gm) x = dt) :
    (stateAt (orbitConstants P V gm) P V dt x).1.length * (orbitConstants P V gm).b = brFn (orbitConstants P V gm) x := by
  generalize orbitConstants P V gm = o at *
  have hbr := br_pos hf x
  have hb := hf.b_pos
  have hr0 := hf.r0_pos
  have hsq : (stateAt o P V dt x).1.dot (stateAt o P V dt x).1 * o.b ^ 2 = brFn o x ^ 2 := by
    obtain ⟨i0, _, i1⟩ := uni_identities o.f x
    rw [stateAt_pos]
    have hvc : dt - o.bq * uni3 o.f x = o.br0 * uni1 o.f x + o.b2rv * uni2 o.f x := by
      rw [← hx, keplerFn_eq]; ring
    rw [hvc, brFn_eq]
    simp only [Vec3.dot_add, Vec3.add_dot, Vec3.dot_smul, Vec3.smul_dot]
    rw [Vec3.dot_comm V P, ← Vec3.length_sq P, hf.br0, hf.b2rv, hf.bq, i0]
    have hq := hf.qovr0
    have hen := hf.energy
    have hm := hf.momentum
    rw [i0] at i1
    generalize P.length = r0 at *
    generalize P.dot V = rv at *
    generalize V.dot V = v2 at *
    generalize uni1 o.f x = u1 at *
    generalize uni2 o.f x = u2 at *
    generalize o.f = f at *
    generalize o.b = b at *
    generalize hqo : o.qovr0 = k at *
    have e1 : ((1 - k * u2) * ((1 - k * u2) * r0 ^ 2) + (b * r0 * u1 + b ^ 2 * rv * u2) * ((1 - k * u2) * rv) +
        ((1 - k * u2) * ((b * r0 * u1 + b ^ 2 * rv * u2) * rv) +
          (b * r0 * u1 + b ^ 2 * rv * u2) * ((b * r0 * u1 + b ^ 2 * rv * u2) * v2))) * b ^ 2 =
        b ^ 2 * ((r0 - q * u2) ^ 2 + 2 * (1 - k * u2) * (r0 * u1 + b * rv * u2) * (b * rv) +
          (r0 * u1 + b * rv * u2) ^ 2 * (b ^ 2 * v2)) := by
      rw [← hq]; ring
    have e2 : (b * r0 * (1 - f * u2) + b ^ 2 * rv * u1 + b * q * u2) ^ 2 =
        b ^ 2 * (r0 * (1 - f * u2) + b * rv * u1 + q * u2) ^ 2 := by ring
    have hv : b ^ 2 * v2 = 2 * k - f := by
      have : (b ^ 2 * v2) * r0 = (2 * k - f) * r0 := by rw [← hq] at hen; linear_combination hen
      exact mul_right_cancel₀ hr0.ne' this
    refine Eq.trans ?_ (Eq.trans e1 (Eq.trans ?_ e2.symm))
    · ring
    · rw [hv]
      congr 1
      generalize b * rv = w at *
      subst hq
      grind
  have hl := Vec3.length_nonneg (stateAt o P V dt x).1
  have : ((stateAt o P V dt x).1.length * o.b) ^ 2 = brFn o x ^ 2 := by
    rw [mul_pow, Vec3.length_sq, hsq]
  exact (pow_left_inj₀ (by positivity) hbr.le two_ne_zero).1 this

/-- **C45.** Angular momentum is preserved. -/
theorem C45_angular_momentum (P V : Vec3) (gm dt x : ℝ) (hgm : 0 < gm) (hh : P.cross V ≠ 0)
    (hx : keplerFn (orbitConstants P V gm) x = dt) :
    (stateAt (orbitConstants P V gm) P V dt x).1.cross (stateAt (orbitConstants P V gm) P V dt x).2 = P.cross V := by
  obtain ⟨q, hf⟩ := orbit_facts hgm hh
  generalize orbitConstants P V gm = o at *
  have hbr := br_pos hf x
  have hr0 := hf.r0_pos
  rw [stateAt_pos, stateAt_vel]
  have hvc : dt - o.bq * uni3 o.f x = o.br0 * uni1 o.f x + o.b2rv * uni2 o.f x := by
    rw [← hx, keplerFn_eq]; ring
  obtain ⟨i0, _, i1⟩ := uni_identities o.f x
  have hone : (1 - o.qovr0 * uni2 o.f x) * (1 - o.bq * uni2 o.f x / brFn o x) -
      (dt - o.bq * uni3 o.f x) * (-o.qovr0 * uni1 o.f x / brFn o x) = 1 := by
    have hq := hf.qovr0
    rw [hvc]
    have hbre := brFn_eq o x
    rw [hf.br0, hf.b2rv, hf.bq] at *
    field_simp
    rw [hbre, i0]
    rw [i0] at i1
    rw [← hq]
    generalize uni1 o.f x = u1 at *
    generalize uni2 o.f x = u2 at *
    grind
  simp only [Vec3.cross_add, Vec3.add_cross, Vec3.cross_smul, Vec3.smul_cross, Vec3.cross_self]
  have hanti : V.cross P = -(P.cross V) := by ext <;> simp [Vec3.cross] <;> ring
  rw [hanti]
  generalize P.cross V = H at *
  ext <;> simp <;> [linear_combination H.x * hone; linear_combination H.y * hone; linear_combination H.z * hone]

/-- **C45.** The equation for the universal variable has exactly one solution, the state computed from it is the starting
state at time zero, its velocity is the derivative of its position, and its acceleration is the inverse-square attraction
`-gm r / |r|³`: the propagated state is the motion of a body obeying Newton's law. -/
theorem C45_newton (P V : Vec3) (gm : ℝ) (hgm : 0 < gm) (hh : P.cross V ≠ 0) :
    ∃ X : ℝ → ℝ, (∀ dt x, keplerFn (orbitConstants P V gm) x = dt ↔ x = X dt) ∧
      (let pos := fun dt => (stateAt (orbitConstants P V gm) P V dt (X dt)).1
       let vel := fun dt => (stateAt (orbitConstants P V gm) P V dt (X dt)).2
       pos 0 = P ∧ vel 0 = V ∧
         ∀ dt, pos dt ≠ 0 ∧ MovesWith pos dt (vel dt) ∧
           MovesWith vel dt ((-(gm / (pos dt).length ^ 3)) • pos dt)) := by
  obtain ⟨q, hf⟩ := orbit_facts hgm hh
  choose X hX using kepler_exists hf
  have hz := fun x => C45_zero_time P V gm hgm hh x
  have hrad := fun dt => stateAt_radius hf (hX dt)
  have huniq : ∀ dt x, keplerFn (orbitConstants P V gm) x = dt ↔ x = X dt := fun dt x =>
    ⟨fun h => (kepler_strictMono hf).injective (by rw [h, hX]), fun h => by rw [h, hX]⟩
  refine ⟨X, huniq, ?_⟩
  have hz0 := hz (X 0) (hX 0)
  generalize orbitConstants P V gm = o at *
  intro pos vel
  refine ⟨by rw [show pos 0 = (stateAt o P V 0 (X 0)).1 from rfl, hz0],
    by rw [show vel 0 = (stateAt o P V 0 (X 0)).2 from rfl, hz0], fun dt => ?_⟩
  have hb := hf.b_pos
  have hbr := br_pos hf (X dt)
  have hr : (pos dt).length = brFn o (X dt) / o.b := by
    rw [eq_div_iff hb.ne']; exact hrad dt
  have hrpos : 0 < (pos dt).length := by rw [hr]; positivity
  have dX := kepler_inverse_deriv hf hX dt
  obtain ⟨d0, d1, d2, d3⟩ := uni_deriv o.f (X dt)
  have D1 := d1.comp dt dX
  have D2 := d2.comp dt dX
  have D3 := d3.comp dt dX
  have DB := (brFn_deriv o (X dt)).comp dt dX
  have hne : (brFn o ∘ X) dt ≠ 0 := hbr.ne'
  -- coefficients
  have Dpc := (D2.const_mul o.qovr0).const_sub 1
  have Dvc := (hasDerivAt_id dt).sub (D3.const_mul o.bq)
  have Dpd := (D1.const_mul (-o.qovr0)).div DB hne
  have Dvd := ((D2.const_mul o.bq).div DB hne).const_sub 1
  refine ⟨fun h0 => hrpos.ne' (Vec3.length_eq_zero.2 h0), ?_, ?_⟩
  · have hp : pos = fun s => (1 - o.qovr0 * uni2 o.f (X s)) • P + (s - o.bq * uni3 o.f (X s)) • V :=
      funext fun s => stateAt_pos o P V s (X s)
    have hv : vel dt = _ := stateAt_vel o P V dt (X dt)
    rw [hv, hp]
    refine ⟨?_, ?_, ?_⟩
    · refine ((Dpc.mul_const P.x).add (Dvc.mul_const V.x)).congr_deriv ?_
      simp; ring
    · refine ((Dpc.mul_const P.y).add (Dvc.mul_const V.y)).congr_deriv ?_
      simp; ring
    · refine ((Dpc.mul_const P.z).add (Dvc.mul_const V.z)).congr_deriv ?_
      simp; ring
  · have hv : vel = fun s => (-o.qovr0 * uni1 o.f (X s) / brFn o (X s)) • P +
        (1 - o.bq * uni2 o.f (X s) / brFn o (X s)) • V := funext fun s => stateAt_vel o P V s (X s)
    have hp : pos dt = (1 - o.qovr0 * uni2 o.f (X dt)) • P +
        (o.br0 * uni1 o.f (X dt) + o.b2rv * uni2 o.f (X dt)) • V := by
      have e := stateAt_pos o P V dt (X dt)
      have hvc : dt - o.bq * uni3 o.f (X dt) = o.br0 * uni1 o.f (X dt) + o.b2rv * uni2 o.f (X dt) := by
        rw [show dt - o.bq * uni3 o.f (X dt) = keplerFn o (X dt) - o.bq * uni3 o.f (X dt) by rw [hX], keplerFn_eq]; ring
      rw [hvc] at e
      exact e
    have hcube : -(gm / (pos dt).length ^ 3) = -(o.bq / brFn o (X dt) ^ 3) := by
      rw [hr, hf.bq, ← hf.b_sq]; field_simp
    rw [hv, hcube, hp]
    obtain ⟨i0, _, i1⟩ := uni_identities o.f (X dt)
    have hbre := brFn_eq o (X dt)
    have hq := hf.qovr0
    have hr0 := hf.r0_pos
    have hbq := hf.bq
    have hbr0 := hf.br0
    have hb2 := hf.b2rv
    -- the two scalar equations
    have s1 : ((-o.qovr0 * (uni0 o.f (X dt) * (brFn o (X dt))⁻¹)) * brFn o (X dt) -
        (-o.qovr0 * uni1 o.f (X dt)) * ((-o.f * o.br0 * uni1 o.f (X dt) + o.b2rv * uni0 o.f (X dt) +
          o.bq * uni1 o.f (X dt)) * (brFn o (X dt))⁻¹)) / brFn o (X dt) ^ 2 =
        -(o.bq / brFn o (X dt) ^ 3) * (1 - o.qovr0 * uni2 o.f (X dt)) := by
      have hn := hbr.ne'
      field_simp
      rw [hbre, i0, hbq, hbr0, hb2, ← hq]
      rw [i0] at i1
      generalize uni1 o.f (X dt) = u1 at *
      generalize uni2 o.f (X dt) = u2 at *
      grind
    have s2 : -((o.bq * (uni1 o.f (X dt) * (brFn o (X dt))⁻¹)) * brFn o (X dt) -
        (o.bq * uni2 o.f (X dt)) * ((-o.f * o.br0 * uni1 o.f (X dt) + o.b2rv * uni0 o.f (X dt) +
          o.bq * uni1 o.f (X dt)) * (brFn o (X dt))⁻¹)) / brFn o (X dt) ^ 2 =
        -(o.bq / brFn o (X dt) ^ 3) * (o.br0 * uni1 o.f (X dt) + o.b2rv * uni2 o.f (X dt)) := by
      have hn := hbr.ne'
      field_simp
      rw [hbre, i0]
      rw [i0] at i1
      generalize uni1 o.f (X dt) = u1 at *
      generalize uni2 o.f (X dt) = u2 at *
      grind
    refine ⟨?_, ?_, ?_⟩
    · refine ((Dpd.mul_const P.x).add (Dvd.mul_const V.x)).congr_deriv ?_
      simp only [Vec3.smul_x, Vec3.add_x, Function.comp]
      linear_combination P.x * s1 + V.x * s2
    · refine ((Dpd.mul_const P.y).add (Dvd.mul_const V.y)).congr_deriv ?_
      simp only [Vec3.smul_y, Vec3.add_y, Function.comp]
      linear_combination P.y * s1 + V.y * s2
    · refine ((Dpd.mul_const P.z).add (Dvd.mul_const V.z)).congr_deriv ?_
      simp only [Vec3.smul_z, Vec3.add_z, Function.comp]
      linear_combination P.z * s1 + V.z * s2

/-! ### The search for the universal variable -/

/-- What the bisection loop keeps: the root is bracketed, the trial value is the middle, and the bracket has been halved at
least `lcount` times. -/
theorem bisectLoop_spec {k : ℝ → ℝ} (hk : StrictMono k) {dt root w : ℝ} (hroot : k root = dt) (hw : 0 ≤ w) :
    ∀ (fuel : ℕ) (lower upper : ℝ) (lcount mostc n : ℕ), lower ≤ root → root ≤ upper → upper - lower ≤ w / 2 ^ n →
      lcount ≤ n → (mostc = 1000 ∨ mostc = 64) → (if mostc = 1000 then 1064 else 64) ≤ fuel + lcount →
      |bisectLoop k dt fuel lower upper ((upper + lower) / 2) lcount mostc - root| ≤ w / 2 ^ 65 := by
  intro fuel
  induction fuel with
  | zero =>
    intro lower upper lcount mostc n hl hu hwid hn hm hfuel
    simp only [bisectLoop]
    have hn64 : 64 ≤ n := by
      rcases hm with rfl | rfl <;> simp at hfuel <;> omega
    have h1 : w / 2 ^ n ≤ w / 2 ^ 64 := by
      apply div_le_div_of_nonneg_left hw (by positivity)
      exact pow_le_pow_right₀ (by norm_num) hn64
    have h2 : |(upper + lower) / 2 - root| ≤ (upper - lower) / 2 := by
      rw [abs_le]; constructor <;> linarith
    have h3 : w / 2 ^ 65 = w / 2 ^ 64 / 2 := by rw [div_div]; norm_num
    linarith
  | succ fuel ih =>
    intro lower upper lcount mostc n hl hu hwid hn hm hfuel
    rw [bisectLoop]
    by_cases hgo : lower < (upper + lower) / 2 ∧ (upper + lower) / 2 < upper ∧ lcount < mostc
    swap
    · rw [if_pos hgo]
      have h2 : |(upper + lower) / 2 - root| ≤ (upper - lower) / 2 := by
        rw [abs_le]; constructor <;> linarith
      have h3 : w / 2 ^ 65 = w / 2 ^ 64 / 2 := by rw [div_div]; norm_num
      by_cases hw0 : lower < upper
      · have : mostc ≤ lcount := by
          by_contra hc
          exact hgo ⟨by linarith, by linarith, by omega⟩
        have hn64 : 64 ≤ n := by rcases hm with rfl | rfl <;> omega
        have h1 : w / 2 ^ n ≤ w / 2 ^ 64 := by
          apply div_le_div_of_nonneg_left hw (by positivity)
          exact pow_le_pow_right₀ (by norm_num) hn64
        linarith
      · have : 0 ≤ w / 2 ^ 65 := by positivity
        linarith
    · rw [if_neg (not_not.2 hgo)]
      obtain ⟨hlx, hxu, hlt⟩ := hgo
      set x := (upper + lower) / 2 with hx
      simp only
      have hhalf : w / 2 ^ (n + 1) = w / 2 ^ n / 2 := by rw [pow_succ, div_div]
      -- the new bracket
      set u' := (if k x > dt ∨ ¬ k x > dt ∧ ¬ k x < dt then x else upper) with hu'
      set l' := (if k x < dt ∨ ¬ k x > dt ∧ ¬ k x < dt then x else lower) with hl'
      have hnew : l' ≤ root ∧ root ≤ u' ∧ u' - l' ≤ w / 2 ^ (n + 1) := by
        rw [hhalf]
        have hw' : 0 ≤ w / 2 ^ n := by positivity
        rcases lt_trichotomy (k x) dt with hc | hc | hc
        · have e1 : u' = upper := by rw [hu']; simp [hc, not_lt.2 hc.le]
          have e2 : l' = x := by rw [hl']; simp [hc]
          have : x < root := hk.lt_iff_lt.1 (by rw [hroot]; exact hc)
          rw [e1, e2]; refine ⟨this.le, hu, by linarith⟩
        · have e1 : u' = x := by rw [hu']; simp [hc]
          have e2 : l' = x := by rw [hl']; simp [hc]
          have : x = root := hk.injective (by rw [hroot]; exact hc)
          rw [e1, e2]; refine ⟨this.le, this.ge, by linarith⟩
        · have e1 : u' = x := by rw [hu']; simp [hc]
          have e2 : l' = lower := by rw [hl']; simp [hc, not_lt.2 hc.le]
          have : root < x := hk.lt_iff_lt.1 (by rw [hroot]; exact hc)
          rw [e1, e2]; refine ⟨hl, this.le, by linarith⟩
      obtain ⟨g1, g2, g3⟩ := hnew
      rw [if_neg (not_lt.2 (g1.trans g2))]
      by_cases hcond : mostc > 64 ∧ u' ≠ 0 ∧ l' ≠ 0
      · rw [if_pos hcond, if_pos hcond]
        refine ih _ _ _ _ (n + 1) g1 g2 g3 (by omega) (Or.inr rfl) ?_
        rcases hm with rfl | rfl
        · simp at hfuel ⊢; omega
        · omega
      · rw [if_neg hcond, if_neg hcond]
        refine ih _ _ _ _ (n + 1) g1 g2 g3 (by omega) hm ?_
        rcases hm with rfl | rfl <;> simp at hfuel ⊢ <;> omega

theorem bracketPast_stop {k : ℝ → ℝ} {dt bound : ℝ} {n : ℕ} (hn : n ≠ 0) {lower upper x : ℝ} (h : ¬ k x > dt) :
    bracketPast k dt bound n lower upper x = some (lower, upper) := by
  obtain ⟨m, rfl⟩ := Nat.exists_eq_succ_of_ne_zero hn
  rw [Nat.succ_eq_add_one, bracketPast, if_neg h]

theorem bracketFuture_stop {k : ℝ → ℝ} {dt bound : ℝ} {n : ℕ} (hn : n ≠ 0) {lower upper x : ℝ} (h : ¬ k x < dt) :
    bracketFuture k dt bound n lower upper x = some (lower, upper) := by
  obtain ⟨m, rfl⟩ := Nat.exists_eq_succ_of_ne_zero hn
  rw [Nat.succ_eq_add_one, bracketFuture, if_neg h]

theorem bisectLoop_stop {k : ℝ → ℝ} {dt : ℝ} {n : ℕ} {lower upper x : ℝ} {lcount mostc : ℕ} (h : ¬ lower < x) :
    bisectLoop k dt n lower upper x lcount mostc = x := by
  cases n with
  | zero => rfl
  | succ m => rw [bisectLoop, if_pos fun hc => h hc.1]

/-- **C45.** The search finds the solution: unless the elapsed time is so large that the code's overflow guard applies, it
stops with a value that differs from the exact one by at most 2⁻⁶⁵ of the first guess. -/
theorem C45_solver (P V : Vec3) (gm bound dt : ℝ) (hgm : 0 < gm) (hh : P.cross V ≠ 0)
    (hb : |dt / (orbitConstants P V gm).bq| ≤ bound) :
    ∃ x root, solveKepler (keplerFn (orbitConstants P V gm)) (orbitConstants P V gm).bq bound dt = some x ∧
      keplerFn (orbitConstants P V gm) root = dt ∧
      |x - root| ≤ |dt / (orbitConstants P V gm).bq| / 2 ^ 65 := by
  obtain ⟨q, hf⟩ := orbit_facts hgm hh
  generalize orbitConstants P V gm = o at *
  obtain ⟨root, hroot⟩ := kepler_exists hf dt
  have hmono := kepler_strictMono hf
  have hbq := bq_pos hf
  obtain ⟨hg1, hg2⟩ := kepler_guess hf (dt := dt)
  obtain ⟨hlo, hhi⟩ := abs_le.1 hb
  have hspec := fun lower upper => bisectLoop_spec hmono hroot (abs_nonneg (dt / o.bq)) 1100 lower upper 0 1000 0
  rcases lt_trichotomy dt 0 with hd | hd | hd
  · have hx0 : dt / o.bq < 0 := div_neg_of_neg_of_pos hd hbq
    have hr0 : root < 0 := hmono.lt_iff_lt.1 (by rw [hroot, keplerFn_zero]; exact hd)
    have hrl : dt / o.bq ≤ root := hmono.le_iff_le.1 (by rw [hroot]; exact hg2 hd.le)
    refine ⟨_, root, ?_, hroot, hspec (dt / o.bq) 0 hrl hr0.le ?_ le_rfl (Or.inl rfl) (by norm_num)⟩
    · unfold solveKepler
      simp only [if_neg (not_lt.2 hlo), if_neg (not_lt.2 hhi), gt_iff_lt, if_pos hd]
      rw [bracketPast_stop (by norm_num) (not_lt.2 (hg2 hd.le)), Option.map_some]
      simp only [if_pos hx0.le]
    · simp [abs_of_neg hx0]
  · subst hd
    have hr0 : root = 0 := hmono.injective (by rw [hroot, keplerFn_zero])
    refine ⟨0, root, ?_, hroot, ?_⟩
    · have hb0 : 0 ≤ bound := (abs_nonneg _).trans hb
      unfold solveKepler
      simp only [zero_div, gt_iff_lt, if_neg (not_lt.2 hb0), lt_self_iff_false, if_false, Option.map_some,
        Left.neg_neg_iff, le_refl, if_true, add_zero]
      rw [bisectLoop_stop (lt_irrefl 0)]
    · simp [hr0]
  · have hx0 : 0 < dt / o.bq := div_pos hd hbq
    have hr0 : 0 < root := hmono.lt_iff_lt.1 (by rw [hroot, keplerFn_zero]; exact hd)
    have hrl : root ≤ dt / o.bq := hmono.le_iff_le.1 (by rw [hroot]; exact hg1 hd.le)
    refine ⟨_, root, ?_, hroot, hspec 0 (dt / o.bq) hr0.le hrl ?_ le_rfl (Or.inl rfl) (by norm_num)⟩
    · unfold solveKepler
      simp only [if_neg (not_lt.2 hlo), if_neg (not_lt.2 hhi), gt_iff_lt, if_neg (not_lt.2 hd.le), if_pos hd]
      rw [bracketFuture_stop (by norm_num) (not_lt.2 (hg1 hd.le)), Option.map_some]
      simp only [if_pos hx0.le]
    · simp [abs_of_pos hx0]

/-- **C45.** `propagate` as a whole: it refuses exactly the starting states with no orbit (and none else, unless the overflow
guard applies), and otherwise returns the state for a universal variable that solves the equation to 2⁻⁶⁵ of the first
guess. -/
theorem C45_propagate (P V : Vec3) (t0 t1 gm bound : ℝ) :
    ((gm ≤ 0 ∨ P.cross V = 0) → propagate bound P V t0 t1 gm = none) ∧
    (0 < gm → P.cross V ≠ 0 → |(t1 - t0) / (orbitConstants P V gm).bq| ≤ bound →
      ∃ x root, propagate bound P V t0 t1 gm = some (stateAt (orbitConstants P V gm) P V (t1 - t0) x) ∧
        keplerFn (orbitConstants P V gm) root = t1 - t0 ∧
        |x - root| ≤ |(t1 - t0) / (orbitConstants P V gm).bq| / 2 ^ 65) := by
  constructor
  · intro h
    unfold propagate
    split_ifs with h1 h2 h3 h4 <;> try rfl
    rcases h with h | h
    · exact absurd h h1
    · exact absurd (by rw [h]; simp [Vec3.dot]) h4
  · intro hgm hh hb
    obtain ⟨x, root, hs, hr, hx⟩ := C45_solver P V gm bound (t1 - t0) hgm hh hb
    refine ⟨x, root, ?_, hr, hx⟩
    have hP : P ≠ 0 := by rintro rfl; exact hh (by ext <;> simp [Vec3.cross])
    have hV : V ≠ 0 := by rintro rfl; exact hh (by ext <;> simp [Vec3.cross])
    unfold propagate
    rw [if_neg (not_le.2 hgm), if_neg (Vec3.length_pos hV).ne', if_neg (Vec3.length_pos hP).ne',
      if_neg fun e => hh (Vec3.dot_self_eq_zero.1 e)]
    simp only
    rw [hs]; rfl

/-! ### The Stumpff functions -/

/-- The first two functions are the sums of their power series. -/
theorem stumpff_series (y : ℝ) :
    HasSum (fun j : ℕ => (-y) ^ j / ((2 * j).factorial : ℝ)) (stumpff y).c0 ∧
    HasSum (fun j : ℕ => (-y) ^ j / ((2 * j + 1).factorial : ℝ)) (stumpff y).c1 := by
  rcases lt_trichotomy y 0 with h | rfl | h
  · have hs : 0 < √(-y) := sqrt_pos.2 (by linarith)
    have hsq : √(-y) ^ 2 = -y := sq_sqrt (by linarith)
    rw [stumpff_neg h]
    constructor
    · have := Real.hasSum_cosh √(-y)
      simpa only [pow_mul, hsq] using this
    · have := (Real.hasSum_sinh √(-y)).div_const √(-y)
      have e : ∀ j : ℕ, (-y) ^ j / ((2 * j + 1).factorial : ℝ) =
          √(-y) ^ (2 * j + 1) / ((2 * j + 1).factorial : ℝ) / √(-y) := fun j => by
        rw [pow_succ, pow_mul, hsq]
        field_simp
      simpa only [e] using this
  · rw [stumpff_zero]
    constructor
    · have := hasSum_single (f := fun j : ℕ => (-(0:ℝ)) ^ j / ((2 * j).factorial : ℝ)) 0 (fun j hj => by simp [hj])
      simpa using this
    · have := hasSum_single (f := fun j : ℕ => (-(0:ℝ)) ^ j / ((2 * j + 1).factorial : ℝ)) 0 (fun j hj => by simp [hj])
      simpa using this
  · have hs : 0 < √y := sqrt_pos.2 h
    have hsq : √y ^ 2 = y := sq_sqrt h.le
    rw [stumpff_pos h]
    constructor
    · have := Real.hasSum_cos √y
      have e : ∀ j : ℕ, (-y) ^ j = (-1) ^ j * (√y) ^ (2 * j) := fun j => by rw [pow_mul, hsq, ← mul_pow]; ring
      simpa only [e] using this
    · have := (Real.hasSum_sin √y).div_const √y
      have e : ∀ j : ℕ, (-y) ^ j / ((2 * j + 1).factorial : ℝ) =
          (-1) ^ j * √y ^ (2 * j + 1) / ((2 * j + 1).factorial : ℝ) / √y := fun j => by
        rw [pow_succ, pow_mul, hsq, show (-y) ^ j = (-1) ^ j * y ^ j by rw [← mul_pow]; ring]
        field_simp
      simpa only [e] using this

theorem stumpff_series' (y : ℝ) :
    HasSum (fun j : ℕ => (-y) ^ j / ((2 * j + 2).factorial : ℝ)) (stumpff y).c2 ∧
    HasSum (fun j : ℕ => (-y) ^ j / ((2 * j + 3).factorial : ℝ)) (stumpff y).c3 := by
  rcases eq_or_ne y 0 with rfl | h
  · rw [stumpff_zero]
    constructor
    · have := hasSum_single (f := fun j : ℕ => (-(0:ℝ)) ^ j / ((2 * j + 2).factorial : ℝ)) 0 (fun j hj => by simp [hj])
      simpa [Nat.factorial] using this
    · have := hasSum_single (f := fun j : ℕ => (-(0:ℝ)) ^ j / ((2 * j + 3).factorial : ℝ)) 0 (fun j hj => by simp [hj])
      norm_num [Nat.factorial] at this ⊢
      exact this
  · obtain ⟨h0, h1⟩ := stumpff_series y
    have e2 : (stumpff y).c2 = ((stumpff y).c0 - 1) / (-y) ∧ (stumpff y).c3 = ((stumpff y).c1 - 1) / (-y) := by
      rcases lt_or_gt_of_ne h with hy | hy
      · rw [stumpff_neg hy]; constructor <;> · field_simp; ring
      · rw [stumpff_pos hy]; constructor <;> · field_simp; ring
    rw [e2.1, e2.2]
    have s0 := (hasSum_nat_add_iff' 1).2 h0
    have s1 := (hasSum_nat_add_iff' 1).2 h1
    simp only [Finset.range_one, Finset.sum_singleton, pow_zero, mul_zero, Nat.factorial_zero, Nat.cast_one, div_one,
      zero_add, Nat.factorial_one] at s0 s1
    constructor
    · have e : ∀ j : ℕ, (-y) ^ j / ((2 * j + 2).factorial : ℝ) =
          (-y) ^ (j + 1) / ((2 * (j + 1)).factorial : ℝ) / (-y) := fun j => by
        rw [pow_succ, show 2 * (j + 1) = 2 * j + 2 by ring]
        field_simp
      simpa only [e] using s0.div_const (-y)
    · have e : ∀ j : ℕ, (-y) ^ j / ((2 * j + 3).factorial : ℝ) =
          (-y) ^ (j + 1) / ((2 * (j + 1) + 1).factorial : ℝ) / (-y) := fun j => by
        rw [pow_succ, show 2 * (j + 1) + 1 = 2 * j + 3 by ring]
        field_simp
      simpa only [e] using s1.div_const (-y)

theorem stumpff_tail {y s : ℝ} (hy : |y| ≤ 1) {m : ℕ} (hm : 2 ≤ m)
    (h : HasSum (fun j : ℕ => (-y) ^ j / ((2 * j + m).factorial : ℝ)) s) :
    |s - ∑ j ∈ Finset.range 9, (-y) ^ j / ((2 * j + m).factorial : ℝ)| ≤ 1e-18 := by
  have h9 := (hasSum_nat_add_iff' 9).2 h
  have hg : HasSum (fun n : ℕ => (1 / (Nat.factorial 20 : ℝ)) * (1 / 2 : ℝ) ^ n) ((1 / (Nat.factorial 20 : ℝ)) * 2) :=
    hasSum_geometric_two.mul_left _
  have hb : ∀ n : ℕ, ‖(-y) ^ (n + 9) / ((2 * (n + 9) + m).factorial : ℝ)‖ ≤
      (1 / (Nat.factorial 20 : ℝ)) * (1 / 2 : ℝ) ^ n := by
    intro n
    have hpow : |y| ^ (n + 9) ≤ 1 := pow_le_one₀ (abs_nonneg y) hy
    have hfac : Nat.factorial 20 * 2 ^ n ≤ (2 * (n + 9) + m).factorial :=
      calc Nat.factorial 20 * 2 ^ n ≤ Nat.factorial 20 * (20 + 1) ^ n := by gcongr; norm_num
        _ ≤ (20 + n).factorial := Nat.factorial_mul_pow_le_factorial
        _ ≤ _ := Nat.factorial_le (by omega)
    have hfac' : (Nat.factorial 20 : ℝ) * 2 ^ n ≤ ((2 * (n + 9) + m).factorial : ℝ) := by exact_mod_cast hfac
    have hpos : (0:ℝ) < (Nat.factorial 20 : ℝ) * 2 ^ n := by positivity
    rw [norm_div, norm_pow, norm_neg, Real.norm_eq_abs, Real.norm_of_nonneg (by positivity : (0:ℝ) ≤ _)]
    calc |y| ^ (n + 9) / ((2 * (n + 9) + m).factorial : ℝ) ≤ 1 / ((Nat.factorial 20 : ℝ) * 2 ^ n) := by
          gcongr
      _ = _ := by rw [one_div_pow, one_div_mul_one_div]
  have := tsum_of_norm_bounded hg hb
  rw [h9.tsum_eq, Real.norm_eq_abs] at this
  refine this.trans ?_
  norm_num [Nat.factorial]

/-- **C45.** For every argument the code's Stumpff functions (closed forms outside [-1, 1], nine terms of the series inside)
differ from the exact ones by at most 10⁻¹⁸, far below double precision. -/
theorem C45_stumpff (y : ℝ) :
    |(stumpffCode y).c0 - (stumpff y).c0| ≤ 1e-18 ∧ |(stumpffCode y).c1 - (stumpff y).c1| ≤ 1e-18 ∧
    |(stumpffCode y).c2 - (stumpff y).c2| ≤ 1e-18 ∧ |(stumpffCode y).c3 - (stumpff y).c3| ≤ 1e-18 := by
  by_cases hlo : y < -1
  · have h0 : y < 0 := by linarith
    have e : stumpffCode y = stumpff y := by
      rw [stumpff_neg h0]; simp [stumpffCode, hlo, abs_of_neg h0]
    rw [e]; norm_num
  by_cases hhi : y > 1
  · have h0 : 0 < y := by linarith
    have e : stumpffCode y = stumpff y := by
      rw [stumpff_pos h0]; simp [stumpffCode, hlo, hhi.lt, abs_of_pos h0]
    rw [e]; norm_num
  have hy : |y| ≤ 1 := abs_le.2 ⟨not_lt.1 hlo, not_lt.1 hhi⟩
  obtain ⟨s2, s3⟩ := stumpff_series' y
  have t2 := stumpff_tail hy (by norm_num) s2
  have t3 := stumpff_tail hy (by norm_num) s3
  have hpow : ∀ j : ℕ, (if j % 2 = 1 then y * -1 else y) ^ j = (-y) ^ j := by
    intro j
    split_ifs with hj
    · rw [mul_neg_one]
    · rw [Even.neg_pow (Nat.even_iff.2 (by omega))]
  have e : stumpffCode y = ⟨1 - y * ∑ j ∈ Finset.range 9, (-y) ^ j / ((2 * j + 2).factorial : ℝ),
      1 - y * ∑ j ∈ Finset.range 9, (-y) ^ j / ((2 * j + 3).factorial : ℝ),
      ∑ j ∈ Finset.range 9, (-y) ^ j / ((2 * j + 2).factorial : ℝ),
      ∑ j ∈ Finset.range 9, (-y) ^ j / ((2 * j + 3).factorial : ℝ)⟩ := by
    simp only [stumpffCode, if_neg hlo, if_neg hhi, hpow, stumpffTerms]
  have c01 : (stumpff y).c0 = 1 - y * (stumpff y).c2 ∧ (stumpff y).c1 = 1 - y * (stumpff y).c3 := by
    rcases lt_trichotomy y 0 with h | rfl | h
    · rw [stumpff_neg h]; have := h.ne; constructor <;> · field_simp; ring
    · rw [stumpff_zero]; norm_num
    · rw [stumpff_pos h]; have := h.ne'; constructor <;> · field_simp; ring
  rw [c01.1, c01.2, e]
  simp only
  generalize (∑ j ∈ Finset.range 9, (-y) ^ j / ((2 * j + 2).factorial : ℝ)) = a at *
  generalize (∑ j ∈ Finset.range 9, (-y) ^ j / ((2 * j + 3).factorial : ℝ)) = b at *
  have key : ∀ p c : ℝ, |c - p| ≤ 1e-18 → |1 - y * p - (1 - y * c)| ≤ 1e-18 := by
    intro p c hc
    rw [show 1 - y * p - (1 - y * c) = y * (c - p) by ring, abs_mul]
    calc |y| * |c - p| ≤ 1 * |c - p| := by gcongr
      _ ≤ _ := by rw [one_mul]; exact hc
  exact ⟨key _ _ t2, key _ _ t3, by rw [abs_sub_comm]; exact t2, by rw [abs_sub_comm]; exact t3⟩

/-! ### The hypotheses can be met -/

/-- A non-radial starting state. -/
example : (⟨1, 0, 0⟩ : Vec3).cross ⟨0, 1, 0⟩ ≠ 0 := by
  intro h
  have := congrArg Vec3.z h
  simp [Vec3.cross] at this

/-- For every such state and every elapsed time there is a limit under which `C45_solver` applies. -/
example (P V : Vec3) (gm dt : ℝ) : ∃ bound, |dt / (orbitConstants P V gm).bq| ≤ bound := ⟨_, le_rfl⟩

end Skyfield
