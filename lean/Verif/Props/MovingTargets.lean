import Verif.Props.RiseSet
import Mathlib.Analysis.Real.Pi.Bounds
import Mathlib.Analysis.Calculus.MeanValue
import Mathlib.Analysis.SpecialFunctions.Trigonometric.InverseDeriv
import Mathlib.Analysis.SpecialFunctions.Trigonometric.Deriv

/-
C111: how close the direct searches come to the passages of targets that move.
-/
namespace Skyfield
open Real

/-! ### Specification -/

/-- From `t0` to `t1` the angle `f` changes at the rate `w`, to within `ε`. -/
def SteadyAngle (f : ℝ → ℝ) (w ε t0 t1 : ℝ) : Prop :=
  ∀ s t, t0 ≤ s → s ≤ t1 → t0 ≤ t → t ≤ t1 → |f t - f s - w * (t - s)| ≤ ε * |t - s|

/-- From a day before the search to a day after it, the target's hour angle, followed through whole turns without jumps, changes at
the rate of `w` radians a day to within `ε`; and so does its lead over the hour angle that is wanted. -/
structure MovesSteadily (sky : ℝ → SkyPlace) (want : SkyPlace → Option ℝ) (w ε tt0 tt1 : ℝ) : Prop where
  angle : ∃ A, SteadyAngle A w ε (tt0 - 1) (tt1 + 1) ∧ ∀ t, tt0 - 1 ≤ t → t ≤ tt1 + 1 → ∃ k : ℤ, (sky t).ha = A t + 2 * π * k
  lead : ∃ G, SteadyAngle G w ε (tt0 - 1) (tt1 + 1) ∧ ∀ t, tt0 - 1 ≤ t → t ≤ tt1 + 1 →
    ∃ d, want (sky t) = some d ∧ ∃ k : ℤ, (sky t).ha - d = G t + 2 * π * k

/-- A rate below a turn in 0.8 days that is steady to one part in seven. -/
structure SteadyRate (w ε : ℝ) : Prop where
  nonneg : 0 ≤ ε
  pos : 0 < w
  steady : 7 * ε ≤ w
  slow : (w + ε) * 0.8 < 2 * π

/-- How much closer one step comes. -/
noncomputable def stepFactor (w ε : ℝ) : ℝ := 2 * ε / (w - ε)

/-! ### One step -/

theorem SteadyRate.low {w ε : ℝ} (h : SteadyRate w ε) : 0 < w - ε := by linarith [h.pos, h.steady, h.nonneg]

theorem SteadyRate.factor {w ε : ℝ} (h : SteadyRate w ε) : 0 ≤ stepFactor w ε ∧ stepFactor w ε ≤ 1 / 3 := by
  have h0 := h.low
  have h1 := h.nonneg
  unfold stepFactor
  refine ⟨by positivity, ?_⟩
  rw [div_le_iff₀ h0]
  linarith [h.steady]

theorem SteadyAngle.le {f : ℝ → ℝ} {w ε t0 t1 : ℝ} (h : SteadyAngle f w ε t0 t1) (hw : SteadyRate w ε) {s t : ℝ} (h1 : t0 ≤ s)
    (h2 : s ≤ t1) (h3 : t0 ≤ t) (h4 : t ≤ t1) : |f t - f s| ≤ (w + ε) * |t - s| := by
  have := abs_add_le (f t - f s - w * (t - s)) (w * (t - s))
  rw [sub_add_cancel, abs_mul, abs_of_pos hw.pos] at this
  have := h s t h1 h2 h3 h4
  linarith

theorem SteadyAngle.mono {f : ℝ → ℝ} {w ε t0 t1 : ℝ} (h : SteadyAngle f w ε t0 t1) (hw : SteadyRate w ε) {s t : ℝ} (h1 : t0 ≤ s)
    (h2 : s < t) (h4 : t ≤ t1) : f s < f t := by
  have h5 := h s t h1 (by linarith) (by linarith) h4
  rw [abs_of_pos (by linarith : 0 < t - s), abs_le] at h5
  have := mul_pos hw.low (by linarith : 0 < t - s)
  nlinarith [h5.1]

/-- A step with a rate that is right to within `ε`. -/
theorem step_error {w ε y ρ e : ℝ} (hw : SteadyRate w ε) (hy : |y - w * e| ≤ ε * |e|) (hρ : |ρ - w| ≤ ε) :
    |y / ρ - e| ≤ stepFactor w ε * |e| := by
  have h0 := hw.low
  have hρ0 : w - ε ≤ ρ := by linarith [(abs_le.1 hρ).1]
  have hp : 0 < ρ := by linarith
  have e1 : y / ρ - e = (y - ρ * e) / ρ := by field_simp
  rw [e1, abs_div, abs_of_pos hp, div_le_iff₀ hp]
  have h1 : |y - ρ * e| ≤ 2 * ε * |e| := by
    have e2 : y - ρ * e = (y - w * e) - (ρ - w) * e := by ring
    rw [e2]
    refine (abs_sub _ _).trans ?_
    rw [abs_mul]
    have := mul_le_mul_of_nonneg_right hρ (abs_nonneg e)
    linarith
  have h2 : 2 * ε = stepFactor w ε * (w - ε) := by unfold stepFactor; field_simp
  have h3 : stepFactor w ε * |e| * (w - ε) ≤ stepFactor w ε * |e| * ρ :=
    mul_le_mul_of_nonneg_left hρ0 (mul_nonneg hw.factor.1 (abs_nonneg e))
  rw [h2] at h1
  linarith

variable {sky : ℝ → SkyPlace} {want : SkyPlace → Option ℝ} {w ε tt0 tt1 : ℝ}

private theorem rate_near {x Δ : ℝ} (hΔ : Δ ≠ 0) (h : |x - w * Δ| ≤ ε * |Δ|) : |x / Δ - w| ≤ ε := by
  have e : x / Δ - w = (x - w * Δ) / Δ := by field_simp
  rw [e, abs_div, div_le_iff₀ (abs_pos.2 hΔ)]
  exact h

theorem first_rate (hw : SteadyRate w ε) {A : ℝ → ℝ} (hA : SteadyAngle A w ε (tt0 - 1) (tt1 + 1))
    (hk : ∀ t, tt0 - 1 ≤ t → t ≤ tt1 + 1 → ∃ k : ℤ, (sky t).ha = A t + 2 * π * k) {a t : ℝ} (h1 : tt0 - 1 ≤ a) (h2 : a < t)
    (h3 : t ≤ tt1 + 1) (h4 : t - a ≤ 0.8) : ∃ ρ, haPerDay sky (fun r => pyMod r tau) a t = some ρ ∧ |ρ - w| ≤ ε := by
  obtain ⟨k, hk1⟩ := hk t (by linarith) h3
  obtain ⟨j, hk2⟩ := hk a h1 (by linarith)
  have e : (sky t).ha - (sky a).ha = (A t - A a) + 2 * π * ((k - j : ℤ) : ℝ) := by rw [hk1, hk2]; push_cast; ring
  have hm := hA.mono hw h1 h2 h3
  have hl := hA.le hw h1 (by linarith) (by linarith) h3
  rw [abs_of_pos (by linarith), abs_of_pos (by linarith)] at hl
  have hlt : A t - A a < 2 * π := by
    have := mul_le_mul_of_nonneg_left h4 (by linarith [hw.low, hw.nonneg] : 0 ≤ w + ε)
    linarith [hw.slow]
  refine ⟨(A t - A a) / (t - a), ?_, rate_near (by linarith) (hA a t h1 (by linarith) (by linarith) h3)⟩
  unfold haPerDay
  rw [if_neg (by linarith)]
  simp only
  rw [e, pyMod_add_turns, pyMod_of_mem (by linarith) (by unfold tau; linarith)]

theorem later_rate (hw : SteadyRate w ε) {A : ℝ → ℝ} (hA : SteadyAngle A w ε (tt0 - 1) (tt1 + 1))
    (hk : ∀ t, tt0 - 1 ≤ t → t ≤ tt1 + 1 → ∃ k : ℤ, (sky t).ha = A t + 2 * π * k) {a t : ℝ} (h1 : tt0 - 1 ≤ a) (h2 : a ≤ tt1 + 1)
    (h3 : tt0 - 1 ≤ t) (h4 : t ≤ tt1 + 1) (hne : t - a ≠ 0) (hs : |t - a| < 0.4) :
    ∃ ρ, haPerDay sky normpi a t = some ρ ∧ |ρ - w| ≤ ε := by
  obtain ⟨k, hk1⟩ := hk t h3 h4
  obtain ⟨j, hk2⟩ := hk a h1 h2
  have e : (sky t).ha - (sky a).ha = (A t - A a) + 2 * π * ((k - j : ℤ) : ℝ) := by rw [hk1, hk2]; push_cast; ring
  have hl := hA.le hw h1 h2 h3 h4
  have hlt : |A t - A a| < π := by
    have := mul_le_mul_of_nonneg_left hs.le (by linarith [hw.low, hw.nonneg] : 0 ≤ w + ε)
    linarith [hw.slow]
  rw [abs_lt] at hlt
  refine ⟨(A t - A a) / (t - a), ?_, rate_near hne (hA a t h1 h2 h3 h4)⟩
  unfold haPerDay
  rw [if_neg hne, normpi_turns _ e hlt.1.le hlt.2]

theorem one_bump (hw : SteadyRate w ε) {G : ℝ → ℝ} (hG : SteadyAngle G w ε (tt0 - 1) (tt1 + 1))
    (hk : ∀ t, tt0 - 1 ≤ t → t ≤ tt1 + 1 → ∃ d, want (sky t) = some d ∧ ∃ k : ℤ, (sky t).ha - d = G t + 2 * π * k)
    {T t ρ : ℝ} {m : ℤ} (hm : G T = 2 * π * m) (h1 : tt0 - 1 ≤ T) (h2 : T ≤ tt1 + 1) (h3 : tt0 - 1 ≤ t) (h4 : t ≤ tt1 + 1)
    (hs : |T - t| < 0.4) (hρ : |ρ - w| ≤ ε) :
    ∃ b, timeBump sky want ρ t = some b ∧ b ≠ 0 ∧ |T - (t + b)| ≤ max (stepFactor w ε * |T - t|) microsecond ∧
      |b| ≤ max ((1 + stepFactor w ε) * |T - t|) microsecond := by
  obtain ⟨d, hd, k, hk⟩ := hk t h3 h4
  have hl := hG.le hw h3 h4 h1 h2
  have hlt : |G T - G t| < π := by
    have := mul_le_mul_of_nonneg_left hs.le (by linarith [hw.low, hw.nonneg] : 0 ≤ w + ε)
    linarith [hw.slow]
  rw [abs_lt] at hlt
  have hρ0 : 0 < ρ := by linarith [(abs_le.1 hρ).1, hw.low]
  have hdiff : haDifference sky want t = some (d - (sky t).ha) := by unfold haDifference; rw [hd]; rfl
  have hn : normpi (d - (sky t).ha) = G T - G t := by
    refine normpi_turns (-m - k) ?_ hlt.1.le hlt.2
    push_cast
    linarith
  have hse := step_error hw (hG t T h3 h4 h1 h2) hρ
  unfold timeBump
  rw [if_neg hρ0.ne', hdiff]
  simp only [Option.map_some, hn]
  by_cases h0 : (G T - G t) / ρ = 0
  · rw [if_pos h0]
    refine ⟨_, rfl, microsecond_pos.ne', ?_, ?_⟩
    · have ht : T = t := by
        have h5 : G T = G t := by
          rcases div_eq_zero_iff.1 h0 with h | h
          · linarith
          · exact absurd h hρ0.ne'
        rcases lt_trichotomy T t with h | h | h
        · exact absurd h5 (hG.mono hw h1 h h4).ne
        · exact h
        · exact absurd h5 (hG.mono hw h3 h h2).ne'
      rw [ht, sub_add_cancel_left, abs_neg, abs_of_pos microsecond_pos]
      exact le_max_right _ _
    · rw [abs_of_pos microsecond_pos]; exact le_max_right _ _
  · rw [if_neg h0]
    refine ⟨_, rfl, h0, ?_, ?_⟩
    · refine le_trans (le_trans (le_of_eq ?_) hse) (le_max_left _ _)
      rw [abs_sub_comm]
      congr 1; ring
    · refine le_trans ?_ (le_max_left _ _)
      have := abs_add_le ((G T - G t) / ρ - (T - t)) (T - t)
      rw [sub_add_cancel] at this
      linarith

/-! ### The loop -/

private theorem microsecond_small : microsecond < 0.001 := by unfold microsecond; norm_num

/-- The three turns of the loop. -/
theorem refine_error (hw : SteadyRate w ε) (h : MovesSteadily sky want w ε tt0 tt1) {G : ℝ → ℝ}
    (hG : SteadyAngle G w ε (tt0 - 1) (tt1 + 1))
    (hk : ∀ t, tt0 - 1 ≤ t → t ≤ tt1 + 1 → ∃ d, want (sky t) = some d ∧ ∃ k : ℤ, (sky t).ha - d = G t + 2 * π * k)
    {a t T : ℝ} {m : ℤ} (hm : G T = 2 * π * m) (hT0 : tt0 ≤ T) (hT1 : T ≤ tt1) (ha : tt0 ≤ a) (hat : a < t) (hta : t - a ≤ 0.8)
    (he : |T - t| ≤ 0.8 * stepFactor w ε) :
    ∃ t2 t3, refineEvent sky want a t = some (t2, t3) ∧ |T - t2| ≤ max (0.8 * stepFactor w ε ^ 3) microsecond ∧
      |T - t3| ≤ max (0.8 * stepFactor w ε ^ 4) microsecond := by
  obtain ⟨A, hA, hAk⟩ := h.angle
  obtain ⟨r0, r1⟩ := hw.factor
  have hmu := microsecond_pos
  have hmu' := microsecond_small
  set r := stepFactor w ε
  have s0 : |T - t| ≤ 0.27 := by linarith
  have near : ∀ x, |T - x| ≤ 0.27 → tt0 - 1 ≤ x ∧ x ≤ tt1 + 1 := by
    intro x hx
    rw [abs_le] at hx
    constructor <;> linarith [hx.1, hx.2]
  obtain ⟨w1, w2⟩ := near t s0
  obtain ⟨ρ0, hρ0, hρ0'⟩ := first_rate (sky := sky) hw hA hAk (by linarith) hat w2 hta
  obtain ⟨b0, hb0, hb0n, hb0e, hb0s⟩ := one_bump hw hG hk hm (by linarith) (by linarith) w1 w2 (by linarith) hρ0'
  have e1 : |T - (t + b0)| ≤ max (0.8 * r ^ 2) microsecond := by
    refine hb0e.trans (max_le_max ?_ le_rfl)
    nlinarith
  have s1 : |T - (t + b0)| ≤ 0.27 := by
    refine e1.trans (max_le ?_ (by linarith))
    nlinarith
  have sb : |b0| < 0.4 := by
    refine lt_of_le_of_lt hb0s (max_lt ?_ (by linarith))
    nlinarith [abs_nonneg (T - t)]
  obtain ⟨w3, w4⟩ := near _ s1
  obtain ⟨ρ1, hρ1, hρ1'⟩ := later_rate (sky := sky) hw hA hAk w1 w2 w3 w4 (by rw [add_sub_cancel_left]; exact hb0n)
    (by rw [add_sub_cancel_left]; exact sb)
  obtain ⟨b1, hb1, -, hb1e, -⟩ := one_bump hw hG hk hm (by linarith) (by linarith) w3 w4 (by linarith) hρ1'
  have shrink : ∀ (n : ℕ) (x : ℝ), |x| ≤ max (0.8 * r ^ n) microsecond → max (r * |x|) microsecond ≤ max (0.8 * r ^ (n + 1)) microsecond := by
    intro n x hx
    refine max_le ?_ (le_max_right _ _)
    rcases le_max_iff.1 hx with h | h
    · refine le_trans ?_ (le_max_left _ _)
      have := mul_le_mul_of_nonneg_left h r0
      rw [pow_succ]
      linarith
    · refine le_trans ?_ (le_max_right _ _)
      nlinarith [abs_nonneg x]
  have e2 : |T - (t + b0 + b1)| ≤ max (0.8 * r ^ 3) microsecond := hb1e.trans (shrink 2 _ e1)
  have s2 : |T - (t + b0 + b1)| ≤ 0.27 := by
    refine e2.trans (max_le ?_ (by linarith))
    have : r ^ 3 ≤ (1 / 3) ^ 3 := pow_le_pow_left₀ r0 r1 3
    linarith
  obtain ⟨w5, w6⟩ := near _ s2
  obtain ⟨b2, hb2, -, hb2e, -⟩ := one_bump hw hG hk hm (by linarith) (by linarith) w5 w6 (by linarith) hρ1'
  refine ⟨t + b0 + b1, t + b0 + b1 + b2, ?_, e2, hb2e.trans (shrink 3 _ e2)⟩
  unfold refineEvent
  simp only [hρ0, hb0, hρ1, hb1, hb2, Option.bind_eq_bind, Option.bind_some, Option.pure_def]

/-- The guess that is interpolated between two samples. -/
theorem guess_error (hw : SteadyRate w ε) {G : ℝ → ℝ} (hG : SteadyAngle G w ε (tt0 - 1) (tt1 + 1)) {T : ℝ} {g : ℝ × ℝ}
    (hg : GuessFor (fun t => -G t) T g) (h0 : tt0 ≤ g.1) (hT : T ≤ tt1) (hb1 : ∀ b, T < b → b - g.1 ≤ 0.8 → b ≤ tt1 + 1) {m : ℤ}
    (hm : G T = 2 * π * m) (hne : g.1 ≠ T) :
    g.1 < g.2 ∧ g.2 - g.1 ≤ 0.8 ∧ |T - g.2| ≤ 0.8 * stepFactor w ε := by
  obtain ⟨b, hab, hstep, ht0, ht1, hf, hs, hc⟩ := hg
  have hb := hb1 b ht1 hstep
  obtain ⟨-, hsome⟩ := C59_candidates _ _ g.1 b hf hs
  obtain ⟨n, u, hu0, hu1, hgu, hn⟩ := hsome _ hc
  simp only at hn hs hf
  have hpi := pi_pos
  have hlt : g.1 < T := lt_of_le_of_ne ht0 hne
  have m1 := hG.mono hw (by linarith) hlt (by linarith)
  have m2 := hG.mono hw (by linarith) ht1 hb
  have hpos : 0 < G b - G g.1 := by linarith
  have hmn : -m = n := by
    have hx0 : 0 ≤ u * (G b - G g.1) := mul_nonneg hu0 hpos.le
    have hx1 : u * (G b - G g.1) < G b - G g.1 := by nlinarith
    have e1 : 2 * π * (n : ℝ) = -G g.1 - u * (G b - G g.1) := by linarith
    have h1 : (-m : ℝ) < n + 1 := by nlinarith
    have h2 : (n : ℝ) < -m + 1 := by nlinarith
    have h1' : -m < n + 1 := by exact_mod_cast h1
    have h2' : n < -m + 1 := by exact_mod_cast h2
    omega
  have hn' : (n : ℝ) = -m := by rw [← hmn]; push_cast; ring
  have hG2 : G T - G g.1 = u * (G b - G g.1) := by
    rw [hn'] at hn
    linarith
  have hu : 0 < u := by
    rcases hu0.eq_or_lt with h | h
    · rw [← h] at hG2; linarith
    · exact h
  have hba : 0 < b - g.1 := by linarith
  refine ⟨by rw [hgu]; nlinarith, by rw [hgu]; nlinarith, ?_⟩
  have hρ := rate_near hba.ne' (hG g.1 b (by linarith) (by linarith) (by linarith) hb)
  have hse := step_error hw (hG g.1 T (by linarith) (by linarith) (by linarith) (by linarith)) hρ
  have e : (G T - G g.1) / ((G b - G g.1) / (b - g.1)) = g.2 - g.1 := by
    rw [hG2, hgu]
    field_simp
    ring
  rw [e] at hse
  have e2 : |T - g.2| = |g.2 - g.1 - (T - g.1)| := by rw [abs_sub_comm]; congr 1; ring
  rw [e2]
  refine hse.trans ?_
  rw [abs_of_pos (by linarith)]
  have := mul_le_mul_of_nonneg_left (by linarith : T - g.1 ≤ 0.8) hw.factor.1
  linarith

theorem MovesSteadily.sweeps {G : ℝ → ℝ} (hw : SteadyRate w ε) (hG : SteadyAngle G w ε (tt0 - 1) (tt1 + 1))
    (hk : ∀ t, tt0 - 1 ≤ t → t ≤ tt1 + 1 → ∃ d, want (sky t) = some d ∧ ∃ k : ℤ, (sky t).ha - d = G t + 2 * π * k) :
    Sweeps sky want (fun t => -G t) tt0 tt1 where
  follows := fun t h0 h1 => by
    obtain ⟨d, hd, k, hk⟩ := hk t (by linarith) (by linarith)
    exact ⟨d, hd, -k, by push_cast; linarith⟩
  cont := by
    apply ContinuousOn.neg
    have hl : LipschitzOnWith (Real.toNNReal (w + ε)) G (Set.Icc tt0 tt1) := by
      apply LipschitzOnWith.of_dist_le_mul
      intro x hx y hy
      rw [Real.dist_eq, Real.dist_eq, Real.coe_toNNReal _ (by linarith [hw.low, hw.nonneg])]
      exact hG.le hw (by linarith [hy.1]) (by linarith [hy.2]) (by linarith [hx.1]) (by linarith [hx.2])
    exact hl.continuousOn
  falls := fun s t h0 hst h1 => by
    have := hG.mono hw (by linarith) hst (by linarith)
    linarith
  slow := fun s t h0 hst h1 hle => by
    have h2 := hG.le hw (s := s) (t := t) (by linarith) (by linarith) (by linarith) (by linarith)
    have h3 := hG.mono hw (by linarith) hst (by linarith)
    rw [abs_of_pos (by linarith), abs_of_pos (by linarith)] at h2
    have := mul_le_mul_of_nonneg_left hle (by linarith [hw.low, hw.nonneg] : 0 ≤ w + ε)
    linarith [hw.slow]

/-- All three searches: the loop ends close to the passages. -/
theorem MovesSteadily.approaches (hw : SteadyRate w ε) (h : MovesSteadily sky want w ε tt0 tt1) (h01 : tt0 ≤ tt1) {samples : List ℝ}
    (hsam : findSamples tt0 tt1 = some samples) (hclear : ∀ s ∈ samples, ¬ Reaches sky want s) :
    ∃ times found, ListsPassages sky want tt0 tt1 times ∧ findApproaches sky want tt0 tt1 = some (found.map some) ∧
      List.Forall₂ (fun T (p : ℝ × ℝ) => |T - p.1| ≤ max (0.8 * stepFactor w ε ^ 3) microsecond ∧
        |T - p.2| ≤ max (0.8 * stepFactor w ε ^ 4) microsecond) times found := by
  obtain ⟨G, hG, hk⟩ := h.lead
  have hsw := MovesSteadily.sweeps hw hG hk
  obtain ⟨samples', times, guesses, hs', hp, hf, hall⟩ := findApproaches_spec hsw h01
  rw [hsam] at hs'
  injection hs' with hs'
  subst hs'
  have hmem : ∀ t ∈ times, tt0 ≤ t ∧ t ≤ tt1 ∧ Reaches sky want t := fun t ht => by
    obtain ⟨h1, h2, h3⟩ := (hp.2 t).1 ht
    exact ⟨h1, h2.le, h3⟩
  suffices hx : ∃ found : List (ℝ × ℝ), (guesses.map fun g => refineEvent sky want g.1 g.2) = found.map some ∧
      List.Forall₂ (fun T (p : ℝ × ℝ) => |T - p.1| ≤ max (0.8 * stepFactor w ε ^ 3) microsecond ∧
        |T - p.2| ≤ max (0.8 * stepFactor w ε ^ 4) microsecond) times found by
    obtain ⟨found, h1, h2⟩ := hx
    exact ⟨times, found, hp, by rw [hf, h1], h2⟩
  clear hf hp
  induction hall with
  | nil => exact ⟨[], rfl, List.Forall₂.nil⟩
  | @cons T g ts gs hg _ ih =>
    obtain ⟨found, h1, h2⟩ := ih fun t ht => hmem t (by simp [ht])
    obtain ⟨hg, hg0, hgs⟩ := hg
    obtain ⟨hT0, hT1, hr⟩ := hmem T (by simp)
    obtain ⟨m, hm⟩ := (reaches_iff hsw hT0 hT1).1 hr
    have hm' : G T = 2 * π * ((-m : ℤ) : ℝ) := by push_cast; linarith
    have hne : g.1 ≠ T := fun e => hclear _ hgs (e ▸ hr)
    have hle : g.1 ≤ T := by obtain ⟨b, -, -, h3, -⟩ := hg; exact h3
    obtain ⟨a1, a2, a3⟩ := guess_error hw hG hg hg0 hT1 (fun b _ hb2 => by linarith) hm' hne
    obtain ⟨t2, t3, e1, e2, e3⟩ := refine_error hw h hG hk hm' hT0 hT1 hg0 a1 a2 a3
    refine ⟨(t2, t3) :: found, ?_, List.Forall₂.cons ⟨e2, e3⟩ h2⟩
    rw [List.map_cons, List.map_cons, e1, h1]

/-! ### Transits -/

/-- **C111.** Transits of a moving target.  If the target's hour angle changes at `w` radians a day to within `ε`, `find_transits` reports
one time for each passage over the meridian, in order, each within 0.8 · (2ε / (w - ε))⁴ days of the passage or within a microsecond
(unless a passage falls exactly on a moment at which the search samples the sky). -/
theorem C111_transits (hw : SteadyRate w ε) (h : MovesSteadily sky wantTransit w ε tt0 tt1) (h01 : tt0 ≤ tt1) {samples : List ℝ}
    (hsam : findSamples tt0 tt1 = some samples) (hclear : ∀ s ∈ samples, ¬ Reaches sky wantTransit s) :
    ∃ times found, ListsPassages sky wantTransit tt0 tt1 times ∧ findTransits sky tt0 tt1 = some (found.map some) ∧
      List.Forall₂ (fun T t => |T - t| ≤ max (0.8 * (2 * ε / (w - ε)) ^ 4) (1 / 86400 / 10 ^ 6)) times found := by
  obtain ⟨times, found, h1, h2, h3⟩ := h.approaches hw h01 hsam hclear
  refine ⟨times, found.map (·.2), h1, ?_, ?_⟩
  · unfold findTransits
    rw [h2]
    simp [List.map_map, Function.comp_def]
  · rw [List.forall₂_map_right_iff]
    refine h3.imp fun T p hp => ?_
    have e : microsecond = 1 / 86400 / 10 ^ 6 := by unfold microsecond; norm_num
    rw [← e]
    exact hp.2

private theorem factor_le (hw : SteadyRate w ε) {n q : ℝ} (hn : 1 < n) (h : n * ε ≤ w) (hq : 2 ≤ q * (n - 1)) :
    2 * ε / (w - ε) ≤ q := by
  rw [div_le_iff₀ hw.low]
  have h0 := hw.nonneg
  have hq0 : 0 < q := by
    by_contra hq'
    nlinarith
  nlinarith

/-- **C111.** In numbers: an hour angle steady to one part in a thousand, as the Sun's and the planets', gives every transit to two
microseconds; one steady to one part in forty, as the Moon's, gives every transit to half a second. -/
theorem C111_transit_times (hw : SteadyRate w ε) (h : MovesSteadily sky wantTransit w ε tt0 tt1) (h01 : tt0 ≤ tt1) {samples : List ℝ}
    (hsam : findSamples tt0 tt1 = some samples) (hclear : ∀ s ∈ samples, ¬ Reaches sky wantTransit s) :
    ∃ times found, ListsPassages sky wantTransit tt0 tt1 times ∧ findTransits sky tt0 tt1 = some (found.map some) ∧
      (1000 * ε ≤ w → List.Forall₂ (fun T t => |T - t| * 86400 ≤ 2 / 10 ^ 6) times found) ∧
      (40 * ε ≤ w → List.Forall₂ (fun T t => |T - t| * 86400 ≤ 0.5) times found) := by
  obtain ⟨times, found, h1, h2, h3⟩ := C111_transits hw h h01 hsam hclear
  have h0 : 0 ≤ 2 * ε / (w - ε) := hw.factor.1
  refine ⟨times, found, h1, h2, fun hs => h3.imp fun T t ht => ?_, fun hs => h3.imp fun T t ht => ?_⟩
  · have hq := factor_le hw (q := 0.0020021) (by norm_num) hs (by norm_num)
    have hq4 := pow_le_pow_left₀ h0 hq 4
    have : |T - t| ≤ 2 / 10 ^ 6 / 86400 := ht.trans (max_le (by norm_num at *; linarith) (by norm_num))
    rw [le_div_iff₀ (by norm_num)] at this
    exact this
  · have hq := factor_le hw (q := 0.05129) (by norm_num) hs (by norm_num)
    have hq4 := pow_le_pow_left₀ h0 hq 4
    have : |T - t| ≤ 0.5 / 86400 := ht.trans (max_le (by norm_num at *; linarith) (by norm_num))
    rw [le_div_iff₀ (by norm_num)] at this
    exact this

/-! ### Risings and settings -/

/-- The last step moves a time at most three times as far from the passage. -/
theorem settle_error {c : HorizonChoice} {T t2 t3 t e2 e3 : ℝ} {flag : Bool} (h2 : |T - t2| ≤ e2) (h3 : |T - t3| ≤ e3)
    (hs : settleEvent sky want c t2 t3 = some (t, flag)) : |T - t| ≤ 2 * e2 + 2 * e3 := by
  obtain ⟨u, hu0, hu1, rfl⟩ := C66_last_step sky want c t2 t3 t flag hs
  have e : T - (t2 + u * (t3 - t2)) = (1 - u) * (T - t2) + u * (T - t3) := by ring
  rw [e]
  refine (abs_add_le _ _).trans ?_
  rw [abs_mul, abs_mul]
  have a1 : |1 - u| ≤ 2 := by rw [abs_le]; constructor <;> linarith
  have a2 : |u| ≤ 2 := by rw [abs_le]; constructor <;> linarith
  exact add_le_add (mul_le_mul a1 h2 (abs_nonneg _) (by norm_num)) (mul_le_mul a2 h3 (abs_nonneg _) (by norm_num))

/-- The last step gives no number only if the target stands exactly at the horizon. -/
theorem settle_none {c : HorizonChoice} {t2 t3 h2 h3 d : ℝ} (hd : want (sky t2) = some d)
    (hh2 : horizonRadians c (sky t2).distance = some h2) (hh3 : horizonRadians c (sky t3).distance = some h3)
    (h : settleEvent sky want c t2 t3 = none) : (sky t2).altitude = h2 := by
  unfold settleEvent at h
  simp only [hh2, hh3, hd, Option.bind_eq_bind, Option.bind_some, Option.pure_def] at h
  unfold clippedOffset at h
  cases hi : intersectionOf ((sky t2).altitude - h2) ((sky t3).altitude - h3) ((sky t2).rate * (t3 - t2)) ((sky t3).rate * (t3 - t2)) with
  | some x => rw [hi] at h; simp at h
  | none =>
    rw [hi] at h
    simp only at h
    by_cases h0 : (sky t2).altitude - h2 = 0
    · linarith
    · rw [if_neg h0] at h
      split at h <;> simp at h

private theorem settled {c : HorizonChoice} {times : List ℝ} {found : List (ℝ × ℝ)} {f : ℝ × ℝ → Option (ℝ × Bool)}
    (hw : SteadyRate w ε) (hf : ∀ p, f p = settleEvent sky want c p.1 p.2) (hm : MovesSteadily sky want w ε tt0 tt1)
    (hwant : ∀ p d, want p = some d → ∃ H, horizonRadians c p.distance = some H) (hlist : ListsPassages sky want tt0 tt1 times)
    (h : List.Forall₂ (fun T (p : ℝ × ℝ) => |T - p.1| ≤ max (0.8 * stepFactor w ε ^ 3) microsecond ∧
        |T - p.2| ≤ max (0.8 * stepFactor w ε ^ 4) microsecond) times found) :
    List.Forall₂ (fun T r => (∀ t flag, r = some (t, flag) →
      |T - t| ≤ 4 * max (0.8 * (2 * ε / (w - ε)) ^ 3) (1 / 86400 / 10 ^ 6)) ∧
      (r = none → ∃ s, |T - s| ≤ max (0.8 * (2 * ε / (w - ε)) ^ 3) (1 / 86400 / 10 ^ 6) ∧
        horizonRadians c (sky s).distance = some (sky s).altitude)) times (found.map f) := by
  rw [List.forall₂_map_right_iff]
  have hboth := List.forall₂_and_left (p := fun T => tt0 ≤ T ∧ T ≤ tt1) _ _ |>.2
    ⟨fun T hT => ⟨((hlist.2 T).1 hT).1, ((hlist.2 T).1 hT).2.1.le⟩, h⟩
  have e : microsecond = 1 / 86400 / 10 ^ 6 := by unfold microsecond; norm_num
  have e2 : stepFactor w ε = 2 * ε / (w - ε) := rfl
  obtain ⟨r0, r1⟩ := hw.factor
  have hr3 : 0 ≤ stepFactor w ε ^ 3 := by positivity
  have h4 : max (0.8 * stepFactor w ε ^ 4) microsecond ≤ max (0.8 * stepFactor w ε ^ 3) microsecond := by
    refine max_le_max ?_ le_rfl
    rw [pow_succ (stepFactor w ε) 3]
    nlinarith
  have h1 : max (0.8 * stepFactor w ε ^ 3) microsecond ≤ 1 := by
    refine max_le ?_ (by unfold microsecond; norm_num)
    have := pow_le_pow_left₀ r0 r1 3
    norm_num at this ⊢
    linarith
  refine hboth.imp fun T p hp => ?_
  obtain ⟨⟨hT0, hT1⟩, hp⟩ := hp
  rw [← e2, ← e, hf]
  constructor
  · intro t flag hr
    have := settle_error hp.1 (hp.2.trans h4) hr
    linarith
  · intro hr
    obtain ⟨G, -, hG⟩ := hm.lead
    have b1 := abs_le.1 (hp.1.trans h1)
    have b2 := abs_le.1 ((hp.2.trans h4).trans h1)
    obtain ⟨d, hd, -⟩ := hG p.1 (by linarith) (by linarith)
    obtain ⟨d', hd', -⟩ := hG p.2 (by linarith) (by linarith)
    obtain ⟨H, hH⟩ := hwant _ _ hd
    obtain ⟨H', hH'⟩ := hwant _ _ hd'
    exact ⟨p.1, hp.1, by rw [hH, settle_none hd hH hH' hr]⟩

private theorem rising_horizon {latitude : ℝ} {c : HorizonChoice} (p : SkyPlace) (d : ℝ) (h : wantRising latitude c p = some d) :
    ∃ H, horizonRadians c p.distance = some H := by
  unfold wantRising at h
  obtain ⟨H, hH, -⟩ := Option.bind_eq_some_iff.1 h
  exact ⟨H, hH⟩

private theorem setting_horizon {latitude : ℝ} {c : HorizonChoice} (p : SkyPlace) (d : ℝ) (h : wantSetting latitude c p = some d) :
    ∃ H, horizonRadians c p.distance = some H := by
  unfold wantSetting at h
  obtain ⟨H, hH, -⟩ := Option.bind_eq_some_iff.1 h
  exact ⟨H, hH⟩

/-- **C111.** Risings of a moving target.  If its hour angle, and its lead over the hour angle at which it meets the eastern horizon,
change at `w` radians a day to within `ε`, `find_risings` reports one time for each passage through that hour angle, in order, and no
reported time is further than 3.2 · (2ε / (w - ε))³ days or four microseconds from its passage.  An entry is nan only if the search came
upon a moment, as near to the passage, at which the target stands exactly at the horizon. -/
theorem C111_risings {latitude : ℝ} {c : HorizonChoice} (hw : SteadyRate w ε)
    (h : MovesSteadily sky (wantRising latitude c) w ε tt0 tt1) (h01 : tt0 ≤ tt1) {samples : List ℝ}
    (hsam : findSamples tt0 tt1 = some samples) (hclear : ∀ s ∈ samples, ¬ Reaches sky (wantRising latitude c) s) :
    ∃ times found, ListsPassages sky (wantRising latitude c) tt0 tt1 times ∧ findRisings sky latitude c tt0 tt1 = some found ∧
      List.Forall₂ (fun T r => (∀ t flag, r = some (t, flag) →
        |T - t| ≤ 4 * max (0.8 * (2 * ε / (w - ε)) ^ 3) (1 / 86400 / 10 ^ 6)) ∧
        (r = none → ∃ s, |T - s| ≤ max (0.8 * (2 * ε / (w - ε)) ^ 3) (1 / 86400 / 10 ^ 6) ∧
          horizonRadians c (sky s).distance = some (sky s).altitude)) times found := by
  obtain ⟨times, found, h1, h2, h3⟩ := h.approaches hw h01 hsam hclear
  refine ⟨times, found.map fun p => settleEvent sky (wantRising latitude c) c p.1 p.2, h1, ?_,
    settled hw (fun _ => rfl) h rising_horizon h1 h3⟩
  unfold findRisings
  rw [h2]
  simp [List.map_map, Function.comp_def]

/-- **C111.** Settings likewise. -/
theorem C111_settings {latitude : ℝ} {c : HorizonChoice} (hw : SteadyRate w ε)
    (h : MovesSteadily sky (wantSetting latitude c) w ε tt0 tt1) (h01 : tt0 ≤ tt1) {samples : List ℝ}
    (hsam : findSamples tt0 tt1 = some samples) (hclear : ∀ s ∈ samples, ¬ Reaches sky (wantSetting latitude c) s) :
    ∃ times found, ListsPassages sky (wantSetting latitude c) tt0 tt1 times ∧ findSettings sky latitude c tt0 tt1 = some found ∧
      List.Forall₂ (fun T r => (∀ t flag, r = some (t, flag) →
        |T - t| ≤ 4 * max (0.8 * (2 * ε / (w - ε)) ^ 3) (1 / 86400 / 10 ^ 6)) ∧
        (r = none → ∃ s, |T - s| ≤ max (0.8 * (2 * ε / (w - ε)) ^ 3) (1 / 86400 / 10 ^ 6) ∧
          horizonRadians c (sky s).distance = some (sky s).altitude)) times found := by
  obtain ⟨times, found, h1, h2, h3⟩ := h.approaches hw h01 hsam hclear
  refine ⟨times, found.map fun p => settleEvent sky (wantSetting latitude c) c p.1 p.2, h1, ?_,
    settled hw (fun _ => rfl) h setting_horizon h1 h3⟩
  unfold findSettings
  rw [h2]
  simp [List.map_map, Function.comp_def]

/-- **C111.** The passages are where the target meets the horizon: where its circle of declination meets the horizon, it stands at the
wanted hour angle exactly when its altitude is that of the horizon, in the west half of the sky for settings, in the east half for
risings. -/
theorem C111_at_the_horizon {latitude H T : ℝ} {c : HorizonChoice} (hlat : |latitude| < π / 2) (hdec : |(sky T).dec| < π / 2)
    (halt : AltitudeIs latitude (sky T).dec (sky T).ha (sky T).altitude) (hrange : |(sky T).altitude| ≤ π / 2)
    (hH : horizonRadians c (sky T).distance = some H) (hH2 : |H| ≤ π / 2) (hmeet : ∃ ha, AltitudeIs latitude (sky T).dec ha H) :
    (Reaches sky (wantSetting latitude c) T ↔ (sky T).altitude = H ∧ 0 ≤ sin (sky T).ha) ∧
    (Reaches sky (wantRising latitude c) T ↔ (sky T).altitude = H ∧ sin (sky T).ha ≤ 0) := by
  obtain ⟨s, r, hs, hr, as, ar, s0, s1, rfl⟩ := C59_hour_angle _ _ _ hlat hdec hmeet
  have hcl : 0 < cos latitude := cos_pos_of_mem_Ioo ⟨(abs_lt.1 hlat).1, (abs_lt.1 hlat).2⟩
  have hcd : 0 < cos (sky T).dec := cos_pos_of_mem_Ioo ⟨(abs_lt.1 hdec).1, (abs_lt.1 hdec).2⟩
  have hden : 0 < cos latitude * cos (sky T).dec := mul_pos hcl hcd
  have a1 := halt 0
  have a2 := as 0
  rw [altitude_formula] at a1 a2
  have hiff : (sky T).altitude = H ↔ cos (sky T).ha = cos s := by
    constructor
    · intro e
      rw [e, ← a2] at a1
      exact mul_left_cancel₀ hden.ne' (by linarith)
    · intro e
      rw [e, a2] at a1
      rw [abs_le] at hrange hH2
      exact (injOn_sin ⟨by linarith [hH2.1], hH2.2⟩ ⟨by linarith [hrange.1], hrange.2⟩ a1).symm
  have ws : wantSetting latitude c (sky T) = some s := by unfold wantSetting; rw [hH]; exact hs
  have wr : wantRising latitude c (sky T) = some (-s) := by unfold wantRising; rw [hH]; exact hr
  have hsin : 0 ≤ sin s := sin_nonneg_of_nonneg_of_le_pi s0 s1
  have key : ∀ x : ℝ, (∃ k : ℤ, x = s + 2 * π * k) ↔ cos x = cos s ∧ 0 ≤ sin x := by
    intro x
    constructor
    · rintro ⟨k, rfl⟩
      rw [show s + 2 * π * (k : ℝ) = s + k * (2 * π) by ring, cos_add_int_mul_two_pi, sin_add_int_mul_two_pi]
      exact ⟨rfl, hsin⟩
    · rintro ⟨h1, h2⟩
      obtain ⟨k, hk | hk⟩ := cos_eq_cos_iff.1 h1
      · exact ⟨-k, by push_cast; linarith⟩
      · have hx : x = -s + k * (2 * π) := by linarith
        have h3 : sin x = -sin s := by rw [hx, sin_add_int_mul_two_pi, sin_neg]
        have h4 : sin s = 0 := by linarith
        rcases s0.eq_or_lt with e | e
        · exact ⟨k, by rw [hx, ← e]; ring⟩
        · rcases s1.eq_or_lt with e' | e'
          · exact ⟨k - 1, by rw [hx, e']; push_cast; ring⟩
          · exact absurd h4 (sin_pos_of_pos_of_lt_pi e e').ne'
  constructor
  · rw [hiff, ← key]
    constructor
    · rintro ⟨d, hd, k, hk⟩
      rw [ws] at hd
      injection hd with hd
      exact ⟨k, by rw [hk, hd]⟩
    · rintro ⟨k, hk⟩
      exact ⟨s, ws, k, hk⟩
  · rw [hiff]
    have k2 := key (-(sky T).ha)
    rw [cos_neg, sin_neg] at k2
    rw [show sin (sky T).ha ≤ 0 ↔ 0 ≤ -sin (sky T).ha from (neg_nonneg).symm, ← k2]
    constructor
    · rintro ⟨d, hd, k, hk⟩
      rw [wr] at hd
      injection hd with hd
      exact ⟨-k, by rw [hk, ← hd]; push_cast; ring⟩
    · rintro ⟨k, hk⟩
      exact ⟨-s, wr, -k, by push_cast; linarith⟩

/-- A target on the celestial equator, seen setting due west from latitude 1 radian, over a horizon at altitude 0. -/
example : let p : SkyPlace := { ha := π / 2, dec := 0, distance := 1, altitude := 0, rate := 0 }
    |(1:ℝ)| < π / 2 ∧ |p.dec| < π / 2 ∧ AltitudeIs 1 p.dec p.ha p.altitude ∧ |p.altitude| ≤ π / 2 ∧
      horizonRadians (.degrees 0) p.distance = some 0 ∧ 0 < sin p.ha := by
  refine ⟨by rw [abs_one]; linarith [pi_gt_d2], by simp [pi_pos], ?_, by simp only [abs_zero]; linarith [pi_pos], by simp [horizonRadians], by simp⟩
  intro l
  rw [altitude_formula]
  simp

/-! ### Which targets move steadily -/

/-- The hour angle at which a target of declination `dec` meets the horizon. -/
private theorem horizon_angle_slope {lat H Δ q0 : ℝ} (hlat : 0 < cos lat) (hΔ : Δ < π / 2) (hΔ0 : 0 ≤ Δ) (hq1 : q0 < 1)
    (hmeet : ∀ x, |x| ≤ Δ → |sin H - sin lat * sin x| ≤ q0 * (cos lat * cos x)) {x y : ℝ} (hx : |x| ≤ Δ) (hy : |y| ≤ Δ) :
    |arccos ((sin H - sin lat * sin y) / (cos lat * cos y)) - arccos ((sin H - sin lat * sin x) / (cos lat * cos x))| ≤
      (|sin lat| + |sin H|) / (cos lat * cos Δ ^ 2 * √(1 - q0 ^ 2)) * |y - x| := by
  have hcΔ : 0 < cos Δ := cos_pos_of_mem_Ioo ⟨by linarith, hΔ⟩
  have hcos : ∀ z, |z| ≤ Δ → cos Δ ≤ cos z := by
    intro z hz
    rw [← cos_abs z]
    exact cos_le_cos_of_nonneg_of_le_pi (abs_nonneg _) (by linarith [pi_pos]) hz
  have hq : ∀ z, |z| ≤ Δ → |(sin H - sin lat * sin z) / (cos lat * cos z)| ≤ q0 := by
    intro z hz
    have := hcos z hz
    have hp : 0 < cos lat * cos z := mul_pos hlat (by linarith)
    rw [abs_div, abs_of_pos hp, div_le_iff₀ hp]
    exact hmeet z hz
  have hq0 : 0 ≤ q0 := (abs_nonneg _).trans (hq x hx)
  have hroot : 0 < √(1 - q0 ^ 2) := sqrt_pos.2 (by nlinarith)
  have hder : ∀ z ∈ Set.Icc (-Δ) Δ, HasDerivWithinAt
      (fun z => arccos ((sin H - sin lat * sin z) / (cos lat * cos z)))
      (-(1 / √(1 - ((sin H - sin lat * sin z) / (cos lat * cos z)) ^ 2)) *
        (((-(sin lat * cos z)) * (cos lat * cos z) - (sin H - sin lat * sin z) * (cos lat * -sin z)) / (cos lat * cos z) ^ 2))
      (Set.Icc (-Δ) Δ) z := by
    intro z hz
    have hz' : |z| ≤ Δ := abs_le.2 hz
    have hp : cos lat * cos z ≠ 0 := (mul_pos hlat (by linarith [hcos z hz'])).ne'
    have hqz := abs_le.1 (hq z hz')
    have h1 : HasDerivAt (fun z => sin H - sin lat * sin z) (-(sin lat * cos z)) z := by
      simpa using ((hasDerivAt_sin z).const_mul (sin lat)).const_sub (sin H)
    have h2 : HasDerivAt (fun z => cos lat * cos z) (cos lat * -sin z) z := (hasDerivAt_cos z).const_mul (cos lat)
    have h3 := h1.div h2 hp
    have h4 := hasDerivAt_arccos (x := (sin H - sin lat * sin z) / (cos lat * cos z)) (by linarith [hqz.1]) (by linarith [hqz.2])
    exact (HasDerivAt.comp z h4 h3).hasDerivWithinAt
  have hbound : ∀ z ∈ Set.Icc (-Δ) Δ, ‖-(1 / √(1 - ((sin H - sin lat * sin z) / (cos lat * cos z)) ^ 2)) *
        (((-(sin lat * cos z)) * (cos lat * cos z) - (sin H - sin lat * sin z) * (cos lat * -sin z)) / (cos lat * cos z) ^ 2)‖ ≤
      (|sin lat| + |sin H|) / (cos lat * cos Δ ^ 2 * √(1 - q0 ^ 2)) := by
    intro z hz
    have hz' : |z| ≤ Δ := abs_le.2 hz
    have hc := hcos z hz'
    have hcz : 0 < cos z := by linarith
    have e1 : ((-(sin lat * cos z)) * (cos lat * cos z) - (sin H - sin lat * sin z) * (cos lat * -sin z)) / (cos lat * cos z) ^ 2 =
        (sin H * sin z - sin lat) / (cos lat * cos z ^ 2) := by
      rw [div_eq_div_iff (by positivity) (by positivity)]
      have := sin_sq_add_cos_sq z
      linear_combination (-(sin lat * cos lat * cos lat * cos z ^ 2)) * this
    have hqz := hq z hz'
    generalize (sin H - sin lat * sin z) / (cos lat * cos z) = q at hqz e1 ⊢
    have hsq : q ^ 2 ≤ q0 ^ 2 := by rw [← sq_abs]; exact pow_le_pow_left₀ (abs_nonneg _) hqz 2
    have hr : √(1 - q0 ^ 2) ≤ √(1 - q ^ 2) := sqrt_le_sqrt (by linarith)
    rw [e1, norm_mul, norm_neg, norm_eq_abs, norm_eq_abs, abs_div, abs_div, abs_one, abs_of_pos (by linarith : 0 < √(1 - q ^ 2)),
      abs_of_pos (by positivity : 0 < cos lat * cos z ^ 2), div_mul_div_comm, one_mul]
    refine div_le_div₀ (by positivity) ?_ (by positivity) ?_
    · refine (abs_sub _ _).trans ?_
      rw [abs_mul]
      nlinarith [abs_sin_le_one z, abs_nonneg (sin H), abs_nonneg (sin z)]
    · rw [mul_comm (√(1 - q ^ 2))]
      have h2 : cos Δ ^ 2 ≤ cos z ^ 2 := pow_le_pow_left₀ hcΔ.le hc 2
      exact mul_le_mul (mul_le_mul_of_nonneg_left h2 hlat.le) hr hroot.le (by positivity)
  have := (convex_Icc (-Δ) Δ).norm_image_sub_le_of_norm_hasDerivWithin_le hder hbound (abs_le.1 hx) (abs_le.1 hy)
  simpa [norm_eq_abs] using this

/-- Seen from a place of latitude `lat`, with the horizon at the altitude `H`, every target whose declination is within `Δ` of the
equator meets the horizon, and stays away from merely grazing it: the cosine of the hour angle is at most `q0 < 1` in size. -/
structure CrossesHorizon (lat H Δ q0 : ℝ) : Prop where
  place : |lat| < π / 2
  far : Δ < π / 2
  near : 0 ≤ Δ
  steep : q0 < 1
  meets : ∀ x, |x| ≤ Δ → |sin H - sin lat * sin x| ≤ q0 * (cos lat * cos x)

private theorem setting_value {lat H Δ q0 x : ℝ} (h : CrossesHorizon lat H Δ q0) (hx : |x| ≤ Δ) :
    settingHourAngle lat x H = some (arccos ((sin H - sin lat * sin x) / (cos lat * cos x))) := by
  have hlat : 0 < cos lat := cos_pos_of_mem_Ioo ⟨by linarith [(abs_lt.1 h.place).1], (abs_lt.1 h.place).2⟩
  have hcx : 0 < cos x := cos_pos_of_mem_Ioo ⟨by linarith [(abs_le.1 hx).1, h.far], by linarith [(abs_le.1 hx).2, h.far]⟩
  have hp : 0 < cos lat * cos x := mul_pos hlat hcx
  have hq : |(sin H - sin lat * sin x) / (cos lat * cos x)| ≤ q0 := by
    rw [abs_div, abs_of_pos hp, div_le_iff₀ hp]
    exact h.meets x hx
  rw [abs_le] at hq
  unfold settingHourAngle
  simp only
  rw [if_neg hp.ne', max_eq_left (by linarith [h.steep, hq.1]), min_eq_left (by linarith [h.steep, hq.2])]

/-- **C111.** Which targets move steadily: those whose hour angle changes at `w` radians a day to within `ε` and whose declination
changes by at most `δ` radians a day.  For transits the hour angle alone counts; for risings and settings the declination adds at most
`δ` times a factor that depends on the latitude and on how steeply the target meets the horizon. -/
theorem C111_steady_targets {lat H Δ q0 δ : ℝ} {c : HorizonChoice} {A : ℝ → ℝ}
    (hA : SteadyAngle A w ε (tt0 - 1) (tt1 + 1))
    (hk : ∀ t, tt0 - 1 ≤ t → t ≤ tt1 + 1 → ∃ k : ℤ, (sky t).ha = A t + 2 * π * k) :
    MovesSteadily sky wantTransit w ε tt0 tt1 ∧
    (CrossesHorizon lat H Δ q0 →
      (∀ t, tt0 - 1 ≤ t → t ≤ tt1 + 1 → horizonRadians c (sky t).distance = some H ∧ |(sky t).dec| ≤ Δ) →
      (∀ s t, tt0 - 1 ≤ s → s ≤ tt1 + 1 → tt0 - 1 ≤ t → t ≤ tt1 + 1 → |(sky t).dec - (sky s).dec| ≤ δ * |t - s|) →
      0 ≤ δ →
      MovesSteadily sky (wantRising lat c) w (ε + (|sin lat| + |sin H|) / (cos lat * cos Δ ^ 2 * √(1 - q0 ^ 2)) * δ) tt0 tt1 ∧
      MovesSteadily sky (wantSetting lat c) w (ε + (|sin lat| + |sin H|) / (cos lat * cos Δ ^ 2 * √(1 - q0 ^ 2)) * δ) tt0 tt1) := by
  refine ⟨⟨⟨A, hA, hk⟩, ⟨A, hA, fun t h1 h2 => ?_⟩⟩, ?_⟩
  · obtain ⟨k, e⟩ := hk t h1 h2
    exact ⟨0, rfl, k, by rw [e]; ring⟩
  intro hc hh hdec hδ
  have hlat : 0 < cos lat := cos_pos_of_mem_Ioo ⟨by linarith [(abs_lt.1 hc.place).1], (abs_lt.1 hc.place).2⟩
  have hslope := fun s t (h1 : tt0 - 1 ≤ s) (h2 : s ≤ tt1 + 1) (h3 : tt0 - 1 ≤ t) (h4 : t ≤ tt1 + 1) =>
    horizon_angle_slope hlat hc.far hc.near hc.steep hc.meets (hh s h1 h2).2 (hh t h3 h4).2
  have hval := fun t (h1 : tt0 - 1 ≤ t) (h2 : t ≤ tt1 + 1) => setting_value hc (hh t h1 h2).2
  have hK : 0 ≤ (|sin lat| + |sin H|) / (cos lat * cos Δ ^ 2 * √(1 - q0 ^ 2)) := by positivity
  generalize (|sin lat| + |sin H|) / (cos lat * cos Δ ^ 2 * √(1 - q0 ^ 2)) = K at hslope hK ⊢
  set S : ℝ → ℝ := fun t => arccos ((sin H - sin lat * sin (sky t).dec) / (cos lat * cos (sky t).dec)) with hS
  have hSl : ∀ s t, tt0 - 1 ≤ s → s ≤ tt1 + 1 → tt0 - 1 ≤ t → t ≤ tt1 + 1 → |S t - S s| ≤ K * δ * |t - s| := by
    intro s t h1 h2 h3 h4
    refine (hslope s t h1 h2 h3 h4).trans ?_
    rw [mul_assoc]
    exact mul_le_mul_of_nonneg_left (hdec s t h1 h2 h3 h4) hK
  have hwide : SteadyAngle A w (ε + K * δ) (tt0 - 1) (tt1 + 1) := by
    intro s t h1 h2 h3 h4
    have := hA s t h1 h2 h3 h4
    have := mul_nonneg (mul_nonneg hK hδ) (abs_nonneg (t - s))
    linarith
  refine ⟨⟨⟨A, hwide, hk⟩, ⟨fun t => A t + S t, ?_, fun t h1 h2 => ?_⟩⟩, ⟨⟨A, hwide, hk⟩, ⟨fun t => A t - S t, ?_, fun t h1 h2 => ?_⟩⟩⟩
  · intro s t h1 h2 h3 h4
    have a := abs_add_le (A t - A s - w * (t - s)) (S t - S s)
    rw [show A t - A s - w * (t - s) + (S t - S s) = A t + S t - (A s + S s) - w * (t - s) by ring] at a
    have := hA s t h1 h2 h3 h4
    have := hSl s t h1 h2 h3 h4
    linarith
  · obtain ⟨k, e⟩ := hk t h1 h2
    refine ⟨-S t, ?_, k, by rw [e]; ring⟩
    unfold wantRising risingHourAngle
    rw [(hh t h1 h2).1, Option.bind_some, hval t h1 h2]
    rfl
  · intro s t h1 h2 h3 h4
    have a := abs_sub (A t - A s - w * (t - s)) (S t - S s)
    rw [show A t - A s - w * (t - s) - (S t - S s) = A t - S t - (A s - S s) - w * (t - s) by ring] at a
    have := hA s t h1 h2 h3 h4
    have := hSl s t h1 h2 h3 h4
    linarith
  · obtain ⟨k, e⟩ := hk t h1 h2
    refine ⟨S t, ?_, k, by rw [e]; ring⟩
    unfold wantSetting
    rw [(hh t h1 h2).1, Option.bind_some, hval t h1 h2]

/-- **C111.** In numbers: a steadiness of one part in 400 gives every rising and setting that is reported with a number to 0.05 seconds,
one part in 100 to 2.5 seconds, and one part in 40 to 40 seconds. -/
theorem C111_rise_set_times (hw : SteadyRate w ε) {T t : ℝ}
    (h : |T - t| ≤ 4 * max (0.8 * (2 * ε / (w - ε)) ^ 3) (1 / 86400 / 10 ^ 6)) :
    (400 * ε ≤ w → |T - t| * 86400 ≤ 0.05) ∧ (100 * ε ≤ w → |T - t| * 86400 ≤ 2.5) ∧ (40 * ε ≤ w → |T - t| * 86400 ≤ 40) := by
  have h0 : 0 ≤ 2 * ε / (w - ε) := hw.factor.1
  have key : ∀ n q b : ℝ, 1 < n → 2 ≤ q * (n - 1) → 3.2 * q ^ 3 * 86400 ≤ b → 4 / 10 ^ 6 ≤ b → n * ε ≤ w → |T - t| * 86400 ≤ b := by
    intro n q b hn hq hb hb2 hs
    have hq3 := pow_le_pow_left₀ h0 (factor_le hw hn hs hq) 3
    have : |T - t| ≤ b / 86400 := by
      refine h.trans ?_
      rw [mul_max_of_nonneg _ _ (by norm_num : (0:ℝ) ≤ 4)]
      refine max_le ?_ ?_
      · rw [le_div_iff₀ (by norm_num)]
        linarith
      · rw [le_div_iff₀ (by norm_num)]
        linarith
    rwa [le_div_iff₀ (by norm_num)] at this
  exact ⟨key 400 0.00502 0.05 (by norm_num) (by norm_num) (by norm_num) (by norm_num),
    key 100 0.02021 2.5 (by norm_num) (by norm_num) (by norm_num) (by norm_num),
    key 40 0.0513 40 (by norm_num) (by norm_num) (by norm_num) (by norm_num)⟩

/-! ### A target that meets the hypotheses -/

/-- A target that drifts in hour angle and in declination. -/
private noncomputable def wanderer (t : ℝ) : SkyPlace :=
  { ha := 6.3 * t + 0.001 * sin t, dec := 0.001 * sin t, distance := 1, altitude := 0, rate := 0 }

private theorem sin_slope (s t : ℝ) : |sin t - sin s| ≤ |t - s| := by
  rw [sin_sub_sin, abs_mul, abs_mul, abs_two]
  have h1 : |sin ((t - s) / 2)| ≤ |(t - s) / 2| := abs_sin_le_abs
  have h2 := abs_cos_le_one ((t + s) / 2)
  rw [abs_div, abs_two] at h1
  nlinarith [abs_nonneg (sin ((t - s) / 2)), abs_nonneg (cos ((t + s) / 2))]

private theorem wanderer_angle (a b : ℝ) : SteadyAngle (fun t => 6.3 * t + 0.001 * sin t) 6.3 0.001 a b := by
  intro s t _ _ _ _
  simp only
  rw [show 6.3 * t + 0.001 * sin t - (6.3 * s + 0.001 * sin s) - 6.3 * (t - s) = 0.001 * (sin t - sin s) by ring, abs_mul,
    abs_of_pos (by norm_num : (0:ℝ) < 0.001)]
  exact mul_le_mul_of_nonneg_left (sin_slope s t) (by norm_num)

private theorem turn_away {x : ℝ} (h1 : -3.16 < x) (h2 : x ≠ 0) (h3 : x < 3.16) (k : ℤ) : x ≠ 2 * π * k := by
  intro e
  have hp := pi_gt_d2
  rcases lt_trichotomy k 0 with hk | hk | hk
  · have : (k : ℝ) ≤ -1 := by exact_mod_cast (by omega : k ≤ -1)
    nlinarith
  · rw [hk] at e
    simp at e
    exact h2 e
  · have : (1 : ℝ) ≤ k := by exact_mod_cast (by omega : 1 ≤ k)
    nlinarith

private theorem half_day_samples : findSamples (-0.5) 0.2 = some [-0.5, 0.2] := by
  have hc : ⌈((0.2 : ℝ) - -0.5) / 0.8⌉ = 1 := by rw [Int.ceil_eq_iff]; norm_num
  unfold findSamples
  simp only [hc]
  rw [if_neg (by norm_num), show ((1 : ℤ) + 1).toNat = 2 from rfl]
  norm_num [npLinspace, List.range_succ]

/-- Seen from latitude 0.5 radians, between half a day before and 0.2 days after the transit at time 0, that target transits once, and
every hypothesis of `C111_transits` and `C111_risings` holds of it. -/
example : SteadyRate 6.3 0.001 ∧ MovesSteadily wanderer wantTransit 6.3 0.001 (-0.5) 0.2 ∧ findSamples (-0.5) 0.2 = some [-0.5, 0.2] ∧
    (∀ s ∈ [(-0.5 : ℝ), 0.2], ¬ Reaches wanderer wantTransit s) ∧ Reaches wanderer wantTransit 0 ∧
    CrossesHorizon 0.5 (-34 / 21600 * tau) 0.001 0.5 ∧
    ∃ ε', SteadyRate 6.3 ε' ∧ MovesSteadily wanderer (wantRising 0.5 .other) 6.3 ε' (-0.5) 0.2 := by
  have hcross : CrossesHorizon 0.5 (-34 / 21600 * tau) 0.001 0.5 := by
    refine ⟨by rw [abs_of_pos (by norm_num)]; linarith [pi_gt_d2], by linarith [pi_gt_d2], by norm_num, by norm_num, ?_⟩
    intro x hx
    have hc := one_sub_sq_div_two_le_cos (x := 0.5)
    have hcx := one_sub_sq_div_two_le_cos (x := x)
    have hx2 : x ^ 2 ≤ 0.001 ^ 2 := by rw [← sq_abs]; exact pow_le_pow_left₀ (abs_nonneg _) hx 2
    have h1 : |sin (-34 / 21600 * tau)| ≤ 0.01 := by
      refine abs_sin_le_abs.trans ?_
      unfold tau
      rw [abs_le]
      constructor <;> linarith [pi_pos, pi_lt_d2]
    have h2 : |sin 0.5 * sin x| ≤ 0.001 := by
      rw [abs_mul]
      have := abs_sin_le_one 0.5
      have : |sin x| ≤ |x| := abs_sin_le_abs
      nlinarith [abs_nonneg (sin x)]
    have h3 := abs_sub (sin (-34 / 21600 * tau)) (sin 0.5 * sin x)
    have h4 : 0.8 * 0.9 ≤ cos 0.5 * cos x := mul_le_mul (by norm_num at hc ⊢; linarith) (by norm_num at hx2 ⊢; linarith) (by norm_num)
      (by norm_num at hc ⊢; linarith)
    norm_num at h4 h1 h2 h3 ⊢
    linarith
  obtain ⟨m1, m2⟩ := C111_steady_targets (sky := wanderer) (tt0 := -0.5) (tt1 := 0.2) (lat := 0.5) (H := -34 / 21600 * tau)
    (Δ := 0.001) (q0 := 0.5) (δ := 0.001) (c := .other) (wanderer_angle _ _) (fun t _ _ => ⟨0, by simp [wanderer]⟩)
  have m3 := m2 hcross (fun t _ _ => ⟨rfl, by
      show |0.001 * sin t| ≤ 0.001
      rw [abs_mul, abs_of_pos (by norm_num : (0:ℝ) < 0.001)]
      nlinarith [abs_sin_le_one t]⟩) (fun s t _ _ _ _ => by
      show |0.001 * sin t - 0.001 * sin s| ≤ _
      rw [← mul_sub, abs_mul, abs_of_pos (by norm_num : (0:ℝ) < 0.001)]
      exact mul_le_mul_of_nonneg_left (sin_slope s t) (by norm_num)) (by norm_num)
  refine ⟨⟨by norm_num, by norm_num, by norm_num, by linarith [pi_gt_d2]⟩, m1, half_day_samples, ?_, ⟨0, rfl, 0, by simp [wanderer]⟩,
    hcross, _, ⟨?_, by norm_num, ?_, ?_⟩, m3.1⟩
  · intro s hs
    rintro ⟨d, hd, k, hk⟩
    have hd : (0:ℝ) = d := Option.some.inj hd
    rw [← hd, zero_add] at hk
    have hsin := abs_le.1 (abs_sin_le_one s)
    simp only [List.mem_cons, List.not_mem_nil, or_false] at hs
    refine turn_away ?_ ?_ ?_ k hk
    all_goals
      unfold wanderer
      simp only
      rcases hs with rfl | rfl
    · linarith
    · linarith
    · exact ne_of_lt (by linarith)
    · exact ne_of_gt (by linarith)
    · linarith
    · linarith
  all_goals
    have hc := one_sub_sq_div_two_le_cos (x := 0.5)
    have hcx := one_sub_sq_div_two_le_cos (x := 0.001)
    have hr : 0.5 ≤ √(1 - 0.5 ^ 2) := by rw [show (0.5:ℝ) = √(0.5 ^ 2) by rw [sqrt_sq (by norm_num)]]; exact sqrt_le_sqrt (by norm_num)
    have h1 : 0.5 ≤ cos 0.5 := by norm_num at hc ⊢; linarith
    have h2 : 0.9 ≤ cos 0.001 := by norm_num at hcx ⊢; linarith
    have h3 : 0.9 ^ 2 ≤ cos 0.001 ^ 2 := pow_le_pow_left₀ (by norm_num) h2 2
    have h4 : 0.5 * 0.9 ^ 2 * 0.5 ≤ cos 0.5 * cos 0.001 ^ 2 * √(1 - 0.5 ^ 2) :=
      mul_le_mul (mul_le_mul h1 h3 (by norm_num) (by linarith)) hr (by norm_num) (by positivity)
    have h5 : (|sin 0.5| + |sin (-34 / 21600 * tau)|) / (cos 0.5 * cos 0.001 ^ 2 * √(1 - 0.5 ^ 2)) ≤ 2 / (0.5 * 0.9 ^ 2 * 0.5) :=
      div_le_div₀ (by norm_num) (by linarith [abs_sin_le_one 0.5, abs_sin_le_one (-34 / 21600 * tau)]) (by norm_num) h4
    have h6 : 0 ≤ (|sin 0.5| + |sin (-34 / 21600 * tau)|) / (cos 0.5 * cos 0.001 ^ 2 * √(1 - 0.5 ^ 2)) := by
      have : 0 < cos 0.5 * cos 0.001 ^ 2 * √(1 - 0.5 ^ 2) := by linarith
      positivity
    generalize (|sin 0.5| + |sin (-34 / 21600 * tau)|) / (cos 0.5 * cos 0.001 ^ 2 * √(1 - 0.5 ^ 2)) = K at h5 h6 ⊢
    norm_num at h5
    linarith [pi_gt_d2]

end Skyfield
