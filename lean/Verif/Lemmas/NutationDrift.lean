import Verif.Lemmas.NutationSlopes
import Mathlib.Analysis.Real.Pi.Bounds
import Mathlib.Tactic.IntervalCases

/-
How far the arguments of the bundled nutation series, and the series themselves, move between two dates.
-/
namespace Skyfield
open Real

theorem asec2rad_close : |asec2rad - exactArcsecond| ≤ 2e-26 := by
  have h1 := pi_gt_d20
  have h2 := pi_lt_d20
  unfold asec2rad exactArcsecond
  rw [abs_le]
  constructor <;> norm_num at h1 h2 ⊢ <;> linarith

theorem exactArcsecond_bounds : 4.848136e-6 < exactArcsecond ∧ exactArcsecond < 4.8481369e-6 := by
  have h := abs_le.1 asec2rad_close
  unfold asec2rad at h
  constructor <;> norm_num at h ⊢ <;> linarith [h.1, h.2]

/-- A polynomial without constant and linear part changes by little. -/
theorem tail_change {c2 c3 c4 t u : ℝ} (h2 : |c2| ≤ 32) (h3 : |c3| ≤ 0.06) (h4 : |c4| ≤ 0.0003) (ht : |t| ≤ 30) (hu : |u| ≤ 30) :
    |c2 * (t ^ 2 - u ^ 2) + c3 * (t ^ 3 - u ^ 3) + c4 * (t ^ 4 - u ^ 4)| ≤ 2200 * |t - u| := by
  have e : c2 * (t ^ 2 - u ^ 2) + c3 * (t ^ 3 - u ^ 3) + c4 * (t ^ 4 - u ^ 4) =
      (c2 * (t + u) + c3 * (t * t + t * u + u * u) + c4 * ((t + u) * (t * t + u * u))) * (t - u) := by ring
  rw [e, abs_mul]
  refine mul_le_mul_of_nonneg_right ?_ (abs_nonneg _)
  have b1 : |t + u| ≤ 60 := (abs_add_le _ _).trans (by linarith)
  have b2 : |t * t| ≤ 900 := by rw [abs_mul]; nlinarith [abs_nonneg t]
  have b3 : |u * u| ≤ 900 := by rw [abs_mul]; nlinarith [abs_nonneg u]
  have b4 : |t * u| ≤ 900 := by rw [abs_mul]; nlinarith [abs_nonneg u, abs_nonneg t]
  have b5 : |t * t + t * u + u * u| ≤ 2700 := (abs_add_three _ _ _).trans (by linarith)
  have b6 : |(t + u) * (t * t + u * u)| ≤ 60 * 1800 := by
    rw [abs_mul]
    exact mul_le_mul b1 ((abs_add_le _ _).trans (by linarith)) (abs_nonneg _) (by norm_num)
  have m1 : |c2 * (t + u)| ≤ 32 * 60 := by rw [abs_mul]; exact mul_le_mul h2 b1 (abs_nonneg _) (by norm_num)
  have m2 : |c3 * (t * t + t * u + u * u)| ≤ 0.06 * 2700 := by
    rw [abs_mul]; exact mul_le_mul h3 b5 (abs_nonneg _) (by norm_num)
  have m3 : |c4 * ((t + u) * (t * t + u * u))| ≤ 0.0003 * (60 * 1800) := by
    rw [abs_mul]; exact mul_le_mul h4 b6 (abs_nonneg _) (by norm_num)
  exact (abs_add_three _ _ _).trans (by linarith)

/-- Within thirty centuries of J2000 the arguments of Moon and Sun change at nearly constant rates. -/
theorem delaunay_change {terms : ℕ} (h2 : 2 ≤ terms) (h5 : terms ≤ 5) {t u : ℝ} (ht : |t| ≤ 30) (hu : |u| ≤ 30) (i : Fin 5) :
    |delaunay terms t i - delaunay terms u i - (lunisolarRates.getD i 0 : ℤ) * (1e-4 * (t - u))| ≤ 2200 * |t - u| := by
  have key : ∃ c0 c2 c3 c4 : ℝ, |c2| ≤ 32 ∧ |c3| ≤ 0.06 ∧ |c4| ≤ 0.0003 ∧
      ∀ x, delaunay terms x i = c0 + (lunisolarRates.getD i 0 : ℤ) * (1e-4 * x) + c2 * x ^ 2 + c3 * x ^ 3 + c4 * x ^ 4 := by
    let K : ℕ → ℝ := fun k => if k < terms then (delaunayCoefficients i).getD k 0 else 0
    refine ⟨K 0, K 2, K 3, K 4, ?_, ?_, ?_, ?_⟩
    · simp only [K]
      split
      · fin_cases i <;> simp only [delaunayCoefficients, Matrix.cons_val, List.getD_cons_zero, List.getD_cons_succ, Fin.zero_eta, Fin.mk_one, Fin.reduceFinMk] <;> rw [abs_le] <;> norm_num
      · norm_num
    · simp only [K]
      split
      · fin_cases i <;> simp only [delaunayCoefficients, Matrix.cons_val, List.getD_cons_zero, List.getD_cons_succ, Fin.zero_eta, Fin.mk_one, Fin.reduceFinMk] <;> rw [abs_le] <;> norm_num
      · norm_num
    · simp only [K]
      split
      · fin_cases i <;> simp only [delaunayCoefficients, Matrix.cons_val, List.getD_cons_zero, List.getD_cons_succ, Fin.zero_eta, Fin.mk_one, Fin.reduceFinMk] <;> rw [abs_le] <;> norm_num
      · norm_num
    · intro x
      have hr : (delaunayCoefficients i).getD 1 0 = (lunisolarRates.getD i 0 : ℤ) * 1e-4 := by
        fin_cases i <;> simp only [delaunayCoefficients, lunisolarRates, Matrix.cons_val, List.getD_cons_zero,
          List.getD_cons_succ, Fin.zero_eta, Fin.mk_one, Fin.reduceFinMk] <;> norm_num
      have h1 : delaunay terms x i = K 0 + (delaunayCoefficients i).getD 1 0 * x + K 2 * x ^ 2 + K 3 * x ^ 3 + K 4 * x ^ 4 := by
        simp only [K]
        unfold delaunay
        generalize delaunayCoefficients i = l
        interval_cases terms <;> simp [List.range_succ] <;> ring
      rw [h1, hr]
      ring
  obtain ⟨c0, c2, c3, c4, b2, b3, b4, hd⟩ := key
  have := tail_change b2 b3 b4 ht hu
  rw [hd t, hd u]
  refine le_trans (le_of_eq ?_) this
  congr 1
  ring

theorem lunisolar_drift {terms : ℕ} (h2 : 2 ≤ terms) (h5 : terms ≤ 5) {t u : ℝ} (ht : |t| ≤ 30) (hu : |u| ≤ 30) :
    DriftBy lunisolarRates (1e-4 * exactArcsecond * (t - u)) (0.011 * |t - u| + 1e-19)
      (fun i : Fin 5 => fmod (delaunay terms t i) 1296000 * asec2rad)
      (fun i : Fin 5 => fmod (delaunay terms u i) 1296000 * asec2rad) := by
  intro i
  obtain ⟨k, hk⟩ := fmod_turns (delaunay terms t i)
  obtain ⟨l, hl⟩ := fmod_turns (delaunay terms u i)
  have r1 := (abs_fmod_lt (delaunay terms t i)).1
  have r2 := (abs_fmod_lt (delaunay terms u i)).1
  have hd := delaunay_change h2 h5 ht hu i
  have hc := asec2rad_close
  have hx := exactArcsecond_bounds
  refine ⟨l - k, ?_⟩
  simp only
  generalize delaunay terms t i = p at *
  generalize delaunay terms u i = q at *
  generalize hr : fmod p 1296000 = r at *
  generalize hs : fmod q 1296000 = s at *
  generalize hz : ((lunisolarRates.getD (i : ℕ) 0 : ℤ) : ℝ) = z at *
  have hpi : 2 * π = 1296000 * exactArcsecond := by unfold exactArcsecond; ring
  have e : r * asec2rad - s * asec2rad - ((l - k : ℤ) : ℝ) * (2 * π) - z * (1e-4 * exactArcsecond * (t - u)) =
      (p - q - z * (1e-4 * (t - u))) * exactArcsecond + (r - s) * (asec2rad - exactArcsecond) := by
    rw [hpi]
    push_cast
    have e1 : p = r + 1296000 * k := by linarith
    have e2 : q = s + 1296000 * l := by linarith
    rw [e1, e2]
    ring
  rw [e]
  refine (abs_add_le _ _).trans (add_le_add ?_ ?_)
  · rw [abs_mul, abs_of_pos (by linarith [hx.1] : 0 < exactArcsecond)]
    have := mul_le_mul hd hx.2.le (by linarith [hx.1]) (by positivity)
    linarith [abs_nonneg (t - u)]
  · rw [abs_mul]
    have h3 : |r - s| ≤ 2592000 := (abs_sub _ _).trans (by linarith)
    have := mul_le_mul h3 hc (abs_nonneg _) (by norm_num)
    refine this.trans ?_
    norm_num

theorem planetary_drift {t u : ℝ} (ht : |t| ≤ 30) (hu : |u| ≤ 30) :
    DriftBy planetaryRates (1e-10 * (t - u)) (0.001 * |t - u|) (planetaryArguments t) (planetaryArguments u) := by
  intro i
  refine ⟨0, ?_⟩
  by_cases hi : i = 13
  · subst hi
    have e : planetaryArguments t 13 - planetaryArguments u 13 - ((0 : ℤ) : ℝ) * (2 * π) -
        (planetaryRates.getD (13 : Fin 14) 0 : ℤ) * (1e-10 * (t - u)) = 0.00000538691 * (t + u) * (t - u) := by
      simp [planetaryArguments, anomalyTable, planetaryRates]
      ring
    rw [e, abs_mul, abs_mul]
    refine mul_le_mul_of_nonneg_right ?_ (abs_nonneg _)
    have b1 : |t + u| ≤ 60 := (abs_add_le _ _).trans (by linarith)
    rw [abs_of_pos (by norm_num : (0 : ℝ) < 0.00000538691)]
    linarith
  · have hr : (anomalyTable i).2 = (planetaryRates.getD i 0 : ℤ) * 1e-10 := by
      fin_cases i <;> first | exact absurd rfl hi | (simp [anomalyTable, planetaryRates]; try norm_num)
    have e : planetaryArguments t i - planetaryArguments u i - ((0 : ℤ) : ℝ) * (2 * π) -
        (planetaryRates.getD i 0 : ℤ) * (1e-10 * (t - u)) = 0 := by
      unfold planetaryArguments
      simp only [if_neg hi, hr]
      push_cast
      ring
    rw [e, abs_zero]
    positivity


/-! ### The arguments of the complementary terms -/

theorem mod_tau_drift {G : ℝ → ℝ} {f : ℝ → ℝ} (hf : ∀ x, ∃ m : ℤ, f x = G x + m * (2 * π)) {z t u : ℝ}
    (h : |G t - G u - z * (1e-10 * (t - u))| ≤ 0.02 * |t - u|) :
    ∃ k : ℤ, |pyMod (f t) tau - pyMod (f u) tau - k * (2 * π) - z * (1e-10 * (t - u))| ≤ 0.02 * |t - u| := by
  obtain ⟨a, ha⟩ := pyMod_eq_sub' (f t) tau
  obtain ⟨b, hb⟩ := pyMod_eq_sub' (f u) tau
  obtain ⟨m, hm⟩ := hf t
  obtain ⟨n, hn⟩ := hf u
  refine ⟨m - n - a + b, ?_⟩
  refine le_trans (le_of_eq ?_) h
  rw [ha, hb, hm, hn]
  unfold tau
  congr 1
  push_cast
  ring

theorem moon_argument_drift {c0 c1 c2 c3 c4 : ℝ} {N : ℤ} {N' z : ℝ} (hN : N' = N) (b2 : |c2| ≤ 32) (b3 : |c3| ≤ 0.06)
    (b4 : |c4| ≤ 0.0003) (hz : |c1 * asec2rad + N * (2 * π) - z * 1e-10| ≤ 0.005) {t u : ℝ} (ht : |t| ≤ 30) (hu : |u| ≤ 30) :
    ∃ k : ℤ, |pyMod ((c0 + (c1 + (c2 + (c3 + c4 * t) * t) * t) * t) * asec2rad + pyMod (N' * t) 1.0 * tau) tau -
      pyMod ((c0 + (c1 + (c2 + (c3 + c4 * u) * u) * u) * u) * asec2rad + pyMod (N' * u) 1.0 * tau) tau - k * (2 * π) -
      z * (1e-10 * (t - u))| ≤ 0.02 * |t - u| := by
  refine mod_tau_drift (G := fun x => (c0 + (c1 + (c2 + (c3 + c4 * x) * x) * x) * x) * asec2rad + N * x * (2 * π))
    (f := fun x => (c0 + (c1 + (c2 + (c3 + c4 * x) * x) * x) * x) * asec2rad + pyMod (N' * x) 1.0 * tau) ?_ ?_
  · intro x
    obtain ⟨k, hk⟩ := pyMod_one_turns (N' * x)
    refine ⟨-k, ?_⟩
    rw [hk, hN]
    unfold tau
    push_cast
    ring
  · have hT := tail_change b2 b3 b4 ht hu
    have ha : (0 : ℝ) ≤ asec2rad := by unfold asec2rad; norm_num
    have ha' : asec2rad ≤ 4.8482e-6 := by unfold asec2rad; norm_num
    have e : (c0 + (c1 + (c2 + (c3 + c4 * t) * t) * t) * t) * asec2rad + N * t * (2 * π) -
        ((c0 + (c1 + (c2 + (c3 + c4 * u) * u) * u) * u) * asec2rad + N * u * (2 * π)) - z * (1e-10 * (t - u)) =
        (c1 * asec2rad + N * (2 * π) - z * 1e-10) * (t - u) +
        (c2 * (t ^ 2 - u ^ 2) + c3 * (t ^ 3 - u ^ 3) + c4 * (t ^ 4 - u ^ 4)) * asec2rad := by ring
    rw [e]
    refine (abs_add_le _ _).trans ?_
    rw [abs_mul, abs_mul, abs_of_nonneg ha]
    have h1 := mul_le_mul_of_nonneg_right hz (abs_nonneg (t - u))
    have h2 := mul_le_mul hT ha' ha (by positivity)
    linarith [abs_nonneg (t - u)]

theorem planet_argument_drift {c d z : ℝ} (hz : |d - z * 1e-10| ≤ 0.005) {t u : ℝ} :
    ∃ k : ℤ, |pyMod (c + d * t) tau - pyMod (c + d * u) tau - k * (2 * π) - z * (1e-10 * (t - u))| ≤ 0.02 * |t - u| := by
  refine mod_tau_drift (G := fun x => c + d * x) (f := fun x => c + d * x) (fun x => ⟨0, by simp⟩) ?_
  have e : c + d * t - (c + d * u) - z * (1e-10 * (t - u)) = (d - z * 1e-10) * (t - u) := by ring
  rw [e, abs_mul]
  exact mul_le_mul_of_nonneg_right (hz.trans (by norm_num)) (abs_nonneg _)

theorem equinox_drift {t u : ℝ} (ht : |t| ≤ 30) (hu : |u| ≤ 30) :
    DriftBy planetaryRates (1e-10 * (t - u)) (0.02 * |t - u|) (equinoxArguments asec2rad t) (equinoxArguments asec2rad u) := by
  have p1 := pi_gt_d6
  have p2 := pi_lt_d6
  have num : ∀ {c1 : ℝ} {N : ℤ} {z : ℝ}, |c1 * 4.848136811095359935899141e-6 + N * (2 * 3.1415925) - z * 1e-10| ≤ 0.003 →
      |(N : ℝ)| ≤ 1400 → |c1 * asec2rad + N * (2 * π) - z * 1e-10| ≤ 0.005 := by
    intro c1 N z h hN
    have e : c1 * asec2rad + N * (2 * π) - z * 1e-10 =
        (c1 * 4.848136811095359935899141e-6 + N * (2 * 3.1415925) - z * 1e-10) + N * (2 * (π - 3.1415925)) := by
      unfold asec2rad; ring
    rw [e]
    refine (abs_add_le _ _).trans ?_
    rw [abs_mul]
    have h2 : |2 * (π - 3.1415925)| ≤ 1.1e-6 := by rw [abs_le]; constructor <;> linarith
    have := mul_le_mul hN h2 (abs_nonneg _) (by norm_num)
    linarith
  have ab : ∀ {x y : ℝ}, x ≤ y → -y ≤ x → |x| ≤ y := fun h1 h2 => abs_le.2 ⟨h2, h1⟩
  intro i
  fin_cases i
  · exact moon_argument_drift (N := 1325) (by norm_num) (ab (by norm_num) (by norm_num)) (ab (by norm_num) (by norm_num))
      (ab (by norm_num) (by norm_num)) (num (ab (by simp [planetaryRates]; norm_num) (by simp [planetaryRates]; norm_num)) (by norm_num)) ht hu
  · exact moon_argument_drift (N := 99) (by norm_num) (ab (by norm_num) (by norm_num)) (ab (by norm_num) (by norm_num))
      (ab (by norm_num) (by norm_num)) (num (ab (by simp [planetaryRates]; norm_num) (by simp [planetaryRates]; norm_num)) (by norm_num)) ht hu
  · exact moon_argument_drift (N := 1342) (by norm_num) (ab (by norm_num) (by norm_num)) (ab (by norm_num) (by norm_num))
      (ab (by norm_num) (by norm_num)) (num (ab (by simp [planetaryRates]; norm_num) (by simp [planetaryRates]; norm_num)) (by norm_num)) ht hu
  · exact moon_argument_drift (N := 1236) (by norm_num) (ab (by norm_num) (by norm_num)) (ab (by norm_num) (by norm_num))
      (ab (by norm_num) (by norm_num)) (num (ab (by simp [planetaryRates]; norm_num) (by simp [planetaryRates]; norm_num)) (by norm_num)) ht hu
  · exact moon_argument_drift (N := -5) (by norm_num) (ab (by norm_num) (by norm_num)) (ab (by norm_num) (by norm_num))
      (ab (by norm_num) (by norm_num)) (num (ab (by simp [planetaryRates]; norm_num) (by simp [planetaryRates]; norm_num)) (by norm_num)) ht hu
  · exact planet_argument_drift (ab (by simp [planetaryRates]; norm_num) (by simp [planetaryRates]; norm_num))
  · exact planet_argument_drift (ab (by simp [planetaryRates]; norm_num) (by simp [planetaryRates]; norm_num))
  · exact planet_argument_drift (ab (by simp [planetaryRates]; norm_num) (by simp [planetaryRates]; norm_num))
  · exact planet_argument_drift (ab (by simp [planetaryRates]; norm_num) (by simp [planetaryRates]; norm_num))
  · exact planet_argument_drift (ab (by simp [planetaryRates]; norm_num) (by simp [planetaryRates]; norm_num))
  · exact planet_argument_drift (ab (by simp [planetaryRates]; norm_num) (by simp [planetaryRates]; norm_num))
  · exact planet_argument_drift (ab (by simp [planetaryRates]; norm_num) (by simp [planetaryRates]; norm_num))
  · exact planet_argument_drift (ab (by simp [planetaryRates]; norm_num) (by simp [planetaryRates]; norm_num))
  · refine mod_tau_drift (G := fun x => (0.024381750 + 0.00000538691 * x) * x)
      (f := fun x => (0.024381750 + 0.00000538691 * x) * x) (fun x => ⟨0, by simp⟩) ?_
    have e : (0.024381750 + 0.00000538691 * t) * t - (0.024381750 + 0.00000538691 * u) * u -
        ((planetaryRates.getD 13 0 : ℤ) : ℝ) * (1e-10 * (t - u)) = 0.00000538691 * (t + u) * (t - u) := by
      simp [planetaryRates]
      ring
    refine (le_of_eq (congrArg abs e)).trans ?_
    rw [abs_mul, abs_mul]
    refine mul_le_mul_of_nonneg_right ?_ (abs_nonneg _)
    have b1 : |t + u| ≤ 60 := (abs_add_le _ _).trans (by linarith)
    rw [abs_of_pos (by norm_num : (0 : ℝ) < 0.00000538691)]
    linarith

/-! ### The series -/

theorem times_drift {a b t u D B : ℝ} (h : |a - b| ≤ D) (hb : |b| ≤ B) (ht : |t| ≤ 30) :
    |a * t - b * u| ≤ 30 * D + B * |t - u| := by
  have e : a * t - b * u = (a - b) * t + b * (t - u) := by ring
  rw [e]
  refine (abs_add_le _ _).trans (add_le_add ?_ ?_)
  · rw [abs_mul, mul_comm]
    exact mul_le_mul ht h (abs_nonneg _) (by norm_num)
  · rw [abs_mul]
    exact mul_le_mul_of_nonneg_right hb (abs_nonneg _)

theorem abs_sum3 {a b c a' b' c' A B C : ℝ} (h1 : |a - a'| ≤ A) (h2 : |b - b'| ≤ B) (h3 : |c - c'| ≤ C) :
    |(a + b + c) - (a' + b' + c')| ≤ A + B + C := by
  have e : (a + b + c) - (a' + b' + c') = (a - a') + (b - b') + (c - c') := by ring
  rw [e]
  exact (abs_add_three _ _ _).trans (by linarith)

theorem abs_sum2 {a b a' b' A B : ℝ} (h1 : |a - a'| ≤ A) (h2 : |b - b'| ≤ B) : |(a + b) - (a' + b')| ≤ A + B := by
  have e : (a + b) - (a' + b') = (a - a') + (b - b') := by ring
  rw [e]
  exact (abs_add_le _ _).trans (by linarith)

/-- How far the two sums move between two dates within thirty centuries of J2000, in tenths of a microarcsecond, for a
century. -/
theorem nutationSums_drift {terms : ℕ} (h2 : 2 ≤ terms) (h5 : terms ≤ 5) {t u : ℝ} (ht : |t| ≤ 30) (hu : |u| ≤ 30) (ls pl : ℤ) :
    |(nutationSums bundledMultipliers t ls pl fun i : Fin 5 => fmod (delaunay terms t i) 1296000 * asec2rad).1 -
      (nutationSums bundledMultipliers u ls pl fun i : Fin 5 => fmod (delaunay terms u i) 1296000 * asec2rad).1| ≤
      98890000000 * |t - u| + 1e-9 ∧
    |(nutationSums bundledMultipliers t ls pl fun i : Fin 5 => fmod (delaunay terms t i) 1296000 * asec2rad).2 -
      (nutationSums bundledMultipliers u ls pl fun i : Fin 5 => fmod (delaunay terms u i) 1296000 * asec2rad).2| ≤
      39815000000 * |t - u| + 1e-9 := by
  have hL := lunisolar_drift h2 h5 ht hu
  have hP := planetary_drift ht hu
  generalize (fun i : Fin 5 => fmod (delaunay terms t i) 1296000 * asec2rad) = a at hL ⊢
  generalize (fun i : Fin 5 => fmod (delaunay terms u i) 1296000 * asec2rad) = b at hL ⊢
  have hx := exactArcsecond_bounds
  set h := |t - u| with hh
  have h0 : 0 ≤ h := abs_nonneg _
  have hd : |1e-4 * exactArcsecond * (t - u)| ≤ 4.8481369e-10 * h := by
    rw [abs_mul, abs_of_pos (by linarith [hx.1] : 0 < 1e-4 * exactArcsecond)]
    exact mul_le_mul_of_nonneg_right (by linarith [hx.2]) h0
  have hd' : |1e-10 * (t - u)| = 1e-10 * h := by
    rw [abs_mul, abs_of_pos (by norm_num : (0 : ℝ) < 1e-10)]
  have hE : 0 ≤ 0.011 * h + 1e-19 := by positivity
  have hE' : 0 ≤ 0.001 * h := by positivity
  have L := fun {f : ℝ → ℝ} (hf : Wave f) (c : List ℤ) (hl : lunisolarRows.length = c.length) {S W : ℤ}
      (hS : slopeSum lunisolarRows c lunisolarRates ≤ S) (hW : weightSum lunisolarRows c ≤ W) (hS0 : (0 : ℝ) ≤ S) =>
    (seriesDot_drift_slice hf lunisolarRows lunisolarRows_width lunisolarRates c hl ls hE hL hS hW).trans
      (add_le_add_left (mul_le_mul_of_nonneg_left hd hS0) _)
  have P := fun {f : ℝ → ℝ} (hf : Wave f) (c : List ℤ) (hl : planetaryRows.length = c.length) {S W : ℤ}
      (hS : slopeSum planetaryRows c planetaryRates ≤ S) (hW : weightSum planetaryRows c ≤ W) =>
    seriesDot_drift_slice hf planetaryRows planetaryRows_width planetaryRates c hl pl hE' hP hS hW
  have p0 := L wave_sin _ lengths_psi0 slope_psi0 weight_psi0 (by norm_num)
  have p1 := L wave_sin _ lengths_psi1 slope_psi1 weight_psi1 (by norm_num)
  have p2 := L wave_cos _ lengths_psi2 slope_psi2 weight_psi2 (by norm_num)
  have e0 := L wave_cos _ lengths_eps0 slope_eps0 weight_eps0 (by norm_num)
  have e1 := L wave_cos _ lengths_eps1 slope_eps1 weight_eps1 (by norm_num)
  have e2 := L wave_sin _ lengths_eps2 slope_eps2 weight_eps2 (by norm_num)
  have q0 := P wave_sin _ lengths_ppsi0 slope_ppsi0 weight_ppsi0
  have q1 := P wave_cos _ lengths_ppsi1 slope_ppsi1 weight_ppsi1
  have f0 := P wave_sin _ lengths_peps0 slope_peps0 weight_peps0
  have f1 := P wave_cos _ lengths_peps1 slope_peps1 weight_peps1
  have bp := abs_series_slice_le sin abs_sin_le ((pySliceTo bundledMultipliers.nals ls).map (multiplierDot · b)) _ ls _ amp_psi1
  have be := abs_series_slice_le cos abs_cos_le ((pySliceTo bundledMultipliers.nals ls).map (multiplierDot · b)) _ ls _ amp_eps1
  have p1' := times_drift (u := u) p1 bp ht
  have e1' := times_drift (u := u) e1 be ht
  rw [hd'] at q0 q1 f0 f1
  have sp := abs_sum3 p0 p1' p2
  have se := abs_sum3 e0 e1' e2
  have sp' := abs_sum3 sp q0 q1
  have se' := abs_sum3 se f0 f1
  unfold nutationSums
  simp only
  have hh' : |t - u| = h := rfl
  split
  · refine ⟨sp.trans ?_, se.trans ?_⟩
    · push_cast; rw [hh']; clear * - h0; norm_num; linarith
    · push_cast; rw [hh']; clear * - h0; norm_num; linarith
  · refine ⟨sp'.trans ?_, se'.trans ?_⟩
    · push_cast; rw [hh']; clear * - h0; norm_num; linarith
    · push_cast; rw [hh']; clear * - h0; norm_num; linarith

end Skyfield
