import Verif.Model.Nutation
import Verif.Lemmas.Angles
import Mathlib.Tactic.LinearCombination
import Mathlib.Tactic.FinCases
import Mathlib.Algebra.Order.BigOperators.Group.List

/-
C74: nutation and the equation of the equinoxes.
-/
namespace Skyfield
open Real

/-- Specification: the polynomials of Simon et al. (1994) for the five fundamental arguments of Moon and Sun, in
arcseconds, as power series in Julian centuries. -/
noncomputable def delaunayCoefficients : Fin 5 → List ℝ :=
  ![[485868.249036, 1717915923.2178, 31.8792, 0.051635, -0.00024470],
    [1287104.79305, 129596581.0481, -0.5532, 0.000136, -0.00001149],
    [335779.526232, 1739527262.8478, -12.7512, -0.001037, 0.00000417],
    [1072260.70369, 1602961601.2090, -6.3706, 0.006593, -0.00003169],
    [450160.398036, -6962890.5431, 7.4722, 0.007702, -0.00005939]]

/-- Specification: argument `i` at `t` centuries, in arcseconds, from its first `n` coefficients. -/
noncomputable def delaunay (n : ℕ) (t : ℝ) (i : Fin 5) : ℝ :=
  ((List.range n).map fun k => (delaunayCoefficients i).getD k 0 * t ^ k).sum

/-- Specification: the exact size of an arcsecond, in radians. -/
noncomputable def exactArcsecond : ℝ := 2 * π / 1296000

/-- Specification: the largest value a sum of sines or cosines with these amplitudes could have. -/
def amplitude (c : List ℤ) : ℤ := (c.map fun x => |x|).sum

/-! ### Lemmas -/

theorem fmod_turns (a : ℝ) : ∃ k : ℤ, fmod a 1296000 = a - 1296000 * k := ⟨_, rfl⟩

theorem abs_fmod_lt (a : ℝ) : |fmod a 1296000| < 1296000 ∧ 0 ≤ fmod a 1296000 * a := by
  unfold fmod
  by_cases h : 0 ≤ a / 1296000
  · rw [if_pos h]
    have h1 := Int.floor_le (a / 1296000)
    have h2 := Int.lt_floor_add_one (a / 1296000)
    have ha : 0 ≤ a := by
      rw [div_nonneg_iff] at h; rcases h with h | h
      · exact h.1
      · norm_num at h
    have h3 : 0 ≤ a - 1296000 * (⌊a / 1296000⌋ : ℝ) := by
      rw [le_div_iff₀ (by norm_num)] at h1; linarith
    refine ⟨?_, mul_nonneg h3 ha⟩
    rw [abs_of_nonneg h3]
    rw [div_lt_iff₀ (by norm_num)] at h2; linarith
  · rw [if_neg h]
    push Not at h
    have h1 := Int.le_ceil (a / 1296000)
    have h2 := Int.ceil_lt_add_one (a / 1296000)
    have ha : a ≤ 0 := by
      by_contra hc
      push Not at hc
      have : 0 ≤ a / 1296000 := by positivity
      linarith
    have h3 : a - 1296000 * (⌈a / 1296000⌉ : ℝ) ≤ 0 := by
      rw [div_le_iff₀ (by norm_num)] at h1; linarith
    refine ⟨?_, mul_nonneg_of_nonpos_of_nonpos h3 ha⟩
    rw [abs_of_nonpos h3]
    have : (⌈a / 1296000⌉ : ℝ) - 1 < a / 1296000 := by linarith
    rw [lt_div_iff₀ (by norm_num)] at this; linarith

theorem abs_seriesDot_le (f : ℝ → ℝ) (hf : ∀ x, |f x| ≤ 1) (arg : List ℝ) (c : List ℤ) :
    |seriesDot f arg c| ≤ amplitude c := by
  induction arg generalizing c with
  | nil =>
    have : (0 : ℤ) ≤ amplitude c := List.sum_nonneg (by simp)
    simpa [seriesDot] using (by exact_mod_cast this : (0 : ℝ) ≤ amplitude c)
  | cons a arg ih =>
    cases c with
    | nil => simp [seriesDot, amplitude]
    | cons x c =>
      have h1 : seriesDot f (a :: arg) (x :: c) = f a * x + seriesDot f arg c := by simp [seriesDot]
      have h2 : (amplitude (x :: c) : ℝ) = |(x : ℝ)| + amplitude c := by simp [amplitude]
      rw [h1, h2]
      refine (abs_add_le _ _).trans (add_le_add ?_ (ih c))
      rw [abs_mul]
      exact mul_le_of_le_one_left (abs_nonneg _) (hf a)

theorem amplitude_nonneg (c : List ℤ) : 0 ≤ amplitude c := List.sum_nonneg (by simp)

theorem amplitude_append (c d : List ℤ) : amplitude (c ++ d) = amplitude c + amplitude d := by simp [amplitude]

theorem amplitude_take_le (c : List ℤ) (n : ℕ) : amplitude (c.take n) ≤ amplitude c := by
  conv_rhs => rw [← List.take_append_drop n c]
  rw [amplitude_append]
  linarith [amplitude_nonneg (c.drop n)]

theorem amplitude_slice_le (c : List ℤ) (k : ℤ) : amplitude (pySliceTo c k) ≤ amplitude c := by
  unfold pySliceTo; split <;> exact amplitude_take_le _ _

theorem abs_series_slice_le (f : ℝ → ℝ) (hf : ∀ x, |f x| ≤ 1) (arg : List ℝ) (c : List ℤ) (k A : ℤ)
    (h : amplitude c = A) : |seriesDot f arg (pySliceTo c k)| ≤ A := by
  refine (abs_seriesDot_le f hf arg _).trans ?_
  rw [← h]
  exact_mod_cast amplitude_slice_le c k

theorem seriesDot_split (f : ℝ → ℝ) (arg : List ℝ) (c : List ℤ) (n : ℕ) :
    seriesDot f arg c = seriesDot f (arg.take n) (c.take n) + seriesDot f (arg.drop n) (c.drop n) := by
  unfold seriesDot
  rw [← List.take_zipWith, ← List.drop_zipWith, ← List.sum_append, List.take_append_drop]

theorem pySliceTo_nat {α : Type} (l : List α) (n : ℕ) : pySliceTo l n = l.take n := by
  simp [pySliceTo]

theorem seriesDot_dropped (f : ℝ → ℝ) (hf : ∀ x, |f x| ≤ 1) {β : Type} (g : β → ℝ) (rows : List β) (c : List ℤ)
    (n : ℕ) : |seriesDot f (rows.map g) c - seriesDot f ((pySliceTo rows n).map g) (pySliceTo c n)| ≤
      amplitude (c.drop n) := by
  rw [pySliceTo_nat, pySliceTo_nat, List.map_take, seriesDot_split f (rows.map g) c n, add_sub_cancel_left]
  exact abs_seriesDot_le f hf _ _

theorem multiplierDot_turns {n : ℕ} (row : Fin n → ℤ) {a b : Fin n → ℝ} (h : ∀ i, ∃ k : ℤ, a i = b i + k * (2 * π)) :
    ∃ k : ℤ, multiplierDot row a = multiplierDot row b + k * (2 * π) := by
  choose k hk using h
  refine ⟨∑ i, row i * k i, ?_⟩
  unfold multiplierDot
  push_cast
  rw [Finset.sum_mul, ← Finset.sum_add_distrib]
  refine Finset.sum_congr rfl fun i _ => ?_
  rw [hk]; ring

theorem seriesDot_turns (f : ℝ → ℝ) (hf : ∀ x (k : ℤ), f (x + k * (2 * π)) = f x) {n : ℕ} (rows : List (Fin n → ℤ))
    {a b : Fin n → ℝ} (h : ∀ i, ∃ k : ℤ, a i = b i + k * (2 * π)) (c : List ℤ) :
    seriesDot f (rows.map (multiplierDot · a)) c = seriesDot f (rows.map (multiplierDot · b)) c := by
  induction rows generalizing c with
  | nil => rfl
  | cons r rows ih =>
    cases c with
    | nil => simp [seriesDot]
    | cons x c =>
      have h1 : ∀ a : Fin n → ℝ, seriesDot f ((r :: rows).map (multiplierDot · a)) (x :: c) =
          f (multiplierDot r a) * x + seriesDot f (rows.map (multiplierDot · a)) c := by simp [seriesDot]
      obtain ⟨k, hk⟩ := multiplierDot_turns r h
      rw [h1, h1, ih, hk, hf]

theorem sin_turns (x : ℝ) (k : ℤ) : sin (x + k * (2 * π)) = sin x := sin_add_int_mul_two_pi x k
theorem cos_turns (x : ℝ) (k : ℤ) : cos (x + k * (2 * π)) = cos x := cos_add_int_mul_two_pi x k

theorem continuous_seriesDot {f : ℝ → ℝ} (hf : Continuous f) {n : ℕ} (rows : List (Fin n → ℤ)) {a : ℝ → Fin n → ℝ}
    (ha : Continuous a) (c : List ℤ) : Continuous fun x => seriesDot f (rows.map (multiplierDot · (a x))) c := by
  induction rows generalizing c with
  | nil => simpa [seriesDot] using continuous_const
  | cons r rows ih =>
    cases c with
    | nil => simpa [seriesDot] using continuous_const
    | cons x c =>
      have h1 : ∀ a : Fin n → ℝ, seriesDot f ((r :: rows).map (multiplierDot · a)) (x :: c) =
          f (multiplierDot r a) * x + seriesDot f (rows.map (multiplierDot · a)) c := by simp [seriesDot]
      simp only [h1]
      refine Continuous.add (Continuous.mul (hf.comp ?_) continuous_const) (ih c)
      unfold multiplierDot
      exact continuous_finset_sum _ fun i _ => continuous_const.mul ((continuous_apply i).comp ha)

theorem slice_cases {terms : ℕ} (h2 : 2 ≤ terms) (h5 : terms ≤ 5) : terms = 2 ∨ terms = 3 ∨ terms = 4 ∨ terms = 5 := by
  omega

/-- The polynomial the code evaluates, before it removes whole turns. -/
theorem fundamentalArguments_eq (asec t : ℝ) {terms : ℕ} (h2 : 2 ≤ terms) (h5 : terms ≤ 5) :
    fundamentalArguments asec t terms = some fun i => fmod (delaunay terms t i) 1296000 * asec := by
  have key : ∀ i : Fin 5, delaunayCoefficients i =
      [faTable i 0, faTable i 1, faTable i 2, faTable i 3, faTable i 4] := by
    intro i; fin_cases i <;> simp [delaunayCoefficients, faTable]
  have s2 : pySliceFrom [(4 : Fin 5), 3, 2, 1] (-((2 : ℕ) : ℤ) + 1) = [1] := by decide
  have s3 : pySliceFrom [(4 : Fin 5), 3, 2, 1] (-((3 : ℕ) : ℤ) + 1) = [2, 1] := by decide
  have s4 : pySliceFrom [(4 : Fin 5), 3, 2, 1] (-((4 : ℕ) : ℤ) + 1) = [3, 2, 1] := by decide
  have s5 : pySliceFrom [(4 : Fin 5), 3, 2, 1] (-((5 : ℕ) : ℤ) + 1) = [4, 3, 2, 1] := by decide
  unfold fundamentalArguments
  rcases slice_cases h2 h5 with rfl | rfl | rfl | rfl
  · rw [s2]
    simp only [argumentsFrom, delaunay, key, List.range_succ, Option.some.injEq]
    funext i
    congr 2
    simp; ring
  · rw [s3]
    simp only [argumentsFrom, delaunay, key, List.range_succ, Option.some.injEq]
    funext i
    congr 2
    simp; ring
  · rw [s4]
    simp only [argumentsFrom, delaunay, key, List.range_succ, Option.some.injEq]
    funext i
    congr 2
    simp; ring
  · rw [s5]
    simp only [argumentsFrom, delaunay, key, List.range_succ, Option.some.injEq]
    funext i
    congr 2
    simp; ring

/-! ### The amplitudes of the bundled tables -/

theorem amp_psi0 : amplitude lunisolarLongitude0 = 194549475 := by decide +kernel
theorem amp_psi1 : amplitude lunisolarLongitude1 = 183363 := by decide +kernel
theorem amp_psi2 : amplitude lunisolarLongitude2 = 71943 := by decide +kernel
theorem amp_eps0 : amplitude lunisolarObliquity0 = 100841689 := by decide +kernel
theorem amp_eps1 : amplitude lunisolarObliquity1 = 14436 := by decide +kernel
theorem amp_eps2 : amplitude lunisolarObliquity2 = 28955 := by decide +kernel
theorem amp_ppsi0 : amplitude planetaryLongitude0 = 31610 := by decide +kernel
theorem amp_ppsi1 : amplitude planetaryLongitude1 = 23769 := by decide +kernel
theorem amp_peps0 : amplitude planetaryObliquity0 = 9021 := by decide +kernel
theorem amp_peps1 : amplitude planetaryObliquity1 = 10001 := by decide +kernel
theorem amp_eq0 : amplitude equinoxes0 = 274613 := by decide +kernel
theorem amp_eq1 : amplitude equinoxes1 = 62 := by decide +kernel

/-! ### The fundamental arguments -/

/-- **C74.** For two to five terms, each fundamental argument is the published polynomial, cut to that many coefficients,
with whole turns of 1296000 arcseconds removed; less than a turn is left, with the polynomial's own sign. -/
theorem C74_arguments (asec t : ℝ) {terms : ℕ} (h2 : 2 ≤ terms) (h5 : terms ≤ 5) :
    ∃ a, fundamentalArguments asec t terms = some a ∧ ∀ i, ∃ r, a i = r * asec ∧
      (∃ turns : ℤ, r = delaunay terms t i - 1296000 * turns) ∧ |r| < 1296000 ∧ 0 ≤ r * delaunay terms t i :=
  ⟨_, fundamentalArguments_eq asec t h2 h5, fun i => ⟨_, rfl, fmod_turns _, (abs_fmod_lt _).1, (abs_fmod_lt _).2⟩⟩

/-- **C74, finding.** Asking for one term gives all five, and asking for none gives four: the slice `[-terms+1:]` wraps
around at zero.  So "a smaller value trades accuracy for speed" fails below two. -/
theorem C74_one_term (asec t : ℝ) :
    fundamentalArguments asec t 1 = fundamentalArguments asec t 5 ∧
    fundamentalArguments asec t 0 = fundamentalArguments asec t 4 := by
  have s1 : pySliceFrom [(4 : Fin 5), 3, 2, 1] (-1 + 1) = [4, 3, 2, 1] := by decide
  have s5 : pySliceFrom [(4 : Fin 5), 3, 2, 1] (-5 + 1) = [4, 3, 2, 1] := by decide
  have s0 : pySliceFrom [(4 : Fin 5), 3, 2, 1] (-0 + 1) = [3, 2, 1] := by decide
  have s4 : pySliceFrom [(4 : Fin 5), 3, 2, 1] (-4 + 1) = [3, 2, 1] := by decide
  unfold fundamentalArguments
  rw [s1, s5, s0, s4]
  exact ⟨rfl, rfl⟩

/-! ### Size, truncation, continuity -/

theorem abs_sin_le (x : ℝ) : |sin x| ≤ 1 := abs_sin_le_one x
theorem abs_cos_le (x : ℝ) : |cos x| ≤ 1 := abs_cos_le_one x

theorem nutationSums_bounded (m : NutationMultipliers) (t : ℝ) (ls pl : ℤ) (a : Fin 5 → ℝ) :
    |(nutationSums m t ls pl a).1| ≤ 194676797 + 183363 * |t| ∧
    |(nutationSums m t ls pl a).2| ≤ 100889666 + 14436 * |t| := by
  have b := fun (f : ℝ → ℝ) (hf : ∀ x, |f x| ≤ 1) (arg : List ℝ) (c : List ℤ) (k A : ℤ) (h : amplitude c = A) =>
    abs_series_slice_le f hf arg c k A h
  unfold nutationSums
  simp only
  have p0 := b sin abs_sin_le ((pySliceTo m.nals ls).map (multiplierDot · a)) _ ls _ amp_psi0
  have p1 := b sin abs_sin_le ((pySliceTo m.nals ls).map (multiplierDot · a)) _ ls _ amp_psi1
  have p2 := b cos abs_cos_le ((pySliceTo m.nals ls).map (multiplierDot · a)) _ ls _ amp_psi2
  have e0 := b cos abs_cos_le ((pySliceTo m.nals ls).map (multiplierDot · a)) _ ls _ amp_eps0
  have e1 := b cos abs_cos_le ((pySliceTo m.nals ls).map (multiplierDot · a)) _ ls _ amp_eps1
  have e2 := b sin abs_sin_le ((pySliceTo m.nals ls).map (multiplierDot · a)) _ ls _ amp_eps2
  have q0 := b sin abs_sin_le ((pySliceTo m.napl pl).map (multiplierDot · (planetaryArguments t))) _ pl _ amp_ppsi0
  have q1 := b cos abs_cos_le ((pySliceTo m.napl pl).map (multiplierDot · (planetaryArguments t))) _ pl _ amp_ppsi1
  have f0 := b sin abs_sin_le ((pySliceTo m.napl pl).map (multiplierDot · (planetaryArguments t))) _ pl _ amp_peps0
  have f1 := b cos abs_cos_le ((pySliceTo m.napl pl).map (multiplierDot · (planetaryArguments t))) _ pl _ amp_peps1
  have p1' := mul_le_mul_of_nonneg_right p1 (abs_nonneg t)
  have e1' := mul_le_mul_of_nonneg_right e1 (abs_nonneg t)
  rw [← abs_mul] at p1' e1'
  push_cast at p0 p1' p2 e0 e1' e2 q0 q1 f0 f1
  split
  · constructor <;> refine (abs_add_three _ _ _).trans ?_ <;> linarith
  · constructor <;> refine (abs_add_le _ _).trans ((add_le_add_left ((abs_add_le _ _).trans
      (add_le_add_left (abs_add_three _ _ _) _)) _).trans ?_) <;> linarith

/-- **C74.** However many terms are asked for, the nutation in longitude is below 19.4677″ and the nutation in obliquity
below 10.089″, plus 0.0184″ and 0.0015″ for each century from J2000. -/
theorem C74_bounded (m : NutationMultipliers) (asec jdTt : ℝ) (terms ls pl : ℤ) {dpsi deps : ℝ}
    (h : iau2000a m asec jdTt terms ls pl = some (dpsi, deps)) :
    |dpsi| / 1e7 ≤ 19.4677 + 0.0184 * |(jdTt - t0) / 36525| ∧
    |deps| / 1e7 ≤ 10.089 + 0.0015 * |(jdTt - t0) / 36525| := by
  unfold iau2000a at h
  simp only [Option.map_eq_some_iff] at h
  obtain ⟨a, -, h⟩ := h
  have hb := nutationSums_bounded m ((jdTt - t0) / 36525) ls pl a
  rw [h] at hb
  simp only at hb
  have ht := abs_nonneg ((jdTt - t0) / 36525)
  constructor
  · rw [div_le_iff₀ (by norm_num)]; linarith [hb.1]
  · rw [div_le_iff₀ (by norm_num)]; linarith [hb.2]

/-- **C74.** A result exists whenever zero or more terms of the fundamental arguments are asked for. -/
theorem C74_defined (m : NutationMultipliers) (asec jdTt : ℝ) (terms : ℕ) (ls pl : ℤ) :
    ∃ dpsi deps, iau2000a m asec jdTt terms ls pl = some (dpsi, deps) := by
  have h : ∃ j js, pySliceFrom [(4 : Fin 5), 3, 2, 1] (-(terms : ℤ) + 1) = j :: js := by
    rcases (by omega : terms = 0 ∨ terms = 1 ∨ terms = 2 ∨ terms = 3 ∨ terms = 4 ∨ 5 ≤ terms) with
      rfl | rfl | rfl | rfl | rfl | h
    · exact ⟨3, [2, 1], by decide⟩
    · exact ⟨4, [3, 2, 1], by decide⟩
    · exact ⟨1, [], by decide⟩
    · exact ⟨2, [1], by decide⟩
    · exact ⟨3, [2, 1], by decide⟩
    · refine ⟨4, [3, 2, 1], ?_⟩
      have h1 : -(terms : ℤ) + 1 < 0 := by omega
      have h2 : List.length [(4 : Fin 5), 3, 2, 1] - (-(-(terms : ℤ) + 1)).toNat = 0 := by
        simp only [List.length_cons, List.length_nil]; omega
      rw [pySliceFrom, if_pos h1, h2]; rfl
  obtain ⟨j, js, h⟩ := h
  unfold iau2000a fundamentalArguments
  rw [h]
  exact ⟨_, _, rfl⟩

theorem nutationSums_zero (m : NutationMultipliers) (t : ℝ) (ls : ℤ) (a : Fin 5 → ℝ) (k : ℕ) :
    nutationSums m t ls k a =
      ((nutationSums m t ls 0 a).1 +
          seriesDot sin ((pySliceTo m.napl k).map (multiplierDot · (planetaryArguments t))) (pySliceTo planetaryLongitude0 k) +
          seriesDot cos ((pySliceTo m.napl k).map (multiplierDot · (planetaryArguments t))) (pySliceTo planetaryLongitude1 k),
       (nutationSums m t ls 0 a).2 +
          seriesDot sin ((pySliceTo m.napl k).map (multiplierDot · (planetaryArguments t))) (pySliceTo planetaryObliquity0 k) +
          seriesDot cos ((pySliceTo m.napl k).map (multiplierDot · (planetaryArguments t))) (pySliceTo planetaryObliquity1 k)) := by
  rcases Nat.eq_zero_or_pos k with rfl | hk
  · simp [nutationSums, seriesDot, pySliceTo]
  · have : (k : ℤ) ≠ 0 := by omega
    unfold nutationSums
    simp only [if_neg this, if_true]

theorem abs_three_diff {a b c a' b' c' t A B C : ℝ} (ha : |a - a'| ≤ A) (hb : |b - b'| ≤ B) (hc : |c - c'| ≤ C) :
    |(a + b * t + c) - (a' + b' * t + c')| ≤ A + B * |t| + C := by
  have e : (a + b * t + c) - (a' + b' * t + c') = (a - a') + (b - b') * t + (c - c') := by ring
  rw [e]
  refine (abs_add_three _ _ _).trans ?_
  rw [abs_mul]
  have := mul_le_mul_of_nonneg_right hb (abs_nonneg t)
  linarith

theorem pySliceTo_all {α : Type} (l : List α) (h : l.length ≤ 687) : pySliceTo l 687 = l := by
  have : pySliceTo l ((687 : ℕ) : ℤ) = l := by rw [pySliceTo_nat, List.take_of_length_le h]
  exact this

theorem all_psi0 : pySliceTo lunisolarLongitude0 687 = lunisolarLongitude0 := pySliceTo_all _ (by decide +kernel)
theorem all_psi1 : pySliceTo lunisolarLongitude1 687 = lunisolarLongitude1 := pySliceTo_all _ (by decide +kernel)
theorem all_psi2 : pySliceTo lunisolarLongitude2 687 = lunisolarLongitude2 := pySliceTo_all _ (by decide +kernel)
theorem all_eps0 : pySliceTo lunisolarObliquity0 687 = lunisolarObliquity0 := pySliceTo_all _ (by decide +kernel)
theorem all_eps1 : pySliceTo lunisolarObliquity1 687 = lunisolarObliquity1 := pySliceTo_all _ (by decide +kernel)
theorem all_eps2 : pySliceTo lunisolarObliquity2 687 = lunisolarObliquity2 := pySliceTo_all _ (by decide +kernel)
theorem all_ppsi0 : pySliceTo planetaryLongitude0 687 = planetaryLongitude0 := pySliceTo_all _ (by decide +kernel)
theorem all_ppsi1 : pySliceTo planetaryLongitude1 687 = planetaryLongitude1 := pySliceTo_all _ (by decide +kernel)
theorem all_peps0 : pySliceTo planetaryObliquity0 687 = planetaryObliquity0 := pySliceTo_all _ (by decide +kernel)
theorem all_peps1 : pySliceTo planetaryObliquity1 687 = planetaryObliquity1 := pySliceTo_all _ (by decide +kernel)

/-- Specification: the two tables of multipliers have as many rows as the tables of amplitudes. -/
structure NutationMultipliers.Fits (m : NutationMultipliers) : Prop where
  nals : m.nals.length = 678
  napl : m.napl.length = 687

/-- **C74.** Asking for fewer terms changes the result by no more than the amplitudes of the terms left out: of the first
table those from number `ls` on, of the second those from number `pl` on.  Asking for zero planetary terms leaves out all
of them. -/
theorem C74_truncated (m : NutationMultipliers) (hm : m.Fits) (asec jdTt : ℝ) (terms : ℤ) (ls pl : ℕ)
    {dpsi deps dpsi' deps' : ℝ} (h : iau2000a m asec jdTt terms 687 687 = some (dpsi, deps))
    (h' : iau2000a m asec jdTt terms ls pl = some (dpsi', deps')) :
    |dpsi - dpsi'| ≤ amplitude (lunisolarLongitude0.drop ls)
      + amplitude (lunisolarLongitude1.drop ls) * |(jdTt - t0) / 36525| + amplitude (lunisolarLongitude2.drop ls)
      + amplitude (planetaryLongitude0.drop pl) + amplitude (planetaryLongitude1.drop pl) ∧
    |deps - deps'| ≤ amplitude (lunisolarObliquity0.drop ls)
      + amplitude (lunisolarObliquity1.drop ls) * |(jdTt - t0) / 36525| + amplitude (lunisolarObliquity2.drop ls)
      + amplitude (planetaryObliquity0.drop pl) + amplitude (planetaryObliquity1.drop pl) := by
  unfold iau2000a at h h'
  simp only [Option.map_eq_some_iff] at h h'
  obtain ⟨a, ha, h⟩ := h
  obtain ⟨a', ha', h'⟩ := h'
  rw [ha] at ha'
  obtain rfl := Option.some.inj ha'
  set t := (jdTt - t0) / 36525
  rw [nutationSums_zero m t ls a pl] at h'
  have h1 := nutationSums_zero m t 687 a 687
  rw [show ((687 : ℕ) : ℤ) = 687 from rfl, h] at h1
  rw [Prod.mk.injEq] at h' h1
  have e1 := pySliceTo_all m.nals (by rw [hm.nals]; norm_num)
  have e2 := pySliceTo_all m.napl (by rw [hm.napl])
  have d := fun (f : ℝ → ℝ) (hf : ∀ x, |f x| ≤ 1) (c : List ℤ) =>
    seriesDot_dropped f hf (multiplierDot · a) m.nals c ls
  have d' := fun (f : ℝ → ℝ) (hf : ∀ x, |f x| ≤ 1) (c : List ℤ) =>
    seriesDot_dropped f hf (multiplierDot · (planetaryArguments t)) m.napl c pl
  have p : |(nutationSums m t 687 0 a).1 - (nutationSums m t ls 0 a).1| ≤ amplitude (lunisolarLongitude0.drop ls)
      + amplitude (lunisolarLongitude1.drop ls) * |t| + amplitude (lunisolarLongitude2.drop ls) := by
    unfold nutationSums
    simp only [if_true, e1, all_psi0, all_psi1, all_psi2]
    exact abs_three_diff (d sin abs_sin_le _) (d sin abs_sin_le _) (d cos abs_cos_le _)
  have q : |(nutationSums m t 687 0 a).2 - (nutationSums m t ls 0 a).2| ≤ amplitude (lunisolarObliquity0.drop ls)
      + amplitude (lunisolarObliquity1.drop ls) * |t| + amplitude (lunisolarObliquity2.drop ls) := by
    unfold nutationSums
    simp only [if_true, e1, all_eps0, all_eps1, all_eps2]
    exact abs_three_diff (d cos abs_cos_le _) (d cos abs_cos_le _) (d sin abs_sin_le _)
  rw [e2, all_ppsi0, all_ppsi1, all_peps0, all_peps1] at h1
  rw [h1.1, h1.2, ← h'.1, ← h'.2]
  have r1 := d' sin abs_sin_le planetaryLongitude0
  have r2 := d' cos abs_cos_le planetaryLongitude1
  have r3 := d' sin abs_sin_le planetaryObliquity0
  have r4 := d' cos abs_cos_le planetaryObliquity1
  rw [abs_le] at p q r1 r2 r3 r4 ⊢
  rw [abs_le]
  refine ⟨⟨?_, ?_⟩, ?_, ?_⟩ <;> linarith [p.1, p.2, q.1, q.2, r1.1, r1.2, r2.1, r2.2, r3.1, r3.2, r4.1, r4.2]

/-- **C74.** The IAU 2000B angles differ from the full series, on the same two-term arguments, by no more than 0.0124″ and
0.0047″. -/
theorem C74_iau2000b (m : NutationMultipliers) (hm : m.Fits) (asec jdTt : ℝ) {dpsi deps dpsi' deps' : ℝ}
    (h : iau2000a m asec jdTt 2 687 687 = some (dpsi, deps)) (h' : iau2000b m asec jdTt = some (dpsi', deps')) :
    |dpsi - dpsi'| / 1e7 ≤ 0.0124 + 1.1e-6 * |(jdTt - t0) / 36525| ∧ |deps - deps'| / 1e7 ≤ 0.0047 := by
  unfold iau2000b at h'
  simp only [Option.map_eq_some_iff] at h'
  obtain ⟨⟨p, e⟩, hp, h'⟩ := h'
  simp only [Prod.mk.injEq] at h'
  have b := C74_truncated m hm asec jdTt 2 77 0 h (by exact_mod_cast hp)
  have a0 : amplitude (lunisolarLongitude0.drop 77) = 62671 := by decide +kernel
  have a1 : amplitude (lunisolarLongitude1.drop 77) = 11 := by decide +kernel
  have a2 : amplitude (lunisolarLongitude2.drop 77) = 4382 := by decide +kernel
  have b0 : amplitude (lunisolarObliquity0.drop 77) = 21016 := by decide +kernel
  have b1 : amplitude (lunisolarObliquity1.drop 77) = 0 := by decide +kernel
  have b2 : amplitude (lunisolarObliquity2.drop 77) = 3054 := by decide +kernel
  rw [a0, a1, a2, b0, b1, b2] at b
  simp only [List.drop_zero, amp_ppsi0, amp_ppsi1, amp_peps0, amp_peps1] at b
  push_cast at b
  rw [← h'.1, ← h'.2, div_le_iff₀ (by norm_num), div_le_iff₀ (by norm_num)]
  have b1 := b.1
  have b2 := b.2
  rw [abs_le] at b1 b2 ⊢
  rw [abs_le]
  refine ⟨⟨?_, ?_⟩, ?_, ?_⟩ <;> linarith [b1.1, b1.2, b2.1, b2.2]

/-- **C74.** With an exact arcsecond, removing whole turns changes nothing: for two to five terms the result is the series at
the published polynomials themselves. -/
theorem C74_series (m : NutationMultipliers) (jdTt : ℝ) {terms : ℕ} (h2 : 2 ≤ terms) (h5 : terms ≤ 5) (ls pl : ℤ) :
    iau2000a m exactArcsecond jdTt terms ls pl = some (nutationSums m ((jdTt - t0) / 36525) ls pl
      fun i => delaunay terms ((jdTt - t0) / 36525) i * exactArcsecond) := by
  unfold iau2000a
  simp only
  rw [fundamentalArguments_eq _ _ h2 h5, Option.map_some, Option.some.injEq]
  set t := (jdTt - t0) / 36525
  have h : ∀ i : Fin 5, ∃ k : ℤ, fmod (delaunay terms t i) 1296000 * exactArcsecond =
      delaunay terms t i * exactArcsecond + k * (2 * π) := by
    intro i
    obtain ⟨k, hk⟩ := fmod_turns (delaunay terms t i)
    refine ⟨-k, ?_⟩
    rw [hk]
    unfold exactArcsecond
    push_cast
    ring
  unfold nutationSums
  simp only [seriesDot_turns sin sin_turns _ h, seriesDot_turns cos cos_turns _ h]

/-- **C74.** With an exact arcsecond the two angles vary continuously with time: no jump where an argument passes a whole
turn. -/
theorem C74_continuous (m : NutationMultipliers) {terms : ℕ} (h2 : 2 ≤ terms) (h5 : terms ≤ 5) (ls pl : ℤ) :
    ∃ f : ℝ → ℝ × ℝ, Continuous f ∧ ∀ jdTt, iau2000a m exactArcsecond jdTt terms ls pl = some (f jdTt) := by
  refine ⟨_, ?_, fun jd => C74_series m jd h2 h5 ls pl⟩
  have ht : Continuous fun jd : ℝ => (jd - t0) / 36525 := by fun_prop
  have ha : Continuous fun jd : ℝ => fun i => delaunay terms ((jd - t0) / 36525) i * exactArcsecond := by
    refine continuous_pi fun i => ?_
    unfold delaunay
    refine Continuous.mul ?_ continuous_const
    refine Continuous.comp (g := fun t : ℝ => ((List.range terms).map fun k => (delaunayCoefficients i).getD k 0 * t ^ k).sum) ?_ ht
    exact continuous_list_sum _ fun k _ => by fun_prop
  have hp : Continuous fun jd : ℝ => planetaryArguments ((jd - t0) / 36525) := by
    refine continuous_pi fun i => ?_
    unfold planetaryArguments
    simp only
    split <;> fun_prop
  unfold nutationSums
  simp only
  have s := fun (c : List ℤ) => continuous_seriesDot continuous_sin (pySliceTo m.nals ls) ha c
  have c := fun (c : List ℤ) => continuous_seriesDot continuous_cos (pySliceTo m.nals ls) ha c
  have s' := fun (c : List ℤ) => continuous_seriesDot continuous_sin (pySliceTo m.napl pl) hp c
  have c' := fun (c : List ℤ) => continuous_seriesDot continuous_cos (pySliceTo m.napl pl) hp c
  by_cases h0 : pl = 0
  · simp only [if_pos h0]
    exact (((s _).add ((s _).mul ht)).add (c _)).prodMk (((c _).add ((c _).mul ht)).add (s _))
  · simp only [if_neg h0]
    exact (((((s _).add ((s _).mul ht)).add (c _)).add (s' _)).add (c' _)).prodMk
      (((((c _).add ((c _).mul ht)).add (s _)).add (s' _)).add (c' _))

/-- **C74.** The IAU 2000B angles are the first 77 luni-solar terms on two-term arguments, plus the fixed planetary bias of
−0.000135″ and +0.000388″. -/
theorem C74_iau2000b_bias (m : NutationMultipliers) (jdTt : ℝ) {dpsi deps : ℝ}
    (h : iau2000b m exactArcsecond jdTt = some (dpsi, deps)) :
    ((dpsi / 1e7 + 0.000135) * 1e7, (deps / 1e7 - 0.000388) * 1e7) =
      nutationSums m ((jdTt - t0) / 36525) 77 0 fun i => delaunay 2 ((jdTt - t0) / 36525) i * exactArcsecond := by
  unfold iau2000b at h
  have hs := C74_series m jdTt (terms := 2) le_rfl (by norm_num) 77 0
  rw [show ((2 : ℕ) : ℤ) = 2 from rfl] at hs
  rw [hs, Option.map_some, Option.some.injEq, Prod.mk.injEq] at h
  rw [← h.1, ← h.2]
  ext
  · simp only; ring
  · simp only; ring

/-- **C74.** The versions in radians: the same angles times the size of an arcsecond over ten million. -/
theorem C74_radians (m : NutationMultipliers) (jdTt : ℝ) (terms ls pl : ℤ) {dpsi deps : ℝ}
    (h : iau2000aRadians m jdTt terms ls pl = some (dpsi, deps)) :
    (∃ psi eps, iau2000a m asec2rad jdTt terms ls pl = some (psi, eps) ∧
      dpsi = psi / 1e7 * asec2rad ∧ deps = eps / 1e7 * asec2rad) ∧
    |dpsi| ≤ (19.4677 + 0.0184 * |(jdTt - t0) / 36525|) * asec2rad ∧
    |deps| ≤ (10.089 + 0.0015 * |(jdTt - t0) / 36525|) * asec2rad := by
  unfold iau2000aRadians at h
  simp only [Option.map_eq_some_iff] at h
  obtain ⟨⟨psi, eps⟩, h1, h2⟩ := h
  simp only [Prod.mk.injEq] at h2
  have hb := C74_bounded m _ _ _ _ _ h1
  have ha : (0 : ℝ) ≤ asec2rad := by unfold asec2rad; norm_num
  have e1 : dpsi = psi / 1e7 * asec2rad := by rw [← h2.1]; ring
  have e2 : deps = eps / 1e7 * asec2rad := by rw [← h2.2]; ring
  refine ⟨⟨psi, eps, h1, e1, e2⟩, ?_, ?_⟩
  · rw [e1, abs_mul, abs_of_nonneg ha, abs_div, abs_of_nonneg (by norm_num : (0 : ℝ) ≤ 1e7)]
    exact mul_le_mul_of_nonneg_right hb.1 ha
  · rw [e2, abs_mul, abs_of_nonneg ha, abs_div, abs_of_nonneg (by norm_num : (0 : ℝ) ≤ 1e7)]
    exact mul_le_mul_of_nonneg_right hb.2 ha

/-- **C74.** Likewise for IAU 2000B. -/
theorem C74_radians_b (m : NutationMultipliers) (jdTt : ℝ) {dpsi deps : ℝ}
    (h : iau2000bRadians m jdTt = some (dpsi, deps)) :
    ∃ psi eps, iau2000b m asec2rad jdTt = some (psi, eps) ∧ dpsi = psi / 1e7 * asec2rad ∧ deps = eps / 1e7 * asec2rad := by
  unfold iau2000bRadians at h
  simp only [Option.map_eq_some_iff] at h
  obtain ⟨⟨psi, eps⟩, h1, h2⟩ := h
  simp only [Prod.mk.injEq] at h2
  exact ⟨psi, eps, h1, by rw [← h2.1]; ring, by rw [← h2.2]; ring⟩

/-! ### The equation of the equinoxes -/

theorem pyMod_one_turns (x : ℝ) : ∃ k : ℤ, pyMod x 1.0 = x - k := by
  obtain ⟨k, hk⟩ := pyMod_eq_sub' x (1.0 : ℝ)
  exact ⟨k, by rw [hk]; norm_num⟩

/-- **C74.** With an exact arcsecond, the arguments of the complementary terms for Moon and Sun are, up to whole turns, those
of the nutation series to within two millionths of an arcsecond. -/
theorem C74_equinox_arguments (t : ℝ) (i : Fin 5) : ∃ k : ℤ,
    |equinoxArguments exactArcsecond t (i.castLE (by norm_num)) - delaunay 5 t i * exactArcsecond - k * (2 * π)| ≤
      2e-6 * exactArcsecond := by
  have hpos : 0 < exactArcsecond := by unfold exactArcsecond; positivity
  have htau : tau = 1296000 * exactArcsecond := by unfold tau exactArcsecond; ring
  have h2pi : 2 * π = 1296000 * exactArcsecond := by unfold exactArcsecond; ring
  have fin : ∀ (p q n c d : ℝ) (i : Fin 5), q = p * exactArcsecond + pyMod (c * t) 1.0 * tau → c = n →
      p = delaunay 5 t i + d - 1296000 * n * t → |d| ≤ 2e-6 → ∃ k : ℤ, |pyMod q tau - delaunay 5 t i * exactArcsecond - k * (2 * π)| ≤ 2e-6 * exactArcsecond := by
    intro p q n c d i hq hc hp hd
    obtain ⟨k, hk⟩ := pyMod_eq_sub' q tau
    obtain ⟨l, hl⟩ := pyMod_one_turns (c * t)
    refine ⟨-l - k, ?_⟩
    have e : pyMod q tau - delaunay 5 t i * exactArcsecond - ((-l - k : ℤ) : ℝ) * (2 * π) = d * exactArcsecond := by
      rw [hk, hq, hl, h2pi, htau, hp, hc]; push_cast; ring
    rw [e, abs_mul, abs_of_pos hpos]
    exact mul_le_mul_of_nonneg_right hd hpos.le
  have key : ∀ i : Fin 5, delaunay 5 t i = (delaunayCoefficients i).getD 0 0 + (delaunayCoefficients i).getD 1 0 * t +
      (delaunayCoefficients i).getD 2 0 * t ^ 2 + (delaunayCoefficients i).getD 3 0 * t ^ 3
      + (delaunayCoefficients i).getD 4 0 * t ^ 4 := by
    intro i; unfold delaunay; simp [List.range_succ]; ring
  fin_cases i
  · refine fin _ _ 1325 _ 0 0 rfl (by norm_num) ?_ (by norm_num)
    rw [key]
    simp only [delaunayCoefficients, Matrix.cons_val, List.getD_cons_zero, List.getD_cons_succ]
    norm_num only
    ring
  · refine fin _ _ 99 _ (-2e-6) 1 rfl (by norm_num) ?_ (by norm_num)
    rw [key]
    simp only [delaunayCoefficients, Matrix.cons_val, List.getD_cons_zero, List.getD_cons_succ]
    norm_num only
    ring
  · refine fin _ _ 1342 _ 0 2 rfl (by norm_num) ?_ (by norm_num)
    rw [key]
    simp only [delaunayCoefficients, Matrix.cons_val, List.getD_cons_zero, List.getD_cons_succ]
    norm_num only
    ring
  · refine fin _ _ 1236 _ (2e-6) 3 rfl (by norm_num) ?_ (by norm_num)
    rw [key]
    simp only [delaunayCoefficients, Matrix.cons_val, List.getD_cons_zero, List.getD_cons_succ]
    norm_num only
    ring
  · refine fin _ _ (-5) _ 0 4 rfl (by norm_num) ?_ (by norm_num)
    rw [key]
    simp only [delaunayCoefficients, Matrix.cons_val, List.getD_cons_zero, List.getD_cons_succ]
    norm_num only
    ring

theorem equinoxTerms_eq (m : NutationMultipliers) (asec jdTt : ℝ) : equinoxTerms m asec jdTt =
    (-0.87e-6 * sin (multiplierDot m.ke1 (equinoxArguments asec ((jdTt - t0) / 36525))) * ((jdTt - t0) / 36525)
     + seriesDot sin (m.ke0.map (multiplierDot · (equinoxArguments asec ((jdTt - t0) / 36525)))) equinoxes0 / 1e8
     + seriesDot cos (m.ke0.map (multiplierDot · (equinoxArguments asec ((jdTt - t0) / 36525)))) equinoxes1 / 1e8) * asec := by
  have h0 : (0.00e-6 : ℝ) = 0 := by norm_num
  unfold equinoxTerms
  simp only
  rw [h0, zero_mul, add_zero]

/-- **C74.** The complementary terms are below 0.00275″, plus 0.87 millionths for each century from J2000. -/
theorem C74_equinox_terms (m : NutationMultipliers) (asec jdTt : ℝ) (ha : 0 ≤ asec) :
    |equinoxTerms m asec jdTt| ≤ (0.00275 + 0.87e-6 * |(jdTt - t0) / 36525|) * asec := by
  rw [equinoxTerms_eq, abs_mul, abs_of_nonneg ha]
  refine mul_le_mul_of_nonneg_right ?_ ha
  set t := (jdTt - t0) / 36525
  refine (abs_add_three _ _ _).trans ?_
  have h0 := abs_seriesDot_le sin abs_sin_le (m.ke0.map (multiplierDot · (equinoxArguments asec t))) equinoxes0
  have h1 := abs_seriesDot_le cos abs_cos_le (m.ke0.map (multiplierDot · (equinoxArguments asec t))) equinoxes1
  rw [amp_eq0] at h0
  rw [amp_eq1] at h1
  rw [abs_mul, abs_mul, abs_div (seriesDot sin _ _), abs_div (seriesDot cos _ _),
    abs_of_nonneg (by norm_num : (0 : ℝ) ≤ 1e8)]
  have h2 : |(-0.87e-6 : ℝ)| = 0.87e-6 := by rw [abs_of_neg (by norm_num)]; norm_num
  rw [h2]
  have h3 : 0.87e-6 * |sin (multiplierDot m.ke1 (equinoxArguments asec t))| * |t| ≤ 0.87e-6 * |t| := by
    refine mul_le_mul_of_nonneg_right ?_ (abs_nonneg t)
    have := abs_sin_le (multiplierDot m.ke1 (equinoxArguments asec t))
    linarith
  push_cast at h0 h1
  have h4 := div_le_div_of_nonneg_right h0 (by norm_num : (0 : ℝ) ≤ 1e8)
  have h5 := div_le_div_of_nonneg_right h1 (by norm_num : (0 : ℝ) ≤ 1e8)
  linarith

/-- **C74.** Apparent and mean sidereal time differ, up to whole days, by less than 1.2981 seconds plus 0.0013 seconds for
each century from J2000, at every date and whatever number of terms the nutation was computed from. -/
theorem C74_sidereal (m : NutationMultipliers) (gmst obliquity jdTt : ℝ) (terms ls pl : ℤ) {dpsi deps : ℝ}
    (h : iau2000aRadians m jdTt terms ls pl = some (dpsi, deps)) :
    ∃ days : ℤ, |gastAt m gmst dpsi obliquity jdTt - gmst - 24 * days| * 3600 ≤
      1.2981 + 0.0013 * |(jdTt - t0) / 36525| := by
  have ha : (0 : ℝ) ≤ asec2rad := by unfold asec2rad; norm_num
  have h1 := (C74_radians m jdTt terms ls pl h).2.1
  have h2 := C74_equinox_terms m asec2rad jdTt ha
  set t := |(jdTt - t0) / 36525|
  have ht : 0 ≤ t := abs_nonneg _
  have h3 : |dpsi * cos obliquity + equinoxTerms m asec2rad jdTt| ≤ (19.47045 + 0.01840087 * t) * asec2rad := by
    refine (abs_add_le _ _).trans ?_
    rw [abs_mul]
    have h4 := mul_le_mul h1 (abs_cos_le obliquity) (abs_nonneg _) (by positivity)
    linarith
  unfold gastAt gastHours
  obtain ⟨k, hk⟩ := pyMod_eq_sub' (gmst + (dpsi * cos obliquity + equinoxTerms m asec2rad jdTt) / tau * 24) (24 : ℝ)
  refine ⟨-k, ?_⟩
  have e : pyMod (gmst + (dpsi * cos obliquity + equinoxTerms m asec2rad jdTt) / tau * 24) 24 - gmst - 24 * ((-k : ℤ) : ℝ)
      = (dpsi * cos obliquity + equinoxTerms m asec2rad jdTt) * (24 / tau) := by
    rw [hk]; push_cast; ring
  have htau : (6.28318 : ℝ) < tau := by unfold tau; linarith [pi_gt_d6]
  have hq : 24 / tau ≤ 24 / 6.28318 := div_le_div_of_nonneg_left (by norm_num) (by norm_num) htau.le
  have hq0 : 0 ≤ 24 / tau := by positivity
  rw [e, abs_mul, abs_of_nonneg hq0]
  have h5 := mul_le_mul h3 hq hq0 (by positivity)
  have h6 : asec2rad * (24 / 6.28318) * 3600 ≤ 0.0666668 := by unfold asec2rad; norm_num
  have h7 := mul_le_mul_of_nonneg_left h6 (by positivity : 0 ≤ 19.47045 + 0.01840087 * t)
  nlinarith

/-- **C74.** `earth_tilt` reports degrees, seconds of time and arcseconds: multiplied back they are the radians used. -/
theorem C74_earth_tilt (m : NutationMultipliers) (dPsi dEps ob jdTt : ℝ) :
    let (mean, true_, eqEq, psi, eps) := earthTilt m dPsi dEps ob jdTt
    mean * deg2rad = ob ∧ (true_ - mean) * deg2rad = dEps ∧ psi * asec2rad = dPsi ∧ eps * asec2rad = dEps ∧
    ∀ gmst, ∃ days : ℤ, gastAt m gmst dPsi ob jdTt = gmst + eqEq * (15 * asec2rad) * (24 / (2 * π)) + 24 * days := by
  have h1 : deg2rad ≠ 0 := by unfold deg2rad; norm_num
  have h2 : asec2rad ≠ 0 := by unfold asec2rad; norm_num
  have h3 : (15.0 : ℝ) = 15 := by norm_num
  unfold earthTilt
  simp only [h3]
  refine ⟨by field_simp, by field_simp; ring, by field_simp, by field_simp, ?_⟩
  intro gmst
  unfold gastAt gastHours
  obtain ⟨k, hk⟩ := pyMod_eq_sub' (gmst + (dPsi * cos ob + equinoxTerms m asec2rad jdTt) / tau * 24) (24 : ℝ)
  refine ⟨-k, ?_⟩
  rw [hk]
  unfold tau
  have := pi_ne_zero
  push_cast
  field_simp
  ring

/-! ### The mean obliquity -/

/-- **C74.** For fifty centuries on either side of J2000 the mean obliquity decreases steadily, and stays between 22.8 and
24.1 degrees. -/
theorem C74_obliquity :
    (∀ s t : ℝ, -50 ≤ s → s < t → t ≤ 50 → meanObliquity (t0 + 36525 * t) < meanObliquity (t0 + 36525 * s)) ∧
    ∀ t : ℝ, |t| ≤ 50 → 22.8 * 3600 ≤ meanObliquity (t0 + 36525 * t) ∧ meanObliquity (t0 + 36525 * t) ≤ 24.1 * 3600 := by
  have hm : ∀ t : ℝ, meanObliquity (t0 + 36525 * t) = 84381.406 - 46.836769 * t - 0.0001831 * t ^ 2 + 0.00200340 * t ^ 3
      - 0.000000576 * t ^ 4 - 0.0000000434 * t ^ 5 := by
    intro t; unfold meanObliquity
    have : (t0 + 36525 * t - t0) / 36525 = t := by ring
    simp only [this]; ring
  have hanti : ∀ s t : ℝ, -50 ≤ s → s < t → t ≤ 50 → meanObliquity (t0 + 36525 * t) < meanObliquity (t0 + 36525 * s) := by
    intro s t hs hst ht
    have b : ∀ (i j : ℕ), |s ^ i * t ^ j| ≤ 50 ^ (i + j) := by
      intro i j
      rw [abs_mul, abs_pow, abs_pow, pow_add]
      have h1 : |s| ≤ 50 := abs_le.mpr ⟨hs, by linarith⟩
      have h2 : |t| ≤ 50 := abs_le.mpr ⟨by linarith, ht⟩
      gcongr
    rw [hm, hm]
    have e : (84381.406 - 46.836769 * t - 0.0001831 * t ^ 2 + 0.00200340 * t ^ 3 - 0.000000576 * t ^ 4 - 0.0000000434 * t ^ 5)
        - (84381.406 - 46.836769 * s - 0.0001831 * s ^ 2 + 0.00200340 * s ^ 3 - 0.000000576 * s ^ 4 - 0.0000000434 * s ^ 5)
        = (t - s) * (-46.836769 - 0.0001831 * (s ^ 1 * t ^ 0 + s ^ 0 * t ^ 1)
          + 0.00200340 * (s ^ 2 * t ^ 0 + s ^ 1 * t ^ 1 + s ^ 0 * t ^ 2)
          - 0.000000576 * (s ^ 3 * t ^ 0 + s ^ 2 * t ^ 1 + s ^ 1 * t ^ 2 + s ^ 0 * t ^ 3)
          - 0.0000000434 * (s ^ 4 * t ^ 0 + s ^ 3 * t ^ 1 + s ^ 2 * t ^ 2 + s ^ 1 * t ^ 3 + s ^ 0 * t ^ 4)) := by ring
    have neg : -46.836769 - 0.0001831 * (s ^ 1 * t ^ 0 + s ^ 0 * t ^ 1)
          + 0.00200340 * (s ^ 2 * t ^ 0 + s ^ 1 * t ^ 1 + s ^ 0 * t ^ 2)
          - 0.000000576 * (s ^ 3 * t ^ 0 + s ^ 2 * t ^ 1 + s ^ 1 * t ^ 2 + s ^ 0 * t ^ 3)
          - 0.0000000434 * (s ^ 4 * t ^ 0 + s ^ 3 * t ^ 1 + s ^ 2 * t ^ 2 + s ^ 1 * t ^ 3 + s ^ 0 * t ^ 4) < 0 := by
      have a1 := abs_le.mp (b 1 0)
      have a2 := abs_le.mp (b 0 1)
      have a3 := abs_le.mp (b 2 0)
      have a4 := abs_le.mp (b 1 1)
      have a5 := abs_le.mp (b 0 2)
      have a6 := abs_le.mp (b 3 0)
      have a7 := abs_le.mp (b 2 1)
      have a8 := abs_le.mp (b 1 2)
      have a9 := abs_le.mp (b 0 3)
      have c1 := abs_le.mp (b 4 0)
      have c2 := abs_le.mp (b 3 1)
      have c3 := abs_le.mp (b 2 2)
      have c4 := abs_le.mp (b 1 3)
      have c5 := abs_le.mp (b 0 4)
      norm_num only at a1 a2 a3 a4 a5 a6 a7 a8 a9 c1 c2 c3 c4 c5
      linarith [a1.1, a2.1, a3.2, a4.2, a5.2, a6.1, a7.1, a8.1, a9.1, c1.1, c2.1, c3.1, c4.1, c5.1]
    have := mul_neg_of_pos_of_neg (sub_pos.mpr hst) neg
    linarith
  refine ⟨hanti, ?_⟩
  intro t ht
  rw [abs_le] at ht
  have hlo : 22.8 * 3600 ≤ meanObliquity (t0 + 36525 * 50) := by rw [hm]; norm_num
  have hhi : meanObliquity (t0 + 36525 * (-50)) ≤ 24.1 * 3600 := by rw [hm]; norm_num
  constructor
  · rcases ht.2.eq_or_lt with rfl | h
    · exact hlo
    · exact hlo.trans (hanti t 50 ht.1 h le_rfl).le
  · rcases ht.1.eq_or_lt with rfl | h
    · exact hhi
    · exact (hanti (-50) t le_rfl h ht.2).le.trans hhi

/-! ### The hypotheses are met -/

/-- Multiplier tables of the right size: here every luni-solar term depends on the node of the Moon alone, as the largest
one does, and every planetary term on Venus and the Earth. -/
def exampleMultipliers : NutationMultipliers where
  nals := List.replicate 678 ![0, 0, 0, 0, 1]
  napl := List.replicate 687 ![0, 0, 0, 0, 0, 0, 3, -5, 0, 0, 0, 0, 0, 0]
  ke0 := List.replicate 33 ![0, 0, 0, 0, 1, 0, 0, 0, 0, 0, 0, 0, 0, 0]
  ke1 := ![0, 0, 0, 0, 1, 0, 0, 0, 0, 0, 0, 0, 0, 0]

example : exampleMultipliers.Fits := ⟨List.length_replicate, List.length_replicate⟩

example (jd : ℝ) : (∃ dpsi deps, iau2000aRadians exampleMultipliers jd 5 687 687 = some (dpsi, deps)) ∧
    (∃ dpsi deps, iau2000a exampleMultipliers exactArcsecond jd 2 687 687 = some (dpsi, deps)) ∧
    ∃ dpsi deps, iau2000b exampleMultipliers exactArcsecond jd = some (dpsi, deps) := by
  obtain ⟨a, b, h⟩ := C74_defined exampleMultipliers asec2rad jd 5 687 687
  obtain ⟨c, d, h'⟩ := C74_defined exampleMultipliers exactArcsecond jd 2 687 687
  obtain ⟨e, f, h''⟩ := C74_defined exampleMultipliers exactArcsecond jd 2 77 0
  refine ⟨⟨a * (asec2rad / 1e7), b * (asec2rad / 1e7), ?_⟩, ⟨c, d, h'⟩, ⟨e + -0.000135e7, f + 0.000388e7, ?_⟩⟩
  · unfold iau2000aRadians
    rw [show (5 : ℤ) = ((5 : ℕ) : ℤ) from rfl, h]; rfl
  · unfold iau2000b
    rw [show (2 : ℤ) = ((2 : ℕ) : ℤ) from rfl, h'']; rfl

end Skyfield
