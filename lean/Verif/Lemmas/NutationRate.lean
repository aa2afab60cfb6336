import Verif.Props.Nutation
import Verif.Model.NutationTables
import Mathlib.Analysis.Real.Pi.Bounds
import Mathlib.Tactic.IntervalCases

/-
How fast a trigonometric series with integer multipliers can change.
-/
namespace Skyfield
open Real

/-- Product of two rows, in integers. -/
def rowDot (l q : List ℤ) : ℤ := (List.zipWith (· * ·) l q).sum

/-- Sum over the terms of amplitude times rate, where `q` are the rates of the arguments. -/
def slopeSum (rows : List (List ℤ)) (c q : List ℤ) : ℤ := (List.zipWith (fun r c => |c| * |rowDot r q|) rows c).sum

/-- Sum over the terms of amplitude times the sum of the sizes of the multipliers. -/
def weightSum (rows : List (List ℤ)) (c : List ℤ) : ℤ :=
  (List.zipWith (fun r c => |c| * (r.map fun x => |x|).sum) rows c).sum

theorem sum_getD_eq (n : ℕ) (l q : List ℤ) (h : l.length ≤ n) :
    ∑ i : Fin n, l.getD i 0 * q.getD i 0 = rowDot l q := by
  induction n generalizing l q with
  | zero =>
    have : l = [] := List.eq_nil_of_length_eq_zero (by omega)
    subst this
    simp [rowDot]
  | succ n ih =>
    rw [Fin.sum_univ_succ]
    cases l with
    | nil => simp [rowDot]
    | cons x l =>
      cases q with
      | nil => simp [rowDot]
      | cons y q =>
        have := ih l q (by simpa using h)
        simp only [Fin.val_zero, List.getD_cons_zero, Fin.val_succ, List.getD_cons_succ]
        rw [this]
        simp [rowDot]

theorem sum_getD_abs (n : ℕ) (l : List ℤ) : ∑ i : Fin n, |l.getD i 0| ≤ (l.map fun x => |x|).sum := by
  induction n generalizing l with
  | zero => simpa using List.sum_nonneg (by simp)
  | succ n ih =>
    rw [Fin.sum_univ_succ]
    cases l with
    | nil => simp
    | cons x l =>
      have := ih l
      simp only [Fin.val_zero, List.getD_cons_zero, Fin.val_succ, List.getD_cons_succ, List.map_cons, List.sum_cons]
      linarith

/-- Two sets of arguments which differ, up to whole turns, by `q` times `d` to within `E`. -/
def DriftBy {n : ℕ} (q : List ℤ) (d E : ℝ) (a b : Fin n → ℝ) : Prop :=
  ∀ i : Fin n, ∃ k : ℤ, |a i - b i - k * (2 * π) - (q.getD i 0 : ℤ) * d| ≤ E

theorem multiplierDot_drift {n : ℕ} (row : List ℤ) (hr : row.length ≤ n) (q : List ℤ) {d E : ℝ} {a b : Fin n → ℝ}
    (h : DriftBy q d E a b) : ∃ k : ℤ, |multiplierDot (tableRow n row) a - multiplierDot (tableRow n row) b - k * (2 * π)| ≤
      (|rowDot row q| : ℤ) * |d| + ((row.map fun x => |x|).sum : ℤ) * E := by
  choose k hk using h
  refine ⟨∑ i, tableRow n row i * k i, ?_⟩
  have hE : n ≠ 0 → 0 ≤ E := fun hn => (abs_nonneg _).trans (hk ⟨0, by omega⟩)
  have e : multiplierDot (tableRow n row) a - multiplierDot (tableRow n row) b -
      ((∑ i, tableRow n row i * k i : ℤ) : ℝ) * (2 * π) =
      (rowDot row q : ℝ) * d + ∑ i : Fin n, (row.getD i 0 : ℝ) * (a i - b i - k i * (2 * π) - (q.getD i 0 : ℤ) * d) := by
    have := sum_getD_eq n row q hr
    rw [← this]
    unfold multiplierDot tableRow
    push_cast
    rw [Finset.sum_mul, Finset.sum_mul, ← Finset.sum_sub_distrib, ← Finset.sum_sub_distrib, ← Finset.sum_add_distrib]
    refine Finset.sum_congr rfl fun i _ => ?_
    ring
  rw [e]
  refine (abs_add_le _ _).trans (add_le_add ?_ ?_)
  · rw [abs_mul]; push_cast; exact le_refl _
  · refine (Finset.abs_sum_le_sum_abs _ _).trans ?_
    have h1 : ∑ i : Fin n, |(row.getD i 0 : ℝ) * (a i - b i - k i * (2 * π) - (q.getD i 0 : ℤ) * d)| ≤
        ∑ i : Fin n, ((|row.getD i 0| : ℤ) : ℝ) * E := by
      refine Finset.sum_le_sum fun i _ => ?_
      rw [abs_mul]
      push_cast
      exact mul_le_mul_of_nonneg_left (hk i) (abs_nonneg _)
    refine h1.trans ?_
    rw [← Finset.sum_mul]
    by_cases hn : n = 0
    · subst hn
      have : row = [] := List.eq_nil_of_length_eq_zero (by omega)
      subst this
      simp
    · refine mul_le_mul_of_nonneg_right ?_ (hE hn)
      exact_mod_cast sum_getD_abs n row

theorem sin_lipschitz (x y : ℝ) : |sin x - sin y| ≤ |x - y| := by
  have := abs_sin_sub_sin_le x y
  exact this

theorem cos_lipschitz (x y : ℝ) : |cos x - cos y| ≤ |x - y| := by
  have := abs_cos_sub_cos_le x y
  exact this

/-- A function such as sine or cosine. -/
structure Wave (f : ℝ → ℝ) : Prop where
  turns : ∀ x (k : ℤ), f (x + k * (2 * π)) = f x
  lipschitz : ∀ x y, |f x - f y| ≤ |x - y|
  bounded : ∀ x, |f x| ≤ 1

theorem wave_sin : Wave sin := ⟨sin_turns, sin_lipschitz, abs_sin_le⟩
theorem wave_cos : Wave cos := ⟨cos_turns, cos_lipschitz, abs_cos_le⟩

theorem slopeSum_nonneg (rows : List (List ℤ)) (c q : List ℤ) : 0 ≤ slopeSum rows c q := by
  unfold slopeSum
  refine List.sum_nonneg fun x hx => ?_
  rw [List.mem_iff_getElem] at hx
  obtain ⟨i, hi, rfl⟩ := hx
  rw [List.getElem_zipWith]
  positivity

theorem weightSum_nonneg (rows : List (List ℤ)) (c : List ℤ) : 0 ≤ weightSum rows c := by
  unfold weightSum
  refine List.sum_nonneg fun x hx => ?_
  rw [List.mem_iff_getElem] at hx
  obtain ⟨i, hi, rfl⟩ := hx
  rw [List.getElem_zipWith]
  exact mul_nonneg (abs_nonneg _) (List.sum_nonneg (by simp))

theorem seriesDot_drift {f : ℝ → ℝ} (hf : Wave f) {n : ℕ} (rows : List (List ℤ)) (hr : ∀ r ∈ rows, r.length ≤ n) (q c : List ℤ)
    {d E : ℝ} {a b : Fin n → ℝ} (h : DriftBy q d E a b) :
    |seriesDot f ((rows.map (tableRow n)).map (multiplierDot · a)) c -
      seriesDot f ((rows.map (tableRow n)).map (multiplierDot · b)) c| ≤
      slopeSum rows c q * |d| + weightSum rows c * E := by
  induction rows generalizing c with
  | nil => simp [seriesDot, slopeSum, weightSum]
  | cons r rows ih =>
    cases c with
    | nil => simp [seriesDot, slopeSum, weightSum]
    | cons x c =>
      have h1 := ih (fun r hr' => hr r (List.mem_cons_of_mem _ hr')) c
      obtain ⟨k, hk⟩ := multiplierDot_drift r (hr r (List.mem_cons_self ..)) q h
      have h2 : |f (multiplierDot (tableRow n r) a) - f (multiplierDot (tableRow n r) b)| ≤
          (|rowDot r q| : ℤ) * |d| + ((r.map fun x => |x|).sum : ℤ) * E := by
        refine le_trans ?_ hk
        rw [← hf.turns (multiplierDot (tableRow n r) b) k]
        refine (hf.lipschitz _ _).trans (le_of_eq ?_)
        congr 1; ring
      have h3 := mul_le_mul_of_nonneg_right h2 (abs_nonneg (x : ℝ))
      rw [← abs_mul, sub_mul] at h3
      simp only [seriesDot, slopeSum, weightSum, List.map_cons, List.zipWith_cons_cons, List.sum_cons] at h1 ⊢
      push_cast at h1 h3 ⊢
      have e : ∀ p q r s : ℝ, p + q - (r + s) = (p - r) + (q - s) := by intros; ring
      rw [e]
      refine (abs_add_le _ _).trans ?_
      refine (add_le_add h3 h1).trans (le_of_eq ?_)
      ring

/-- Leading terms only: the bounds for the whole table serve. -/
theorem seriesDot_drift_slice {f : ℝ → ℝ} (hf : Wave f) {n : ℕ} (rows : List (List ℤ)) (hr : ∀ r ∈ rows, r.length ≤ n)
    (q c : List ℤ) (hl : rows.length = c.length) (k : ℤ) {d E : ℝ} (hE : 0 ≤ E) {a b : Fin n → ℝ} (h : DriftBy q d E a b) {S W : ℤ}
    (hS : slopeSum rows c q ≤ S) (hW : weightSum rows c ≤ W) :
    |seriesDot f ((pySliceTo (rows.map (tableRow n)) k).map (multiplierDot · a)) (pySliceTo c k) -
      seriesDot f ((pySliceTo (rows.map (tableRow n)) k).map (multiplierDot · b)) (pySliceTo c k)| ≤
      S * |d| + W * E := by
  have key : ∃ m : ℕ, pySliceTo (rows.map (tableRow n)) k = (rows.take m).map (tableRow n) ∧ pySliceTo c k = c.take m := by
    unfold pySliceTo
    split
    · exact ⟨rows.length - (-k).toNat, by rw [List.map_take, List.length_map], by rw [hl]⟩
    · exact ⟨k.toNat, by rw [List.map_take], rfl⟩
  obtain ⟨m, h1, h2⟩ := key
  rw [h1, h2]
  refine (seriesDot_drift hf (rows.take m) (fun r h => hr r (List.mem_of_mem_take h)) q (c.take m) h).trans ?_
  have h3 : slopeSum (rows.take m) (c.take m) q ≤ S := by
    refine le_trans ?_ hS
    unfold slopeSum
    conv_rhs => rw [← List.take_append_drop m rows, ← List.take_append_drop m c]
    rw [List.zipWith_append (by simp [hl]), List.sum_append]
    have := slopeSum_nonneg (rows.drop m) (c.drop m) q
    unfold slopeSum at this
    linarith
  have h4 : weightSum (rows.take m) (c.take m) ≤ W := by
    refine le_trans ?_ hW
    unfold weightSum
    conv_rhs => rw [← List.take_append_drop m rows, ← List.take_append_drop m c]
    rw [List.zipWith_append (by simp [hl]), List.sum_append]
    have := weightSum_nonneg (rows.drop m) (c.drop m)
    unfold weightSum at this
    linarith
  exact add_le_add (mul_le_mul_of_nonneg_right (by exact_mod_cast h3) (abs_nonneg _))
    (mul_le_mul_of_nonneg_right (by exact_mod_cast h4) hE)

end Skyfield
