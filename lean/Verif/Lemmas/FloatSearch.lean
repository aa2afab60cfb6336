import Verif.Model.FloatSearch
import Verif.Lemmas.Search
import Verif.Lemmas.Floats
import Mathlib.Tactic.LinearCombination
import Mathlib.Tactic.GCongr

/-
Lemmas for C82: how far the refined samples of a search are from where they should be.
-/
namespace Skyfield
open Spec

variable {fl : ℚ → ℚ}

theorem mem_adjacent_map_range {α : Type*} (g : ℕ → α) (k : ℕ) (p : α × α) :
    p ∈ adjacent ((List.range k).map g) ↔ ∃ i, i + 1 < k ∧ p = (g i, g (i + 1)) := by
  unfold adjacent
  rw [List.mem_iff_getElem]
  constructor
  · rintro ⟨i, hi, rfl⟩
    simp at hi
    exact ⟨i, by omega, by simp⟩
  · rintro ⟨i, hi, rfl⟩
    exact ⟨i, by simp; omega, by simp⟩

/-- The mask `linspace(0.0, 1.0, n + 2)`. -/
def maskF (fl : ℚ → ℚ) (n i : ℕ) : ℚ :=
  if i = n + 1 then 1 else fl (i * fl (1 / ((n:ℚ) + 1)))

theorem linspaceF_unit (hf : RoundsToNearest fl) (n : ℕ) :
    linspaceF fl 0 1 (n + 2) = (List.range (n + 2)).map (maskF fl n) := by
  have h1 : fl 1 = 1 := by simpa using fl_int hf (n := 1) (by norm_num)
  unfold linspaceF maskF
  refine List.map_congr_left fun i hi => ?_
  have e : ((n + 2 : ℕ) : ℚ) - 1 = n + 1 := by push_cast; ring
  simp only [sub_zero, h1, e, add_zero, fl_exact hf (hf.float _)]
  by_cases h : i = n + 1
  · rw [if_pos ⟨by omega, by omega⟩, if_pos h]
  · rw [if_neg (by omega), if_neg h]

theorem maskF_err (hf : RoundsToNearest fl) (n i : ℕ) :
    |maskF fl n i - i / ((n:ℚ) + 1)| ≤ i / ((n:ℚ) + 1) * (21 / 10 / 2 ^ 53) := by
  have n0 : (0:ℚ) < (n:ℚ) + 1 := by positivity
  unfold maskF
  split
  · next h =>
    subst h
    push_cast
    rw [div_self n0.ne', sub_self, abs_zero]; norm_num
  · set d : ℚ := 1 / ((n:ℚ) + 1) with hd
    have d0 : 0 < d := by positivity
    have e : (i:ℚ) / ((n:ℚ) + 1) = i * d := by rw [hd]; ring
    rw [e]
    have i0 : (0:ℚ) ≤ i := by positivity
    have h1 := fl_rel hf d
    rw [abs_of_pos d0] at h1
    have h2 : |(i:ℚ) * fl d - i * d| ≤ i * d / 2 ^ 53 := by
      rw [← mul_sub, abs_mul, abs_of_nonneg i0, mul_div_assoc]
      exact mul_le_mul_of_nonneg_left h1 i0
    have id0 : 0 ≤ (i:ℚ) * d := by positivity
    have h3 : |(i:ℚ) * fl d| ≤ i * d * (1 + 1 / 2 ^ 53) := by
      have := abs_sub_abs_le_abs_sub ((i:ℚ) * fl d) (i * d)
      rw [abs_of_nonneg id0] at this
      linarith
    have h4 := fl_err hf h3
    have h5 : |fl ((i:ℚ) * fl d) - i * d| ≤ |fl ((i:ℚ) * fl d) - i * fl d| + |(i:ℚ) * fl d - i * d| :=
      abs_sub_le _ _ _
    refine h5.trans ((add_le_add h4 h2).trans ?_)
    have : (i:ℚ) * d * (1 + 1 / 2 ^ 53) / 2 ^ 53 + i * d / 2 ^ 53
        = i * d * ((2 + 1 / 2 ^ 53) / 2 ^ 53) := by ring
    rw [this]
    exact mul_le_mul_of_nonneg_left (by norm_num) id0

/-- The `i`th refined sample of a bracket. -/
def refinedF (fl : ℚ → ℚ) (n : ℕ) (b : ℚ × ℚ) (i : ℕ) : ℚ :=
  fl (fl (b.1 * maskF fl n (n + 1 - i)) + fl (b.2 * maskF fl n i))

theorem bracketPointsF_eq (hf : RoundsToNearest fl) (n : ℕ) (b : ℚ × ℚ) :
    bracketPointsF fl (n + 2) b = (List.range (n + 2)).map (refinedF fl n b) := by
  unfold bracketPointsF
  simp only [linspaceF_unit hf]
  apply List.ext_getElem
  · simp
  · intro i h1 h2
    simp at h1
    simp only [List.getElem_zipWith, List.getElem_reverse, List.getElem_map, List.getElem_range,
      List.length_map, List.length_range, refinedF]
    rw [show n + 2 - 1 - i = n + 1 - i by omega]

theorem refinedF_first (hf : RoundsToNearest fl) (n : ℕ) (b : ℚ × ℚ) (h : IsFloat b.1) :
    refinedF fl n b 0 = b.1 := by
  unfold refinedF maskF
  rw [if_pos (by omega), if_neg (by omega)]
  simp only [Nat.cast_zero, zero_mul, mul_one, fl_zero hf, mul_zero, add_zero, fl_exact hf h]

theorem refinedF_last (hf : RoundsToNearest fl) (n : ℕ) (b : ℚ × ℚ) (h : IsFloat b.2) :
    refinedF fl n b (n + 1) = b.2 := by
  unfold refinedF maskF
  rw [if_neg (by omega), if_pos rfl]
  simp only [Nat.sub_self, Nat.cast_zero, zero_mul, mul_one, fl_zero hf, mul_zero, zero_add,
    fl_exact hf h]

/-- One product: the sample it contributes to is off by 3.2 units in the last place at most. -/
theorem product_err (hf : RoundsToNearest fl) {s m x : ℚ} (hs : |s| ≤ 2 ^ 22) (x0 : 0 ≤ x)
    (hm : |m - x| ≤ x * (21 / 10 / 2 ^ 53)) : |fl (s * m) - s * x| ≤ x * (32 / 10 * 2 ^ 22 / 2 ^ 53) := by
  have h1 : |s * m - s * x| ≤ 2 ^ 22 * (x * (21 / 10 / 2 ^ 53)) := by
    rw [← mul_sub, abs_mul]
    exact mul_le_mul hs hm (abs_nonneg _) (by norm_num)
  have h2 : |s * x| ≤ 2 ^ 22 * x := by
    rw [abs_mul, abs_of_nonneg x0]
    exact mul_le_mul_of_nonneg_right hs x0
  have h3 : |s * m| ≤ x * (2 ^ 22 * (1 + 21 / 10 / 2 ^ 53)) := by
    have := abs_sub_abs_le_abs_sub (s * m) (s * x)
    linarith
  have h4 := fl_err hf h3
  refine (abs_sub_le _ (s * m) _).trans ((add_le_add h4 h1).trans ?_)
  have : x * (2 ^ 22 * (1 + 21 / 10 / 2 ^ 53)) / 2 ^ 53 + 2 ^ 22 * (x * (21 / 10 / 2 ^ 53))
      = x * ((2 ^ 22 * (1 + 21 / 10 / 2 ^ 53)) / 2 ^ 53 + 2 ^ 22 * (21 / 10 / 2 ^ 53)) := by ring
  rw [this]
  exact mul_le_mul_of_nonneg_left (by norm_num) x0

/-- Each refined sample is within two billionths of a day of where it should be. -/
theorem refinedF_err (hf : RoundsToNearest fl) (n : ℕ) (b : ℚ × ℚ) (h1 : |b.1| ≤ 2 ^ 22)
    (h2 : |b.2| ≤ 2 ^ 22) (i : ℕ) (hi : i ≤ n + 1) :
    |refinedF fl n b i - (b.1 + (b.2 - b.1) * (i / ((n:ℚ) + 1)))| ≤ 2 / 10 ^ 9 := by
  have n0 : (0:ℚ) < (n:ℚ) + 1 := by positivity
  have e : ((n + 1 - i : ℕ) : ℚ) / ((n:ℚ) + 1) = 1 - i / ((n:ℚ) + 1) := by
    rw [Nat.cast_sub hi]; push_cast; field_simp
  have m1 := maskF_err hf n (n + 1 - i)
  have m2 := maskF_err hf n i
  rw [e] at m1
  unfold refinedF
  set x : ℚ := i / ((n:ℚ) + 1) with hx
  have x0 : 0 ≤ x := by positivity
  have x1 : x ≤ 1 := by
    rw [hx, div_le_one n0]; exact_mod_cast hi
  have p1 := product_err hf h1 (by linarith) m1
  have p2 := product_err hf h2 x0 m2
  generalize fl (b.1 * maskF fl n (n + 1 - i)) = P at *
  generalize fl (b.2 * maskF fl n i) = Q at *
  have hs : |(P + Q) - (b.1 + (b.2 - b.1) * x)| ≤ 32 / 10 * 2 ^ 22 / 2 ^ 53 := by
    have : (P + Q) - (b.1 + (b.2 - b.1) * x) = (P - b.1 * (1 - x)) + (Q - b.2 * x) := by ring
    rw [this]
    refine (abs_add_le _ _).trans ((add_le_add p1 p2).trans (le_of_eq ?_))
    ring
  have hB : |b.1 + (b.2 - b.1) * x| ≤ 2 ^ 22 := by
    have : b.1 + (b.2 - b.1) * x = b.1 * (1 - x) + b.2 * x := by ring
    rw [this]
    refine (abs_add_le _ _).trans ?_
    rw [abs_mul, abs_mul, abs_of_nonneg x0, abs_of_nonneg (by linarith : 0 ≤ 1 - x)]
    nlinarith
  have hPQ : |P + Q| ≤ 2 ^ 22 + 1 := by
    have := abs_sub_abs_le_abs_sub (P + Q) (b.1 + (b.2 - b.1) * x)
    have : (32:ℚ) / 10 * 2 ^ 22 / 2 ^ 53 ≤ 1 := by norm_num
    linarith
  have h4 := fl_err hf hPQ
  refine (abs_sub_le _ (P + Q) _).trans ((add_le_add h4 hs).trans (by norm_num))

/-- Neighbouring refined samples: near the right distance apart. -/
theorem refinedF_width (hf : RoundsToNearest fl) (n : ℕ) (b : ℚ × ℚ) (h1 : |b.1| ≤ 2 ^ 22)
    (h2 : |b.2| ≤ 2 ^ 22) (i : ℕ) (hi : i + 1 ≤ n + 1) :
    |refinedF fl n b (i + 1) - refinedF fl n b i - (b.2 - b.1) / ((n:ℚ) + 1)| ≤ 4 / 10 ^ 9 := by
  have e1 := refinedF_err hf n b h1 h2 i (by omega)
  have e2 := refinedF_err hf n b h1 h2 (i + 1) hi
  push_cast at e2
  have e : (b.2 - b.1) * (((i:ℚ) + 1) / ((n:ℚ) + 1)) - (b.2 - b.1) * (i / ((n:ℚ) + 1))
      = (b.2 - b.1) / ((n:ℚ) + 1) := by ring
  generalize refinedF fl n b (i + 1) = P at *
  generalize refinedF fl n b i = Q at *
  rw [abs_le] at *
  constructor <;> norm_num at * <;> linarith

/-! ### Changes and brackets -/

section Brackets
variable {V : Type*} [DecidableEq V]

theorem changes_cons_cons' (f : ℚ → V) (a b : ℚ) (l : List ℚ) :
    changes f (a :: b :: l) = if f a ≠ f b then (a, b) :: changes f (b :: l) else changes f (b :: l) :=
  changes_cons_cons f a b l

theorem mem_changes (f : ℚ → V) (l : List ℚ) (p : ℚ × ℚ) :
    p ∈ changes f l ↔ p ∈ adjacent l ∧ f p.1 ≠ f p.2 := by
  unfold changes; simp

/-- Appending two lists whose values agree where they meet adds no change. -/
theorem changes_append (f : ℚ → V) (l1 l2 : List ℚ)
    (h : ∀ x ∈ l1.getLast?, ∀ y ∈ l2.head?, f x = f y) :
    changes f (l1 ++ l2) = changes f l1 ++ changes f l2 := by
  induction l1 with
  | nil => simp [changes, adjacent]
  | cons a l1 ih =>
    cases l1 with
    | nil =>
      cases l2 with
      | nil => simp [changes, adjacent]
      | cons b l2 =>
        have := h a (by simp) b (by simp)
        rw [List.cons_append, List.nil_append, changes_cons_cons, if_neg (by simpa using this)]
        simp [changes, adjacent]
    | cons b l1 =>
      have := ih (by simpa using h)
      rw [List.cons_append, List.cons_append, changes_cons_cons, changes_cons_cons]
      rw [List.cons_append] at this
      rw [this]
      split <;> simp

/-- Consecutive changes fit together: between them the function keeps its value. -/
theorem changes_chain (f : ℚ → V) (l : List ℚ) :
    (changes f l).IsChain (fun b c => f b.2 = f c.1) ∧
      ∀ x ∈ l.head?, ∀ b ∈ (changes f l).head?, f x = f b.1 := by
  induction l with
  | nil => simp [changes, adjacent]
  | cons a l ih =>
    cases l with
    | nil => simp [changes, adjacent]
    | cons b l =>
      obtain ⟨h1, h2⟩ := ih
      rw [changes_cons_cons]
      by_cases h : f a = f b
      · rw [if_neg (by simpa using h)]
        refine ⟨h1, ?_⟩
        intro x hx c hc
        simp only [List.head?_cons, Option.mem_def, Option.some.injEq] at hx
        subst hx
        rw [h]
        exact h2 b (by simp) c hc
      · rw [if_pos h]
        refine ⟨?_, by simp⟩
        rw [List.isChain_cons]
        exact ⟨fun c hc => h2 b (by simp) c hc, h1⟩

/-- A list that starts and ends with different values of `f` has a change. -/
theorem changes_ne_nil (f : ℚ → V) (l : List ℚ) (x y : ℚ) (hx : l.head? = some x)
    (hy : l.getLast? = some y) (h : f x ≠ f y) : changes f l ≠ [] := by
  induction l generalizing x with
  | nil => simp at hx
  | cons a l ih =>
    simp only [List.head?_cons, Option.some.injEq] at hx
    subst hx
    cases l with
    | nil => simp at hy; exact absurd (by rw [hy]) h
    | cons b l =>
      rw [changes_cons_cons]
      by_cases hab : f a = f b
      · rw [if_neg (by simpa using hab)]
        exact ih b (by simp) (by simpa using hy) (by rwa [← hab])
      · rw [if_pos hab]; simp

/-- Refining brackets that fit together: the changes found are those inside each bracket. -/
theorem changes_flatMap (f : ℚ → V) (P : ℚ × ℚ → List ℚ) (bs : List (ℚ × ℚ))
    (hP : ∀ b ∈ bs, (P b).head? = some b.1 ∧ (P b).getLast? = some b.2)
    (hc : bs.IsChain (fun b c => f b.2 = f c.1)) :
    changes f (bs.flatMap P) = bs.flatMap fun b => changes f (P b) := by
  induction bs with
  | nil => simp [changes, adjacent]
  | cons b bs ih =>
    rw [List.flatMap_cons, List.flatMap_cons, changes_append, ih (fun c h => hP c (by simp [h])) hc.tail]
    intro x hx y hy
    rw [(hP b (by simp)).2] at hx
    simp only [Option.mem_def, Option.some.injEq] at hx
    subst hx
    cases bs with
    | nil => simp at hy
    | cons c bs =>
      have hh : ((c :: bs).flatMap P).head? = some c.1 := by
        rw [List.flatMap_cons, List.head?_append, (hP c (by simp)).1]; rfl
      rw [hh] at hy
      simp only [Option.mem_def, Option.some.injEq] at hy
      subst hy
      rw [List.isChain_cons] at hc
      exact hc.1 c (by simp)

theorem bracketPointsF_ends (hf : RoundsToNearest fl) (n : ℕ) (b : ℚ × ℚ) (h1 : IsFloat b.1)
    (h2 : IsFloat b.2) : (bracketPointsF fl (n + 2) b).head? = some b.1 ∧
      (bracketPointsF fl (n + 2) b).getLast? = some b.2 := by
  rw [bracketPointsF_eq hf]
  constructor
  · rw [List.range_succ_eq_map, List.map_cons, List.head?_cons, refinedF_first hf n b h1]
  · rw [List.range_succ, List.map_append, List.getLast?_append]
    simp [refinedF_last hf n b h2]

end Brackets

end Skyfield

namespace Skyfield
open Spec

variable {fl : ℚ → ℚ}

section Rounds
variable {V : Type*} [DecidableEq V]

/-- What is known of a bracket `b`, after `k` rounds, that started inside `[lo, hi]`. -/
structure Bracketed (f : ℚ → V) (lo hi W : ℚ) (k : ℕ) (b : ℚ × ℚ) : Prop where
  float1 : IsFloat b.1
  float2 : IsFloat b.2
  differ : f b.1 ≠ f b.2
  lo1 : lo - 2 / 10 ^ 9 * k ≤ b.1
  lo2 : lo - 2 / 10 ^ 9 * k ≤ b.2
  hi1 : b.1 ≤ hi + 2 / 10 ^ 9 * k
  hi2 : b.2 ≤ hi + 2 / 10 ^ 9 * k
  wide : - (8 / 10 ^ 9) ≤ b.2 - b.1
  narrow : b.2 - b.1 ≤ W

theorem Bracketed.refine (hf : RoundsToNearest fl) {f : ℚ → V} {lo hi W : ℚ} {k n : ℕ} {b c : ℚ × ℚ}
    (hn : 1 ≤ n) (W0 : 0 ≤ W) (hlo : -(2 ^ 22 - 1) ≤ lo) (hhi : hi ≤ 2 ^ 22 - 1) (hk : k ≤ 10 ^ 6)
    (h : Bracketed f lo hi W k b) (hc : c ∈ changes f (bracketPointsF fl (n + 2) b)) :
    Bracketed f lo hi (W / 2 + 4 / 10 ^ 9) (k + 1) c := by
  have n0 : (0:ℚ) < (n:ℚ) + 1 := by positivity
  have kq : (k:ℚ) ≤ 10 ^ 6 := by exact_mod_cast hk
  have k0 : (0:ℚ) ≤ k := by positivity
  obtain ⟨h1, h2, h3, h4, h5, h6, h7, h8, h9⟩ := h
  have a1 : |b.1| ≤ 2 ^ 22 := by
    rw [abs_le]; constructor <;> linarith
  have a2 : |b.2| ≤ 2 ^ 22 := by
    rw [abs_le]; constructor <;> linarith
  rw [mem_changes, bracketPointsF_eq hf, mem_adjacent_map_range] at hc
  obtain ⟨⟨i, hi', rfl⟩, hd⟩ := hc
  have hull : ∀ j, j ≤ n + 1 → lo - 2 / 10 ^ 9 * ((k + 1 : ℕ):ℚ) ≤ refinedF fl n b j ∧
      refinedF fl n b j ≤ hi + 2 / 10 ^ 9 * ((k + 1 : ℕ):ℚ) := by
    intro j hj
    have e := refinedF_err hf n b a1 a2 j hj
    have x0 : 0 ≤ (j:ℚ) / ((n:ℚ) + 1) := by positivity
    have x1 : (j:ℚ) / ((n:ℚ) + 1) ≤ 1 := by rw [div_le_one n0]; exact_mod_cast hj
    generalize (j:ℚ) / ((n:ℚ) + 1) = x at *
    generalize refinedF fl n b j = P at *
    have e1 : lo - 2 / 10 ^ 9 * k ≤ b.1 + (b.2 - b.1) * x := by nlinarith
    have e2 : b.1 + (b.2 - b.1) * x ≤ hi + 2 / 10 ^ 9 * k := by nlinarith
    rw [abs_le] at e
    push_cast
    constructor <;> linarith
  have w := refinedF_width hf n b a1 a2 i (by omega)
  have d1 : (b.2 - b.1) / ((n:ℚ) + 1) ≤ W / 2 := by
    rw [div_le_div_iff₀ n0 (by norm_num)]
    have : (2:ℚ) ≤ (n:ℚ) + 1 := by
      have : (1:ℚ) ≤ n := by exact_mod_cast hn
      linarith
    nlinarith
  have d2 : -(4 / 10 ^ 9) ≤ (b.2 - b.1) / ((n:ℚ) + 1) := by
    rw [le_div_iff₀ n0]
    have : (2:ℚ) ≤ (n:ℚ) + 1 := by
      have : (1:ℚ) ≤ n := by exact_mod_cast hn
      linarith
    nlinarith
  refine ⟨hf.float _, hf.float _, hd, (hull i (by omega)).1, (hull (i + 1) (by omega)).1,
    (hull i (by omega)).2, (hull (i + 1) (by omega)).2, ?_, ?_⟩ <;>
  · simp only
    rw [abs_le] at w
    norm_num at *
    linarith

/-- What a round with brackets does. -/
theorem discreteRoundF_inr (f : ℚ → V) (epsilon : ℚ) (num : ℕ) (jd : List ℚ) (r : List (ℚ × V) ⊕ List ℚ)
    (h : discreteRoundF fl f epsilon num jd = r) :
    r = .inl ((changes f jd).map fun b => (b.2, f b.2)) ∧
        (∀ b ∈ changes f jd, fl (b.2 - b.1) ≤ epsilon) ∨
      r = .inr ((changes f jd).flatMap (bracketPointsF fl num)) ∧
        ∃ b ∈ changes f jd, epsilon < fl (b.2 - b.1) := by
  unfold discreteRoundF at h
  simp only at h
  by_cases e : changes f jd = []
  · rw [if_pos e] at h
    left
    rw [e, ← h]; simp
  rw [if_neg e] at h
  by_cases ha : ((changes f jd).all fun b => decide (fl (b.2 - b.1) ≤ epsilon)) = true
  · rw [if_pos ha] at h
    left
    exact ⟨h.symm, fun b hb => by simpa using (List.all_eq_true.1 ha) b hb⟩
  · rw [if_neg ha] at h
    right
    refine ⟨h.symm, ?_⟩
    simpa using ha

/-- The loop, from brackets that fit together: it ends within `r + 1` rounds, with the last brackets,
of which every bracket at the start has at least one within its reach. -/
theorem loop_ends (hf : RoundsToNearest fl) (f : ℚ → V) (epsilon : ℚ) (n : ℕ) (hn : 1 ≤ n)
    (he : 11 / 10 ^ 9 ≤ epsilon) (L : ℚ) (hL : L ≤ 2 ^ 22 - 1) :
    ∀ (r k : ℕ) (W : ℚ) (jd : List ℚ), 0 ≤ W → W ≤ 9 / 10 ^ 9 + 2 ^ r / 10 ^ 9 → k + r ≤ 10 ^ 6 →
      (∀ b ∈ changes f jd, ∃ lo hi, -L ≤ lo ∧ hi ≤ L ∧ Bracketed f lo hi W k b) →
      ∃ last : List (ℚ × ℚ),
        (∀ extra, discreteLoopF fl f epsilon (n + 2) (r + 1 + extra) jd =
          some (last.map fun b => (b.2, f b.2))) ∧
        (∀ c ∈ last, fl (c.2 - c.1) ≤ epsilon) ∧
        (∀ c ∈ last, ∃ b ∈ changes f jd, ∀ lo hi, -L ≤ lo → hi ≤ L → Bracketed f lo hi W k b →
          ∃ W', Bracketed f lo hi W' (k + r) c) ∧
        (∀ b ∈ changes f jd, ∃ c ∈ last, ∀ lo hi, -L ≤ lo → hi ≤ L → Bracketed f lo hi W k b →
          ∃ W', Bracketed f lo hi W' (k + r) c) := by
  intro r
  have later : ∀ (lo hi W : ℚ) (k k' : ℕ) (b : ℚ × ℚ), k ≤ k' → Bracketed f lo hi W k b →
      Bracketed f lo hi W k' b := by
    intro lo hi W k k' b hk h
    have : (k:ℚ) ≤ k' := by exact_mod_cast hk
    obtain ⟨h1, h2, h3, h4, h5, h6, h7, h8, h9⟩ := h
    refine ⟨h1, h2, h3, ?_, ?_, ?_, ?_, h8, h9⟩ <;> linarith
  induction r with
  | zero =>
    intro k W jd W0 hW hk hb
    have hw : ∀ b ∈ changes f jd, fl (b.2 - b.1) ≤ epsilon := by
      intro b h
      obtain ⟨lo, hi, -, -, hbr⟩ := hb b h
      have h1 : b.2 - b.1 ≤ 1 / 10 ^ 8 := by
        have := hbr.narrow; norm_num at *; linarith
      have h2 := fl_mono hf h1
      have h3 := fl_rel hf (1 / 10 ^ 8)
      rw [abs_of_pos (a := (1:ℚ) / 10 ^ 8) (by norm_num), abs_le] at h3
      norm_num at *
      linarith
    refine ⟨changes f jd, ?_, hw, ?_, ?_⟩
    · intro extra
      rw [show 0 + 1 + extra = extra + 1 by omega]
      unfold discreteLoopF
      rcases discreteRoundF_inr f epsilon (n + 2) jd _ rfl with ⟨h, -⟩ | ⟨h, b, hm, hlt⟩
      · rw [h]
      · exact absurd (hw b hm) (not_le.2 hlt)
    · intro c hc
      exact ⟨c, hc, fun lo hi _ _ h => ⟨W, h⟩⟩
    · intro c hc
      exact ⟨c, hc, fun lo hi _ _ h => ⟨W, h⟩⟩
  | succ r ih =>
    intro k W jd W0 hW hk hb
    rcases discreteRoundF_inr (fl := fl) f epsilon (n + 2) jd _ rfl with ⟨h, hw⟩ | ⟨h, -⟩
    · refine ⟨changes f jd, ?_, hw, ?_, ?_⟩
      · intro extra
        rw [show r + 1 + 1 + extra = (r + 1 + extra) + 1 by omega]
        unfold discreteLoopF
        rw [h]
      · intro c hc
        exact ⟨c, hc, fun lo hi _ _ h => ⟨W, later _ _ _ _ _ _ (by omega) h⟩⟩
      · intro c hc
        exact ⟨c, hc, fun lo hi _ _ h => ⟨W, later _ _ _ _ _ _ (by omega) h⟩⟩
    · have hends : ∀ b ∈ changes f jd, (bracketPointsF fl (n + 2) b).head? = some b.1 ∧
          (bracketPointsF fl (n + 2) b).getLast? = some b.2 := by
        intro b h
        obtain ⟨lo, hi, -, -, hbr⟩ := hb b h
        exact bracketPointsF_ends hf n b hbr.float1 hbr.float2
      have hch := changes_flatMap f (bracketPointsF fl (n + 2)) (changes f jd) hends
        (changes_chain f jd).1
      set jd' := (changes f jd).flatMap (bracketPointsF fl (n + 2)) with hjd'
      have step : ∀ b ∈ changes f jd, ∀ c ∈ changes f (bracketPointsF fl (n + 2) b), ∀ lo hi,
          -L ≤ lo → hi ≤ L → Bracketed f lo hi W k b →
          Bracketed f lo hi (W / 2 + 4 / 10 ^ 9) (k + 1) c := by
        intro b _ c hc lo hi h1 h2 h3
        exact h3.refine hf hn W0 (by linarith) (by linarith) (by omega) hc
      obtain ⟨last, i1, i2, i3, i4⟩ := ih (k + 1) (W / 2 + 4 / 10 ^ 9) jd' (by linarith)
        (by rw [pow_succ (2:ℚ) r] at hW; linarith) (by omega) (by
          intro c hc
          rw [hch, List.mem_flatMap] at hc
          obtain ⟨b, hb1, hb2⟩ := hc
          obtain ⟨lo, hi, h1, h2, h3⟩ := hb b hb1
          exact ⟨lo, hi, h1, h2, step b hb1 c hb2 lo hi h1 h2 h3⟩)
      refine ⟨last, ?_, i2, ?_, ?_⟩
      · intro extra
        rw [show r + 1 + 1 + extra = (r + 1 + extra) + 1 by omega]
        unfold discreteLoopF
        rw [h]
        exact i1 extra
      · intro c hc
        obtain ⟨b', hb', h'⟩ := i3 c hc
        rw [hch, List.mem_flatMap] at hb'
        obtain ⟨b, hb1, hb2⟩ := hb'
        refine ⟨b, hb1, fun lo hi h1 h2 h3 => ?_⟩
        have := h' lo hi h1 h2 (step b hb1 b' hb2 lo hi h1 h2 h3)
        rwa [show k + 1 + r = k + (r + 1) by omega] at this
      · intro b hb1
        obtain ⟨lo, hi, -, -, hbr⟩ := hb b hb1
        have hne := changes_ne_nil f _ _ _ (hends b hb1).1 (hends b hb1).2 hbr.differ
        obtain ⟨b', hb2⟩ := List.exists_mem_of_ne_nil _ hne
        have hb' : b' ∈ changes f jd' := by
          rw [hch, List.mem_flatMap]; exact ⟨b, hb1, hb2⟩
        obtain ⟨c, hc, h'⟩ := i4 b' hb'
        refine ⟨c, hc, fun lo hi h1 h2 h3 => ?_⟩
        have := h' lo hi h1 h2 (step b hb1 b' hb2 lo hi h1 h2 h3)
        rwa [show k + 1 + r = k + (r + 1) by omega] at this

end Rounds

/-! ### The first samples -/

/-- The `i`th of the first samples. -/
def sampleF (fl : ℚ → ℚ) (a b : ℚ) (n i : ℕ) : ℚ :=
  if i = n + 1 then b else fl (fl (i * fl (fl (b - a) / ((n:ℚ) + 1))) + a)

theorem linspaceF_eq (a b : ℚ) (n : ℕ) :
    linspaceF fl a b (n + 2) = (List.range (n + 2)).map (sampleF fl a b n) := by
  unfold linspaceF sampleF
  refine List.map_congr_left fun i hi => ?_
  have e : ((n + 2 : ℕ) : ℚ) - 1 = n + 1 := by push_cast; ring
  simp only [e]
  by_cases h : i = n + 1
  · rw [if_pos ⟨by omega, by omega⟩, if_pos h]
  · rw [if_neg (by omega), if_neg h]

theorem sampleF_err (hf : RoundsToNearest fl) {a b : ℚ} (n i : ℕ) (hi : i ≤ n + 1) (ha : |a| ≤ 2 ^ 22)
    (hb : |b| ≤ 2 ^ 22) :
    |sampleF fl a b n i - (a + (b - a) * (i / ((n:ℚ) + 1)))| ≤ 4 / 10 ^ 9 := by
  have n0 : (0:ℚ) < (n:ℚ) + 1 := by positivity
  unfold sampleF
  split
  · next h =>
    subst h
    push_cast
    rw [div_self n0.ne', mul_one]
    norm_num
  · have hd : |b - a| ≤ 2 ^ 23 := by
      rw [abs_le] at *; norm_num at *; constructor <;> linarith
    have x0 : 0 ≤ (i:ℚ) / ((n:ℚ) + 1) := by positivity
    have x1 : (i:ℚ) / ((n:ℚ) + 1) ≤ 1 := by rw [div_le_one n0]; exact_mod_cast hi
    have h1 := fl_err hf hd
    set D := fl (b - a) with hD
    have D1 : |D| ≤ 2 ^ 23 + 1 := by
      have := abs_sub_abs_le_abs_sub D (b - a)
      norm_num at *; linarith
    have h2 := fl_rel hf (D / ((n:ℚ) + 1))
    set S := fl (D / ((n:ℚ) + 1)) with hS
    have i0 : (0:ℚ) ≤ i := by positivity
    have h3 : |(i:ℚ) * S - D * (i / ((n:ℚ) + 1))| ≤ (2 ^ 23 + 1) / 2 ^ 53 := by
      have e : (i:ℚ) * S - D * (i / ((n:ℚ) + 1)) = i * (S - D / ((n:ℚ) + 1)) := by ring
      rw [e, abs_mul, abs_of_nonneg i0]
      calc (i:ℚ) * |S - D / ((n:ℚ) + 1)| ≤ i * (|D / ((n:ℚ) + 1)| / 2 ^ 53) :=
            mul_le_mul_of_nonneg_left h2 i0
        _ = i / ((n:ℚ) + 1) * (|D| / 2 ^ 53) := by rw [abs_div, abs_of_pos n0]; ring
        _ ≤ 1 * ((2 ^ 23 + 1) / 2 ^ 53) := by
            apply mul_le_mul x1 _ (by positivity) (by norm_num)
            gcongr
        _ = _ := by ring
    have h4 : |D * ((i:ℚ) / ((n:ℚ) + 1))| ≤ 2 ^ 23 + 1 := by
      rw [abs_mul, abs_of_nonneg x0]
      calc |D| * ((i:ℚ) / ((n:ℚ) + 1)) ≤ (2 ^ 23 + 1) * 1 :=
            mul_le_mul D1 x1 x0 (by norm_num)
        _ = _ := by ring
    have h5 : |D * ((i:ℚ) / ((n:ℚ) + 1)) - (b - a) * (i / ((n:ℚ) + 1))| ≤ 2 ^ 23 / 2 ^ 53 := by
      rw [← sub_mul, abs_mul, abs_of_nonneg x0]
      calc |D - (b - a)| * ((i:ℚ) / ((n:ℚ) + 1)) ≤ (2 ^ 23 / 2 ^ 53) * 1 :=
            mul_le_mul h1 x1 x0 (by norm_num)
        _ = _ := by ring
    have h6 : |(i:ℚ) * S| ≤ 2 ^ 23 + 2 := by
      have := abs_sub_abs_le_abs_sub ((i:ℚ) * S) (D * ((i:ℚ) / ((n:ℚ) + 1)))
      norm_num at *; linarith
    have h7 := fl_err hf h6
    set T := fl ((i:ℚ) * S) with hT
    have hx : |a + (b - a) * ((i:ℚ) / ((n:ℚ) + 1))| ≤ 2 ^ 22 := by
      generalize (i:ℚ) / ((n:ℚ) + 1) = x at *
      rw [abs_le] at *
      constructor <;> nlinarith
    have h8 : |T + a - (a + (b - a) * ((i:ℚ) / ((n:ℚ) + 1)))| ≤ 3 / 10 ^ 9 := by
      generalize (i:ℚ) / ((n:ℚ) + 1) = x at *
      generalize (i:ℚ) * S = IS at *
      rw [abs_le] at h7 h3 h5 ⊢
      norm_num at *
      constructor <;> linarith
    have h9 : |T + a| ≤ 2 ^ 22 + 1 := by
      have := abs_sub_abs_le_abs_sub (T + a) (a + (b - a) * ((i:ℚ) / ((n:ℚ) + 1)))
      norm_num at *; linarith
    have h10 := fl_err hf h9
    refine (abs_sub_le _ (T + a) _).trans ((add_le_add h10 h8).trans (by norm_num))

end Skyfield
