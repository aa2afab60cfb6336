import Verif.Lemmas.Search
import Mathlib.Data.Finset.Max
import Mathlib.Order.Interval.Finset.Nat

/-
Lemmas for C18, C19, C56.
-/
namespace Skyfield
set_option linter.unusedSectionVars false
variable {K : Type*} [Field K] [LinearOrder K] [IsStrictOrderedRing K] [FloorRing K]

/-! ### removing duplicates -/

theorem mem_rad {α : Type*} [DecidableEq α] (l : List α) (x : α) :
    x ∈ removeAdjacentDuplicates l ↔ x ∈ l := by
  induction l with
  | nil => rfl
  | cons a l ih =>
    cases l with
    | nil => rfl
    | cons b l =>
      unfold removeAdjacentDuplicates
      by_cases h : a = b
      · subst h
        rw [if_neg (by simp), ih]
        simp
      · rw [if_pos h, List.mem_cons, ih, List.mem_cons (a := x) (b := a)]

theorem rad_head {α : Type*} [DecidableEq α] (l : List α) :
    (removeAdjacentDuplicates l).head? = l.head? := by
  induction l with
  | nil => rfl
  | cons a l ih =>
    cases l with
    | nil => rfl
    | cons b l =>
      unfold removeAdjacentDuplicates
      by_cases h : a = b
      · subst h
        rw [if_neg (by simp), ih]; rfl
      · rw [if_pos h]; rfl

theorem adjacent_rad {α : Type*} [DecidableEq α] (l : List α) :
    adjacent (removeAdjacentDuplicates l) = (adjacent l).filter fun p => p.1 ≠ p.2 := by
  induction l with
  | nil => rfl
  | cons a l ih =>
    cases l with
    | nil => rfl
    | cons b l =>
      rw [adjacent_cons_cons, List.filter_cons]
      unfold removeAdjacentDuplicates
      by_cases h : a = b
      · subst h
        simp [ih]
      · rw [if_pos h, if_pos (by simpa using h), ← ih]
        have hh := rad_head (b :: l)
        cases hr : removeAdjacentDuplicates (b :: l) with
        | nil => rw [hr] at hh; simp at hh
        | cons c r =>
          rw [hr] at hh
          simp only [List.head?_cons, Option.some.injEq] at hh
          subst hh
          rfl

theorem rad_sorted {α : Type*} [LinearOrder α] (l : List α) (h : l.Pairwise (· ≤ ·)) :
    (removeAdjacentDuplicates l).Pairwise (· < ·) := by
  induction l with
  | nil => exact List.Pairwise.nil
  | cons a l ih =>
    cases l with
    | nil => simp [removeAdjacentDuplicates]
    | cons b l =>
      obtain ⟨ha, hs⟩ := List.pairwise_cons.1 h
      unfold removeAdjacentDuplicates
      by_cases hab : a = b
      · rw [if_neg (by simpa using hab)]; exact ih hs
      · rw [if_pos hab]
        refine List.Pairwise.cons ?_ (ih hs)
        intro c hc
        rw [mem_rad] at hc
        have h1 := ha b List.mem_cons_self
        have h2 : a < b := lt_of_le_of_ne h1 hab
        rcases List.mem_cons.1 hc with rfl | hc
        · exact h2
        · exact lt_of_lt_of_le h2 ((List.pairwise_cons.1 hs).1 c hc)

/-! ### index access -/

theorem adjacent_get {α : Type*} (l : List α) (i : ℕ) (p : α × α) :
    (adjacent l)[i]? = some p ↔ l[i]? = some p.1 ∧ l[i + 1]? = some p.2 := by
  unfold adjacent
  rw [List.getElem?_zip_eq_some, List.getElem?_tail]

theorem mem_adjacent_iff {α : Type*} (l : List α) (p : α × α) :
    p ∈ adjacent l ↔ ∃ i, l[i]? = some p.1 ∧ l[i + 1]? = some p.2 := by
  rw [List.mem_iff_getElem?]
  simp only [adjacent_get]

theorem npDiff_get {α : Type*} [Sub α] (l : List α) (i : ℕ) (d : α) :
    (npDiff l)[i]? = some d ↔ ∃ a b, l[i]? = some a ∧ l[i + 1]? = some b ∧ d = b - a := by
  unfold npDiff
  rw [List.getElem?_map, Option.map_eq_some_iff]
  constructor
  · rintro ⟨p, hp, rfl⟩
    rw [adjacent_get] at hp
    exact ⟨p.1, p.2, hp.1, hp.2, rfl⟩
  · rintro ⟨a, b, h1, h2, rfl⟩
    exact ⟨(a, b), (adjacent_get l i (a, b)).2 ⟨h1, h2⟩, rfl⟩

theorem mem_flatnonzero {α : Type*} (l : List α) (p : α → Bool) (i : ℕ) :
    i ∈ flatnonzero l p ↔ ∃ a, l[i]? = some a ∧ p a = true := by
  unfold flatnonzero
  rw [List.mem_filter, List.mem_range, Option.any_eq_true]
  constructor
  · rintro ⟨-, a, h⟩; exact ⟨a, h⟩
  · rintro ⟨a, h, hp⟩
    exact ⟨(List.getElem?_eq_some_iff.1 h).1, a, h, hp⟩

theorem flatnonzero_sorted {α : Type*} (l : List α) (p : α → Bool) :
    (flatnonzero l p).Pairwise (· < ·) := by
  unfold flatnonzero
  exact List.Pairwise.filter _ List.pairwise_lt_range

theorem npSign_cases (x : K) : (npSign x = -1 ∧ x < 0) ∨ (npSign x = 0 ∧ x = 0) ∨
    (npSign x = 1 ∧ 0 < x) := by
  unfold npSign
  rcases lt_trichotomy x 0 with h | h | h
  · left; exact ⟨if_pos h, h⟩
  · right; left; subst h; simp
  · right; right; rw [if_neg (not_lt.2 h.le), if_pos h]; exact ⟨rfl, h⟩

/-- `diff(sign(diff(y)))` at index `i`. -/
theorem dsd_get (y : List K) (i : ℕ) (d : ℤ) : (diffSignDiff y)[i]? = some d ↔
    ∃ a b c, y[i]? = some a ∧ y[i + 1]? = some b ∧ y[i + 2]? = some c ∧
      d = npSign (c - b) - npSign (b - a) := by
  unfold diffSignDiff
  rw [npDiff_get]
  simp only [List.getElem?_map, Option.map_eq_some_iff, npDiff_get]
  constructor
  · rintro ⟨u, v, ⟨u', ⟨a, b, h1, h2, rfl⟩, rfl⟩, ⟨v', ⟨b', c, h3, h4, rfl⟩, rfl⟩, rfl⟩
    rw [h2, Option.some.injEq] at h3
    subst h3
    exact ⟨a, b, c, h1, h2, h4, rfl⟩
  · rintro ⟨a, b, c, h1, h2, h3, rfl⟩
    exact ⟨_, _, ⟨_, ⟨a, b, h1, h2, rfl⟩, rfl⟩, ⟨_, ⟨b, c, h2, h3, rfl⟩, rfl⟩, rfl⟩

/-- Signed slopes of a sequence. -/
abbrev sg (y : ℕ → K) (i : ℕ) : ℤ := npSign (y (i + 1) - y i)

theorem sg_eq_one {y : ℕ → K} {i : ℕ} : sg y i = 1 ↔ y i < y (i + 1) := by
  rcases npSign_cases (y (i + 1) - y i) with ⟨h, h'⟩ | ⟨h, h'⟩ | ⟨h, h'⟩ <;>
    simp only [sg, h] <;> constructor <;> intro hh <;> first | linarith | omega | rfl | trivial

theorem sg_eq_neg {y : ℕ → K} {i : ℕ} : sg y i = -1 ↔ y (i + 1) < y i := by
  rcases npSign_cases (y (i + 1) - y i) with ⟨h, h'⟩ | ⟨h, h'⟩ | ⟨h, h'⟩ <;>
    simp only [sg, h] <;> constructor <;> intro hh <;> first | linarith | omega | rfl | trivial

theorem sg_eq_zero {y : ℕ → K} {i : ℕ} : sg y i = 0 ↔ y (i + 1) = y i := by
  rcases npSign_cases (y (i + 1) - y i) with ⟨h, h'⟩ | ⟨h, h'⟩ | ⟨h, h'⟩ <;>
    simp only [sg, h] <;> constructor <;> intro hh <;> first | linarith | omega | rfl | trivial

theorem sg_range (y : ℕ → K) (i : ℕ) : sg y i = -1 ∨ sg y i = 0 ∨ sg y i = 1 := by
  rcases npSign_cases (y (i + 1) - y i) with ⟨h, h'⟩ | ⟨h, h'⟩ | ⟨h, h'⟩ <;> simp [sg, h]

/-- Between a rise and a later non-rise (or a non-fall and a later fall) the slope's sign drops. -/
theorem exists_drop (y : ℕ → K) (p r : ℕ) (hpr : p < r) (h : sg y r < sg y p) :
    ∃ i, p ≤ i ∧ i < r ∧ sg y (i + 1) < sg y i := by
  by_contra hc
  push Not at hc
  have : ∀ k, p ≤ k → k ≤ r → sg y p ≤ sg y k := by
    intro k hk
    induction k, hk using Nat.le_induction with
    | base => intro _; exact le_refl _
    | succ k hk ih =>
      intro hr
      exact le_trans (ih (by omega)) (hc k hk (by omega))
  have := this r hpr.le (le_refl _)
  omega

theorem exists_rise (y : ℕ → K) (p q : ℕ) (hpq : p < q) (h : y p < y q) :
    ∃ i, p ≤ i ∧ i < q ∧ y i < y (i + 1) := by
  by_contra hc
  push Not at hc
  have : ∀ k, p ≤ k → k ≤ q → y k ≤ y p := by
    intro k hk
    induction k, hk using Nat.le_induction with
    | base => intro _; exact le_refl _
    | succ k hk ih => intro hr; exact le_trans (hc k hk (by omega)) (ih (by omega))
  have := this q hpq.le (le_refl _)
  linarith

theorem exists_fall (y : ℕ → K) (p q : ℕ) (hpq : p < q) (h : y q < y p) :
    ∃ i, p ≤ i ∧ i < q ∧ y (i + 1) < y i := by
  by_contra hc
  push Not at hc
  have : ∀ k, p ≤ k → k ≤ q → y p ≤ y k := by
    intro k hk
    induction k, hk using Nat.le_induction with
    | base => intro _; exact le_refl _
    | succ k hk ih => intro hr; exact le_trans (ih (by omega)) (hc k hk (by omega))
  have := this q hpq.le (le_refl _)
  linarith

/-- The same for three samples whose overall slopes drop. -/
theorem exists_drop3 (y : ℕ → K) (p q r : ℕ) (hpq : p < q) (hqr : q < r)
    (h : npSign (y r - y q) < npSign (y q - y p)) :
    ∃ i, p ≤ i ∧ i + 1 < r ∧ sg y (i + 1) < sg y i := by
  rcases npSign_cases (y q - y p) with ⟨e1, h1⟩ | ⟨e1, h1⟩ | ⟨e1, h1⟩
  · rcases npSign_cases (y r - y q) with ⟨e2, h2⟩ | ⟨e2, h2⟩ | ⟨e2, h2⟩ <;> omega
  · -- level then falling
    have hf : y r < y q := by
      rcases npSign_cases (y r - y q) with ⟨e2, h2⟩ | ⟨e2, h2⟩ | ⟨e2, h2⟩
      · linarith
      · omega
      · omega
    obtain ⟨j, hj1, hj2, hj3⟩ := exists_fall y q r hqr hf
    have : ∃ i, p ≤ i ∧ i < q ∧ y i ≤ y (i + 1) := by
      by_contra hc
      push Not at hc
      have h5 : ∀ k, p < k → k ≤ q → y k < y p := by
        intro k hk
        induction k, hk using Nat.le_induction with
        | base => intro _; exact hc p (le_refl _) hpq
        | succ k hk ih =>
          intro hr
          exact lt_trans (hc k (by omega) (by omega)) (ih (by omega))
      have := h5 q hpq (le_refl _)
      linarith
    obtain ⟨i, hi1, hi2, hi3⟩ := this
    have h6 : sg y j = -1 := sg_eq_neg.2 hj3
    have h7 : sg y i ≠ -1 := fun h => absurd (sg_eq_neg.1 h) (not_lt.2 hi3)
    have h8 := sg_range y i
    obtain ⟨m, m1, m2, m3⟩ := exists_drop y i j (by omega) (by omega)
    exact ⟨m, by omega, by omega, m3⟩
  · -- rising then not
    have hf : y r ≤ y q := by
      rcases npSign_cases (y r - y q) with ⟨e2, h2⟩ | ⟨e2, h2⟩ | ⟨e2, h2⟩
      · linarith
      · linarith
      · omega
    obtain ⟨i, hi1, hi2, hi3⟩ := exists_rise y p q hpq (by linarith)
    have : ∃ j, q ≤ j ∧ j < r ∧ y (j + 1) ≤ y j := by
      by_contra hc
      push Not at hc
      have h5 : ∀ k, q < k → k ≤ r → y q < y k := by
        intro k hk
        induction k, hk using Nat.le_induction with
        | base => intro _; exact hc q (le_refl _) hqr
        | succ k hk ih =>
          intro hr
          exact lt_trans (ih (by omega)) (hc k (by omega) (by omega))
      have := h5 r hqr (le_refl _)
      linarith
    obtain ⟨j, hj1, hj2, hj3⟩ := this
    have h6 : sg y i = 1 := sg_eq_one.2 hi3
    have h7 : sg y j ≠ 1 := fun h => absurd (sg_eq_one.1 h) (not_lt.2 hj3)
    have h8 := sg_range y j
    obtain ⟨m, m1, m2, m3⟩ := exists_drop y i j (by omega) (by omega)
    exact ⟨m, by omega, by omega, m3⟩

/-! ### a list as a sequence -/

/-- `jd[i]`, with 0 beyond the end. -/
def seq (l : List K) (i : ℕ) : K := l.getD i 0

theorem seq_get {l : List K} {i : ℕ} (h : i < l.length) : l[i]? = some (seq l i) := by
  unfold seq
  rw [List.getD_eq_getElem?_getD, List.getElem?_eq_getElem h]
  rfl

theorem seq_of_get {l : List K} {i : ℕ} {a : K} (h : l[i]? = some a) : i < l.length ∧ seq l i = a := by
  refine ⟨(List.getElem?_eq_some_iff.1 h).1, ?_⟩
  unfold seq
  rw [List.getD_eq_getElem?_getD, h]
  rfl

theorem seq_lt {l : List K} (hs : l.Pairwise (· < ·)) {i j : ℕ} (hij : i < j) (hj : j < l.length) :
    seq l i < seq l j := by
  have h1 := seq_get (lt_trans hij hj)
  have h2 := seq_get hj
  rw [List.pairwise_iff_getElem] at hs
  have := hs i j (lt_trans hij hj) hj hij
  rw [List.getElem?_eq_getElem (lt_trans hij hj), Option.some.injEq] at h1
  rw [List.getElem?_eq_getElem hj, Option.some.injEq] at h2
  rwa [h1, h2] at this

theorem seq_lt_iff {l : List K} (hs : l.Pairwise (· < ·)) {i j : ℕ} (hi : i < l.length)
    (hj : j < l.length) : seq l i < seq l j ↔ i < j := by
  constructor
  · intro h
    by_contra hc
    rcases Nat.lt_or_eq_of_le (not_lt.1 hc) with h1 | h1
    · exact absurd (seq_lt hs h1 hi) (not_lt.2 h.le)
    · subst h1; exact lt_irrefl _ h
  · exact fun h => seq_lt hs h hj

theorem seq_le_iff {l : List K} (hs : l.Pairwise (· < ·)) {i j : ℕ} (hi : i < l.length)
    (hj : j < l.length) : seq l i ≤ seq l j ↔ i ≤ j := by
  rw [← not_lt, ← not_lt, seq_lt_iff hs hj hi]

/-- `diff(sign(diff(f(jd))))` at index `i`, by the sequence of values. -/
theorem dsd_seq (f : K → K) (jd : List K) (i : ℕ) (d : ℤ) :
    (diffSignDiff (jd.map f))[i]? = some d ↔
      i + 2 < jd.length ∧ d = sg (fun k => f (seq jd k)) (i + 1) - sg (fun k => f (seq jd k)) i := by
  rw [dsd_get]
  simp only [List.getElem?_map, Option.map_eq_some_iff]
  constructor
  · rintro ⟨a, b, c, ⟨x, hx, rfl⟩, ⟨y, hy, rfl⟩, ⟨z, hz, rfl⟩, rfl⟩
    obtain ⟨-, rfl⟩ := seq_of_get hx
    obtain ⟨-, rfl⟩ := seq_of_get hy
    obtain ⟨hl, rfl⟩ := seq_of_get hz
    exact ⟨hl, rfl⟩
  · rintro ⟨hl, rfl⟩
    exact ⟨_, _, _, ⟨_, seq_get (by omega), rfl⟩, ⟨_, seq_get (by omega), rfl⟩, ⟨_, seq_get hl, rfl⟩, rfl⟩

/-- The indices `_choose_brackets` starts from. -/
theorem mem_drop_indices (f : K → K) (jd : List K) (i : ℕ) :
    i ∈ flatnonzero (diffSignDiff (jd.map f)) (· < 0) ↔
      i + 2 < jd.length ∧ sg (fun k => f (seq jd k)) (i + 1) < sg (fun k => f (seq jd k)) i := by
  rw [mem_flatnonzero]
  constructor
  · rintro ⟨a, h1, h2⟩
    rw [dsd_seq] at h1
    obtain ⟨h1, rfl⟩ := h1
    simp only [decide_eq_true_eq] at h2
    exact ⟨h1, by omega⟩
  · rintro ⟨h1, h2⟩
    exact ⟨_, (dsd_seq f jd i _).2 ⟨h1, rfl⟩, by simp only [decide_eq_true_eq]; omega⟩

theorem flatMap_pair_sorted (l : List ℕ) (h : l.Pairwise (· < ·)) :
    (l.flatMap fun i => [i, i + 1]).Pairwise (· ≤ ·) := by
  induction l with
  | nil => exact List.Pairwise.nil
  | cons a l ih =>
    obtain ⟨ha, hs⟩ := List.pairwise_cons.1 h
    rw [List.flatMap_cons, List.pairwise_append]
    refine ⟨by simp, ih hs, ?_⟩
    intro x hx y hy
    rw [List.mem_flatMap] at hy
    obtain ⟨b, hb, hy⟩ := hy
    have := ha b hb
    simp only [List.mem_cons, List.not_mem_nil, or_false] at hx hy
    omega

theorem chooseBrackets_sorted (y : List K) : (chooseBrackets y).Pairwise (· < ·) :=
  rad_sorted _ (flatMap_pair_sorted _ (flatnonzero_sorted _ _))

theorem mem_chooseBrackets (y : List K) (k : ℕ) : k ∈ chooseBrackets y ↔
    ∃ i ∈ flatnonzero (diffSignDiff y) (· < 0), k = i ∨ k = i + 1 := by
  unfold chooseBrackets
  rw [mem_rad, List.mem_flatMap]
  simp

/-! ### hills -/

/-- A rise followed later by a fall contains a hill: a sample, one or more equal higher ones, a lower
one. -/
theorem exists_hill (y : ℕ → K) (p q r : ℕ) (hpq : p < q) (hqr : q < r) (h1 : y p < y q)
    (h2 : y r < y q) :
    ∃ i j v, p ≤ i ∧ i + 1 < j ∧ j ≤ r ∧ y i < v ∧ y j < v ∧ (∀ k, i < k → k < j → y k = v) ∧ y q ≤ v := by
  obtain ⟨m, hm, hmax⟩ := Finset.exists_max_image (Finset.Icc p r) y ⟨q, by simp; omega⟩
  rw [Finset.mem_Icc] at hm
  have hmq : y q ≤ y m := hmax q (by simp; omega)
  have hpm : p < m := by
    rcases Nat.lt_or_eq_of_le hm.1 with h | h
    · exact h
    · subst h; linarith
  have hmr : m < r := by
    rcases Nat.lt_or_eq_of_le hm.2 with h | h
    · exact h
    · subst h; linarith
  have left : ∀ d, d ≤ m - p → (∃ i, p ≤ i ∧ i < m ∧ y i < y m ∧ ∀ k, i < k → k ≤ m → y k = y m) ∨
      ∀ k, m - d ≤ k → k ≤ m → y k = y m := by
    intro d
    induction d with
    | zero => intro _; right; intro k hk1 hk2; rw [show k = m by omega]
    | succ d ih =>
      intro hd
      rcases ih (by omega) with h | h
      · left; exact h
      · by_cases he : y (m - (d + 1)) = y m
        · right
          intro k hk1 hk2
          by_cases hk : k = m - (d + 1)
          · rw [hk]; exact he
          · exact h k (by omega) hk2
        · left
          refine ⟨m - (d + 1), by omega, by omega, lt_of_le_of_ne (hmax _ (by simp; omega)) he, ?_⟩
          intro k hk1 hk2
          exact h k (by omega) hk2
  have right : ∀ d, d ≤ r - m → (∃ j, m < j ∧ j ≤ r ∧ y j < y m ∧ ∀ k, m ≤ k → k < j → y k = y m) ∨
      ∀ k, m ≤ k → k ≤ m + d → y k = y m := by
    intro d
    induction d with
    | zero => intro _; right; intro k hk1 hk2; rw [show k = m by omega]
    | succ d ih =>
      intro hd
      rcases ih (by omega) with h | h
      · left; exact h
      · by_cases he : y (m + (d + 1)) = y m
        · right
          intro k hk1 hk2
          by_cases hk : k = m + (d + 1)
          · rw [hk]; exact he
          · exact h k hk1 (by omega)
        · left
          refine ⟨m + (d + 1), by omega, by omega, lt_of_le_of_ne (hmax _ (by simp; omega)) he, ?_⟩
          intro k hk1 hk2
          exact h k hk1 (by omega)
  obtain ⟨i, i1, i2, i3, i4⟩ : ∃ i, p ≤ i ∧ i < m ∧ y i < y m ∧ ∀ k, i < k → k ≤ m → y k = y m := by
    rcases left (m - p) (le_refl _) with h | h
    · exact h
    · have := h p (by omega) (by omega); linarith
  obtain ⟨j, j1, j2, j3, j4⟩ : ∃ j, m < j ∧ j ≤ r ∧ y j < y m ∧ ∀ k, m ≤ k → k < j → y k = y m := by
    rcases right (r - m) (le_refl _) with h | h
    · exact h
    · have := h r (by omega) (by omega); linarith
  refine ⟨i, j, y m, i1, by omega, j2, i3, j3, ?_, hmq⟩
  intro k hk1 hk2
  rcases Nat.lt_or_ge k m with h | h
  · exact i4 k hk1 h.le
  · exact j4 k h hk2

/-- The slopes around a hill. -/
theorem hill_slopes (y : ℕ → K) (i j : ℕ) (v : K) (hij : i + 1 < j) (h1 : y i < v) (h2 : y j < v)
    (h3 : ∀ k, i < k → k < j → y k = v) :
    sg y i = 1 ∧ sg y (j - 1) = -1 ∧ ∀ k, i < k → k < j - 1 → sg y k = 0 := by
  refine ⟨?_, ?_, ?_⟩
  · rw [sg_eq_one, h3 (i + 1) (by omega) (by omega)]; exact h1
  · rw [sg_eq_neg, show j - 1 + 1 = j by omega, h3 (j - 1) (by omega) (by omega)]; exact h2
  · intro k hk1 hk2
    rw [sg_eq_zero, h3 k (by omega) (by omega), h3 (k + 1) (by omega) (by omega)]

/-! ### one round of refinement -/

/-- The brackets chosen in a round. -/
def roundBrackets (f : K → K) (jd : List K) : List (K × K) :=
  (chooseBrackets (jd.map f)).filterMap fun i => jd[i]?.bind fun s => jd[i + 1]?.map fun e => (s, e)

/-- The samples of the next round. -/
def nextSamples (f : K → K) (num : ℕ) (jd : List K) : List K :=
  removeAdjacentDuplicates ((roundBrackets f jd).flatMap (bracketPoints num))

theorem mem_choose (f : K → K) (jd : List K) (k : ℕ) (hk : k ∈ chooseBrackets (jd.map f)) :
    k + 1 < jd.length := by
  rw [mem_chooseBrackets] at hk
  obtain ⟨i, hi, h⟩ := hk
  rw [mem_drop_indices] at hi
  omega

theorem roundBrackets_eq (f : K → K) (jd : List K) :
    roundBrackets f jd = (chooseBrackets (jd.map f)).map fun k => (seq jd k, seq jd (k + 1)) := by
  unfold roundBrackets
  have : ∀ l : List ℕ, (∀ k ∈ l, k + 1 < jd.length) →
      (l.filterMap fun i => jd[i]?.bind fun s => jd[i + 1]?.map fun e => (s, e)) =
        l.map fun k => (seq jd k, seq jd (k + 1)) := by
    intro l
    induction l with
    | nil => intro _; rfl
    | cons a l ih =>
      intro h
      have ha := h a List.mem_cons_self
      rw [List.map_cons, ← ih fun k hk => h k (List.mem_cons_of_mem _ hk), List.filterMap_cons]
      rw [seq_get (show a < jd.length by omega), Option.bind_some, seq_get ha, Option.map_some]
  exact this _ (mem_choose f jd)

theorem flat_sorted (jd : List K) (hs : jd.Pairwise (· < ·)) (n : ℕ) (l : List ℕ)
    (hl : l.Pairwise (· < ·)) (hlen : ∀ k ∈ l, k + 1 < jd.length) (k0 : ℕ) (hk0 : ∀ k ∈ l, k0 ≤ k) :
    ((l.map fun k => (seq jd k, seq jd (k + 1))).flatMap (bracketPoints (n + 2))).Pairwise (· ≤ ·) ∧
    ∀ x ∈ (l.map fun k => (seq jd k, seq jd (k + 1))).flatMap (bracketPoints (n + 2)), seq jd k0 ≤ x := by
  induction l generalizing k0 with
  | nil => simp
  | cons a l ih =>
    obtain ⟨ha, hl'⟩ := List.pairwise_cons.1 hl
    have hal := hlen a List.mem_cons_self
    obtain ⟨h1, h2⟩ := ih hl' (fun k hk => hlen k (List.mem_cons_of_mem _ hk)) (a + 1)
      (fun k hk => ha k hk)
    have hlt : seq jd a < seq jd (a + 1) := seq_lt hs (by omega) hal
    rw [List.map_cons, List.flatMap_cons, bracketPoints_eq]
    have hk := hk0 a List.mem_cons_self
    have hka : seq jd k0 ≤ seq jd a := (seq_le_iff hs (by omega) (by omega)).2 hk
    constructor
    · rw [List.pairwise_append]
      refine ⟨npLinspace_sorted _ _ _ hlt.le, h1, ?_⟩
      intro x hx y hy
      exact le_trans (npLinspace_mem _ _ n hlt.le x hx).2 (h2 y hy)
    · intro x hx
      rw [List.mem_append] at hx
      rcases hx with hx | hx
      · exact le_trans hka (npLinspace_mem _ _ n hlt.le x hx).1
      · exact le_trans hka (le_trans hlt.le (h2 x hx))

theorem nextSamples_sorted (f : K → K) (n : ℕ) (jd : List K) (hs : jd.Pairwise (· < ·)) :
    (nextSamples f (n + 2) jd).Pairwise (· < ·) := by
  unfold nextSamples
  apply rad_sorted
  rw [roundBrackets_eq]
  exact (flat_sorted jd hs n _ (chooseBrackets_sorted _) (mem_choose f jd) 0 (by simp)).1

theorem nextSamples_mem (f : K → K) (n : ℕ) (jd : List K) (k : ℕ)
    (hk : k ∈ chooseBrackets (jd.map f)) :
    seq jd k ∈ nextSamples f (n + 2) jd ∧ seq jd (k + 1) ∈ nextSamples f (n + 2) jd := by
  unfold nextSamples
  rw [mem_rad, mem_rad, roundBrackets_eq]
  constructor
  · rw [List.mem_flatMap]
    refine ⟨_, List.mem_map.2 ⟨k, hk, rfl⟩, ?_⟩
    rw [bracketPoints_eq]
    exact List.mem_of_mem_head? (npLinspace_head _ _ n)
  · rw [List.mem_flatMap]
    refine ⟨_, List.mem_map.2 ⟨k, hk, rfl⟩, ?_⟩
    rw [bracketPoints_eq]
    exact List.mem_of_getLast? (npLinspace_last _ _ n)

/-- A visible hill survives a round of refinement. -/
theorem hill_survives (f : K → K) (n : ℕ) (jd : List K) (hs : jd.Pairwise (· < ·)) (u v w : K)
    (hu : u ∈ jd) (hv : v ∈ jd) (hw : w ∈ jd) (huv : u < v) (hvw : v < w) (h1 : f u < f v)
    (h2 : f w < f v) :
    chooseBrackets (jd.map f) ≠ [] ∧ ∃ u' v' w', u' ∈ nextSamples f (n + 2) jd ∧
      v' ∈ nextSamples f (n + 2) jd ∧ w' ∈ nextSamples f (n + 2) jd ∧ u ≤ u' ∧ u' < v' ∧ v' < w' ∧
      w' ≤ w ∧ f u' < f v' ∧ f w' < f v' ∧ f v ≤ f v' := by
  obtain ⟨p, hp⟩ := List.mem_iff_getElem?.1 hu
  obtain ⟨q, hq⟩ := List.mem_iff_getElem?.1 hv
  obtain ⟨r, hr⟩ := List.mem_iff_getElem?.1 hw
  obtain ⟨lp, rfl⟩ := seq_of_get hp
  obtain ⟨lq, rfl⟩ := seq_of_get hq
  obtain ⟨lr, rfl⟩ := seq_of_get hr
  rw [seq_lt_iff hs lp lq] at huv
  rw [seq_lt_iff hs lq lr] at hvw
  obtain ⟨i, j, m, i1, i2, i3, i4, i5, i6, i7⟩ := exists_hill (fun k => f (seq jd k)) p q r huv hvw h1 h2
  obtain ⟨s1, s2, s3⟩ := hill_slopes (fun k => f (seq jd k)) i j m i2 i4 i5 i6
  have hi : i ∈ flatnonzero (diffSignDiff (jd.map f)) (· < 0) := by
    rw [mem_drop_indices]
    refine ⟨by omega, ?_⟩
    rw [s1]
    by_cases hj : i + 1 = j - 1
    · rw [hj, s2]; omega
    · rw [s3 (i + 1) (by omega) (by omega)]; omega
  have hj : j - 2 ∈ flatnonzero (diffSignDiff (jd.map f)) (· < 0) := by
    rw [mem_drop_indices]
    refine ⟨by omega, ?_⟩
    rw [show j - 2 + 1 = j - 1 by omega, s2]
    by_cases hj : j - 2 = i
    · rw [hj, s1]; omega
    · rw [s3 (j - 2) (by omega) (by omega)]; omega
  have ci : i ∈ chooseBrackets (jd.map f) := (mem_chooseBrackets _ _).2 ⟨i, hi, Or.inl rfl⟩
  have cj : j - 1 ∈ chooseBrackets (jd.map f) :=
    (mem_chooseBrackets _ _).2 ⟨j - 2, hj, Or.inr (by omega)⟩
  refine ⟨List.ne_nil_of_mem ci, seq jd i, seq jd (i + 1), seq jd j, (nextSamples_mem f n jd i ci).1,
    (nextSamples_mem f n jd i ci).2, ?_, ?_, ?_, ?_, ?_, ?_, ?_, ?_⟩
  · have := (nextSamples_mem f n jd (j - 1) cj).2
    rwa [show j - 1 + 1 = j by omega] at this
  · exact (seq_le_iff hs lp (by omega)).2 i1
  · exact seq_lt hs (by omega) (by omega)
  · exact seq_lt hs (by omega) (by omega)
  · exact (seq_le_iff hs (by omega) lr).2 i3
  · have := i6 (i + 1) (by omega) (by omega)
    exact lt_of_lt_of_eq i4 this.symm
  · have := i6 (i + 1) (by omega) (by omega)
    exact lt_of_lt_of_eq i5 this.symm
  · have := i6 (i + 1) (by omega) (by omega)
    exact le_of_le_of_eq i7 this.symm

/-! ### the first bracket -/

/-- The first drop index of a list of samples. -/
def FirstDrop (f : K → K) (jd : List K) (i : ℕ) : Prop :=
  i ∈ flatnonzero (diffSignDiff (jd.map f)) (· < 0) ∧
    ∀ k ∈ flatnonzero (diffSignDiff (jd.map f)) (· < 0), i ≤ k

theorem exists_firstDrop (f : K → K) (jd : List K) (h : chooseBrackets (jd.map f) ≠ []) :
    ∃ i, FirstDrop f jd i := by
  cases hf : flatnonzero (diffSignDiff (jd.map f)) (· < 0) with
  | nil =>
    exfalso; apply h
    unfold chooseBrackets
    rw [hf]; rfl
  | cons a l =>
    refine ⟨a, by rw [hf]; exact List.mem_cons_self, ?_⟩
    have := flatnonzero_sorted (diffSignDiff (jd.map f)) (· < 0)
    rw [hf] at this ⊢
    intro k hk
    rcases List.mem_cons.1 hk with rfl | hk
    · exact le_refl _
    · exact ((List.pairwise_cons.1 this).1 k hk).le

theorem choose_firstDrop (f : K → K) (jd : List K) (i : ℕ) (h : FirstDrop f jd i) :
    ∃ l, chooseBrackets (jd.map f) = i :: (i + 1) :: l := by
  have hs := chooseBrackets_sorted (jd.map f)
  have m0 : i ∈ chooseBrackets (jd.map f) := (mem_chooseBrackets _ _).2 ⟨i, h.1, Or.inl rfl⟩
  have m1 : i + 1 ∈ chooseBrackets (jd.map f) := (mem_chooseBrackets _ _).2 ⟨i, h.1, Or.inr rfl⟩
  have hge : ∀ k ∈ chooseBrackets (jd.map f), i ≤ k := by
    intro k hk
    rw [mem_chooseBrackets] at hk
    obtain ⟨a, ha, hk⟩ := hk
    have := h.2 a ha
    omega
  cases hc : chooseBrackets (jd.map f) with
  | nil => rw [hc] at m0; simp at m0
  | cons a l =>
    rw [hc] at m0 m1 hge hs
    obtain ⟨ha, hs'⟩ := List.pairwise_cons.1 hs
    have : a = i := by
      rcases List.mem_cons.1 m0 with h | h
      · exact h.symm
      · have h1 := ha i h
        have h2 := hge a List.mem_cons_self
        omega
    subst this
    cases l with
    | nil => simp at m1
    | cons b l =>
      have hb := ha b List.mem_cons_self
      rcases List.mem_cons.1 m1 with h1 | h1
      · omega
      · rcases List.mem_cons.1 h1 with h1 | h1
        · exact ⟨l, by rw [← h1]⟩
        · have := (List.pairwise_cons.1 hs').1 _ h1
          omega

/-- Inside the first two brackets the next samples are `num - 1` times closer. -/
theorem next_width (f : K → K) (n : ℕ) (jd : List K) (hs : jd.Pairwise (· < ·)) (i : ℕ)
    (hi : FirstDrop f jd i) (w : K) (hw1 : seq jd (i + 1) - seq jd i ≤ w)
    (hw2 : seq jd (i + 2) - seq jd (i + 1) ≤ w) (p : K × K)
    (hp : p ∈ adjacent (nextSamples f (n + 2) jd)) (hle : p.2 ≤ seq jd (i + 2)) :
    p.2 - p.1 ≤ w / (n + 1) := by
  obtain ⟨l, hl⟩ := choose_firstDrop f jd i hi
  have hlen := (mem_drop_indices f jd i).1 hi.1
  have hn : (0 : K) < n + 1 := by positivity
  unfold nextSamples at hp
  rw [adjacent_rad, List.mem_filter, roundBrackets_eq, hl, List.map_cons, List.map_cons,
    List.flatMap_cons, List.flatMap_cons, bracketPoints_eq, bracketPoints_eq, mem_adjacent_append] at hp
  obtain ⟨hp, hne⟩ := hp
  have hne : p.1 ≠ p.2 := by simpa using hne
  have hsorted := chooseBrackets_sorted (jd.map f)
  have hmem := mem_choose f jd
  rw [hl] at hsorted hmem
  obtain ⟨g1, g2⟩ := List.pairwise_cons.1 hsorted
  obtain ⟨g3, g4⟩ := List.pairwise_cons.1 g2
  obtain ⟨r1, r2⟩ := flat_sorted jd hs n l g4
    (fun k hk => hmem k (List.mem_cons_of_mem _ (List.mem_cons_of_mem _ hk))) (i + 2)
    (fun k hk => g3 k hk)
  have lin : ∀ a b : K, b - a ≤ w → p ∈ adjacent (npLinspace a b (n + 2)) → p.2 - p.1 ≤ w / (n + 1) := by
    intro a b hab hp
    rw [npLinspace_adjacent _ _ _ _ hp]
    push_cast
    rw [show (n : K) + 2 - 1 = n + 1 by ring]
    exact div_le_div_of_nonneg_right hab hn.le
  rcases hp with hp | hp | ⟨e1, e2⟩
  · exact lin _ _ hw1 hp
  · rw [mem_adjacent_append] at hp
    rcases hp with hp | hp | ⟨e1, e2⟩
    · exact lin _ _ hw2 hp
    · exfalso
      have h1 := r2 _ (adjacent_mem hp).1
      have h2 := adjacent_le r1 hp
      exact hne (le_antisymm h2 (le_trans hle h1))
    · exfalso
      rw [npLinspace_last, Option.some.injEq] at e1
      have h1 := r2 p.2 (List.mem_of_mem_head? e2)
      apply hne
      rw [← e1]
      exact le_antisymm h1 hle
  · exfalso
    rw [npLinspace_last, Option.some.injEq] at e1
    rw [List.head?_append, npLinspace_head, Option.some_or, Option.some.injEq] at e2
    exact hne (by rw [← e1, ← e2])

/-- The first drop of the next round is inside the first two brackets of this one. -/
theorem next_firstDrop (f : K → K) (n : ℕ) (jd : List K) (hs : jd.Pairwise (· < ·)) (i : ℕ)
    (hi : FirstDrop f jd i) (w : K) (hw1 : seq jd (i + 1) - seq jd i ≤ w)
    (hw2 : seq jd (i + 2) - seq jd (i + 1) ≤ w) :
    2 ≤ (nextSamples f (n + 2) jd).length ∧
    seq (nextSamples f (n + 2) jd) 1 - seq (nextSamples f (n + 2) jd) 0 ≤ w / (n + 1) ∧
    ∃ k, FirstDrop f (nextSamples f (n + 2) jd) k ∧
      seq (nextSamples f (n + 2) jd) (k + 1) - seq (nextSamples f (n + 2) jd) k ≤ w / (n + 1) ∧
      seq (nextSamples f (n + 2) jd) (k + 2) - seq (nextSamples f (n + 2) jd) (k + 1) ≤ w / (n + 1) := by
  obtain ⟨l, hl⟩ := choose_firstDrop f jd i hi
  have hlen := (mem_drop_indices f jd i).1 hi.1
  have hwid := next_width f n jd hs i hi w hw1 hw2
  have hs' := nextSamples_sorted f n jd hs
  obtain ⟨m0, m1⟩ := nextSamples_mem f n jd i (by rw [hl]; simp)
  obtain ⟨-, m2⟩ := nextSamples_mem f n jd (i + 1) (by rw [hl]; simp)
  rw [show i + 1 + 1 = i + 2 by omega] at m2
  generalize nextSamples f (n + 2) jd = N at *
  obtain ⟨p, hp⟩ := List.mem_iff_getElem?.1 m0
  obtain ⟨q, hq⟩ := List.mem_iff_getElem?.1 m1
  obtain ⟨r, hr⟩ := List.mem_iff_getElem?.1 m2
  obtain ⟨lp, ep⟩ := seq_of_get hp
  obtain ⟨lq, eq⟩ := seq_of_get hq
  obtain ⟨lr, er⟩ := seq_of_get hr
  have hpq : p < q := by
    rw [← seq_lt_iff hs' lp lq, ep, eq]; exact seq_lt hs (by omega) (by omega)
  have hqr : q < r := by
    rw [← seq_lt_iff hs' lq lr, eq, er]; exact seq_lt hs (by omega) (by omega)
  have gap : ∀ k, k + 1 ≤ r → seq N (k + 1) - seq N k ≤ w / (n + 1) := by
    intro k hk
    apply hwid (seq N k, seq N (k + 1))
    · rw [mem_adjacent_iff]
      exact ⟨k, seq_get (by omega), seq_get (by omega)⟩
    · rw [← er]
      exact (seq_le_iff hs' (by omega) lr).2 hk
  refine ⟨by omega, gap 0 (by omega), ?_⟩
  obtain ⟨k, k1, k2, k3⟩ := exists_drop3 (fun k => f (seq N k)) p q r hpq hqr (by
    simp only [ep, eq, er]; exact hlen.2)
  have hkm : k ∈ flatnonzero (diffSignDiff (N.map f)) (· < 0) :=
    (mem_drop_indices f N k).2 ⟨by omega, k3⟩
  obtain ⟨k', hk'⟩ := exists_firstDrop f N
    (List.ne_nil_of_mem ((mem_chooseBrackets _ k).2 ⟨k, hkm, Or.inl rfl⟩))
  have := hk'.2 k hkm
  exact ⟨k', hk', gap k' (by omega), gap (k' + 1) (by omega)⟩

/-! ### identifying maxima -/

/-- `t` with value `v` is seen as a maximum of `f` in the samples: there are two samples lower than `v`
with at least one sample between them, all samples between them have value `v`, and `t` is the one
sample between them or, if there are several, the middle of the two lower ones. -/
def LooksLikeMaximum (f : K → K) (samples : List K) (t v : K) : Prop :=
  ∃ i j a b, samples[i]? = some a ∧ samples[j]? = some b ∧ i + 1 < j ∧ f a < v ∧ f b < v ∧
    (∀ k m, i < k → k < j → samples[k]? = some m → f m = v) ∧
    ((j = i + 2 ∧ samples[i + 1]? = some t) ∨ (i + 2 < j ∧ t = (a + b) / 2))

theorem mem_adjacent_sorted_gap {l : List ℕ} (h : l.Pairwise (· < ·)) {p : ℕ × ℕ}
    (hp : p ∈ adjacent l) : p.1 < p.2 ∧ ∀ k ∈ l, k ≤ p.1 ∨ p.2 ≤ k := by
  induction l with
  | nil => simp [adjacent_nil] at hp
  | cons a l ih =>
    cases l with
    | nil => simp [adjacent_singleton] at hp
    | cons b l =>
      obtain ⟨ha, hs⟩ := List.pairwise_cons.1 h
      rw [adjacent_cons_cons, List.mem_cons] at hp
      rcases hp with rfl | hp
      · refine ⟨ha b List.mem_cons_self, ?_⟩
        intro k hk
        rcases List.mem_cons.1 hk with rfl | hk
        · left; exact le_refl _
        · right
          rcases List.mem_cons.1 hk with rfl | hk
          · exact le_refl _
          · exact ((List.pairwise_cons.1 hs).1 k hk).le
      · obtain ⟨h1, h2⟩ := ih hs hp
        refine ⟨h1, ?_⟩
        intro k hk
        rcases List.mem_cons.1 hk with rfl | hk
        · left; exact (ha _ (adjacent_mem hp).1).le
        · exact h2 k hk

theorem adjacent_of_gap {l : List ℕ} (h : l.Pairwise (· < ·)) {i j : ℕ} (hi : i ∈ l) (hj : j ∈ l)
    (hij : i < j) (hgap : ∀ k ∈ l, k ≤ i ∨ j ≤ k) : (i, j) ∈ adjacent l := by
  induction l with
  | nil => simp at hi
  | cons a l ih =>
    obtain ⟨ha, hs⟩ := List.pairwise_cons.1 h
    cases l with
    | nil =>
      simp only [List.mem_singleton] at hi hj
      omega
    | cons b l =>
      rw [adjacent_cons_cons, List.mem_cons]
      have hab := ha b List.mem_cons_self
      rcases List.mem_cons.1 hi with rfl | hi'
      · left
        rcases List.mem_cons.1 hj with rfl | hj
        · omega
        · have := hgap b (by simp)
          have hbj : b ≤ j := by
            rcases List.mem_cons.1 hj with rfl | hj
            · exact le_refl _
            · exact ((List.pairwise_cons.1 hs).1 j hj).le
          rw [show b = j by omega]
      · right
        have hj' : j ∈ b :: l := by
          rcases List.mem_cons.1 hj with rfl | hj
          · have := ha i hi'; omega
          · exact hj
        exact ih hs hi' hj' fun k hk => hgap k (List.mem_cons_of_mem _ hk)

/-- `_identify_maxima`, with the middle of a plateau computed by `mid`. -/
def identifyMaximaWith (mid : K → K → K) (xy : List (K × K)) : List (K × K) :=
  let dsd := diffSignDiff (xy.map (·.2))
  let peaks := (flatnonzero dsd (· = -2)).filterMap fun i => xy[i + 1]?
  let plateaus := (plateauIndices dsd).filterMap fun p => do
    let l ← xy[p.1]?
    let r ← xy[p.2]?
    let m ← xy[p.1 + 1]?
    return (mid l.1 r.1, m.2)
  (peaks ++ plateaus).insertionSort fun a b => a.1 ≤ b.1

/-- `LooksLikeMaximum`, with the middle of a plateau computed by `mid`. -/
def LooksLikeMaximumWith (mid : K → K → K) (f : K → K) (samples : List K) (t v : K) : Prop :=
  ∃ i j a b, samples[i]? = some a ∧ samples[j]? = some b ∧ i + 1 < j ∧ f a < v ∧ f b < v ∧
    (∀ k m, i < k → k < j → samples[k]? = some m → f m = v) ∧
    ((j = i + 2 ∧ samples[i + 1]? = some t) ∨ (i + 2 < j ∧ t = mid a b))

theorem mem_identifyMaximaWith (mid : K → K → K) (f : K → K) (jd : List K) (t v : K) :
    (t, v) ∈ identifyMaximaWith mid (jd.map fun x => (x, f x)) ↔ LooksLikeMaximumWith mid f jd t v := by
  unfold identifyMaximaWith
  have e : (jd.map fun x => (x, f x)).map (·.2) = jd.map f := by rw [List.map_map]; rfl
  simp only [e]
  rw [List.mem_insertionSort, List.mem_append, List.mem_filterMap, List.mem_filterMap]
  constructor
  · rintro (⟨i, hi, h⟩ | ⟨p, hp, h⟩)
    · rw [mem_flatnonzero] at hi
      obtain ⟨d, hd, hd2⟩ := hi
      rw [dsd_seq] at hd
      obtain ⟨hlen, rfl⟩ := hd
      simp only [decide_eq_true_eq] at hd2
      have r1 := sg_range (fun k => f (seq jd k)) i
      have r2 := sg_range (fun k => f (seq jd k)) (i + 1)
      have s1 := sg_eq_one.1 (show sg (fun k => f (seq jd k)) i = 1 by omega)
      have s2 := sg_eq_neg.1 (show sg (fun k => f (seq jd k)) (i + 1) = -1 by omega)
      rw [List.getElem?_map, seq_get (show i + 1 < jd.length by omega), Option.map_some,
        Option.some.injEq, Prod.mk.injEq] at h
      obtain ⟨rfl, rfl⟩ := h
      refine ⟨i, i + 2, _, _, seq_get (by omega), seq_get hlen, by omega, s1, s2, ?_,
        Or.inl ⟨rfl, seq_get (by omega)⟩⟩
      intro k m hk1 hk2 hm
      rw [show k = i + 1 by omega] at hm
      rw [← (seq_of_get hm).2]
    · unfold plateauIndices at hp
      rw [List.mem_map] at hp
      obtain ⟨q, hq, rfl⟩ := hp
      rw [List.mem_filter] at hq
      obtain ⟨hadj, hq⟩ := hq
      simp only [Bool.decide_and, Bool.and_eq_true, decide_eq_true_eq] at hq
      obtain ⟨hd1, hd2⟩ := hq
      rw [dsd_seq] at hd1 hd2
      obtain ⟨g1, g2⟩ := mem_adjacent_sorted_gap (flatnonzero_sorted _ _) hadj
      obtain ⟨i, j⟩ := q
      simp only at hd1 hd2 g1 g2 h
      have const : ∀ k, i + 1 ≤ k → k ≤ j → sg (fun k => f (seq jd k)) k = sg (fun k => f (seq jd k)) (i + 1) := by
        intro k hk
        induction k, hk using Nat.le_induction with
        | base => intro _; rfl
        | succ k hk ih =>
          intro hkj
          rw [← ih (by omega)]
          by_contra hc
          have : k ∈ flatnonzero (diffSignDiff (jd.map f)) (· ≠ 0) := by
            rw [mem_flatnonzero]
            refine ⟨_, (dsd_seq f jd k _).2 ⟨by omega, rfl⟩, ?_⟩
            simp only [ne_eq, decide_eq_true_eq]
            omega
          have := g2 k this
          omega
      have hj := const j (by omega) (le_refl _)
      have r1 := sg_range (fun k => f (seq jd k)) i
      have r2 := sg_range (fun k => f (seq jd k)) (i + 1)
      have r3 := sg_range (fun k => f (seq jd k)) (j + 1)
      have s1 := sg_eq_one.1 (show sg (fun k => f (seq jd k)) i = 1 by omega)
      have s2 := sg_eq_neg.1 (show sg (fun k => f (seq jd k)) (j + 1) = -1 by omega)
      have s0 : sg (fun k => f (seq jd k)) (i + 1) = 0 := by omega
      have flat : ∀ k, i + 1 ≤ k → k ≤ j + 1 → f (seq jd k) = f (seq jd (i + 1)) := by
        intro k hk
        induction k, hk using Nat.le_induction with
        | base => intro _; rfl
        | succ k hk ih =>
          intro hkj
          have := sg_eq_zero.1 ((const k hk (by omega)).trans s0)
          exact this.trans (ih (by omega))
      simp only [List.getElem?_map, seq_get (show i < jd.length by omega),
        seq_get (show i + 1 < jd.length by omega), seq_get (show j + 2 < jd.length by omega),
        Option.map_some, Option.bind_eq_bind, Option.bind_some, Option.pure_def, Option.some.injEq,
        Prod.mk.injEq] at h
      obtain ⟨rfl, rfl⟩ := h
      refine ⟨i, j + 2, _, _, seq_get (by omega), seq_get (by omega), by omega, s1, ?_, ?_,
        Or.inr ⟨by omega, rfl⟩⟩
      · rw [← flat (j + 1) (by omega) (le_refl _)]; exact s2
      · intro k m hk1 hk2 hm
        rw [← (seq_of_get hm).2]
        exact flat k (by omega) (by omega)
  · rintro ⟨i, j, a, b, ha, hb, hij, h1, h2, h3, h4⟩
    obtain ⟨li, rfl⟩ := seq_of_get ha
    obtain ⟨lj, rfl⟩ := seq_of_get hb
    have flat : ∀ k, i < k → k < j → f (seq jd k) = v := by
      intro k hk1 hk2
      exact h3 k _ hk1 hk2 (seq_get (by omega))
    obtain ⟨s1, s2, s3⟩ := hill_slopes (fun k => f (seq jd k)) i j v hij h1 h2 flat
    rcases h4 with ⟨rfl, ht⟩ | ⟨hlt, rfl⟩
    · left
      refine ⟨i, ?_, ?_⟩
      · rw [mem_flatnonzero]
        refine ⟨_, (dsd_seq f jd i _).2 ⟨lj, rfl⟩, ?_⟩
        rw [show i + 2 - 1 = i + 1 by omega] at s2
        simp [s1, s2]
      · obtain ⟨-, rfl⟩ := seq_of_get ht
        rw [List.getElem?_map, seq_get (show i + 1 < jd.length by omega), Option.map_some,
          flat (i + 1) (by omega) (by omega)]
    · right
      have d : ∀ k, i ≤ k → k ≤ j - 2 → (diffSignDiff (jd.map f))[k]? =
          some (if k = i ∨ k = j - 2 then -1 else 0) := by
        intro k hk1 hk2
        rw [dsd_seq]
        refine ⟨by omega, ?_⟩
        by_cases e1 : k = i
        · subst e1
          rw [s1, s3 (k + 1) (by omega) (by omega)]; simp
        · by_cases e2 : k = j - 2
          · subst e2
            rw [show j - 2 + 1 = j - 1 by omega, s2, s3 (j - 2) (by omega) (by omega)]
            simp
          · rw [s3 k (by omega) (by omega), s3 (k + 1) (by omega) (by omega)]
            simp [e1, e2]
      refine ⟨(i, j), ?_, ?_⟩
      · unfold plateauIndices
        rw [List.mem_map]
        refine ⟨(i, j - 2), ?_, by simp; omega⟩
        rw [List.mem_filter]
        constructor
        · apply adjacent_of_gap (flatnonzero_sorted _ _)
          · rw [mem_flatnonzero]
            exact ⟨_, d i (le_refl _) (by omega), by simp⟩
          · rw [mem_flatnonzero]
            exact ⟨_, d (j - 2) (by omega) (le_refl _), by simp⟩
          · omega
          · intro k hk
            by_contra hc
            push Not at hc
            rw [mem_flatnonzero] at hk
            obtain ⟨c, hc1, hc2⟩ := hk
            rw [d k (by omega) (by omega), if_neg (by omega), Option.some.injEq] at hc1
            subst hc1
            simp at hc2
        · have := d i (le_refl _) (by omega)
          have h6 := d (j - 2) (by omega) (le_refl _)
          simp only [true_or, or_true, if_true] at this h6
          simp [this, h6]
      · simp only [List.getElem?_map, seq_get li, seq_get lj,
          seq_get (show i + 1 < jd.length by omega), Option.map_some, Option.bind_eq_bind,
          Option.bind_some, Option.pure_def, flat (i + 1) (by omega) (by omega)]

theorem mem_identifyMaxima (f : K → K) (jd : List K) (t v : K) :
    (t, v) ∈ identifyMaxima (jd.map fun x => (x, f x)) ↔ LooksLikeMaximum f jd t v :=
  mem_identifyMaximaWith (fun a b => (a + b) / 2) f jd t v

theorem identifyMaximaWith_sorted (mid : K → K → K) (xy : List (K × K)) :
    (identifyMaximaWith mid xy).Pairwise (fun a b => a.1 ≤ b.1) := by
  unfold identifyMaximaWith
  haveI : Std.Total (fun a b : K × K => a.1 ≤ b.1) := ⟨fun a b => le_total _ _⟩
  haveI : IsTrans (K × K) (fun a b => a.1 ≤ b.1) := ⟨fun a b c h1 h2 => le_trans h1 h2⟩
  exact List.pairwise_insertionSort _ _

theorem identifyMaxima_sorted (xy : List (K × K)) :
    (identifyMaxima xy).Pairwise (fun a b => a.1 ≤ b.1) := by
  unfold identifyMaxima
  haveI : Std.Total (fun a b : K × K => a.1 ≤ b.1) := ⟨fun a b => le_total _ _⟩
  haveI : IsTrans (K × K) (fun a b => a.1 ≤ b.1) := ⟨fun a b c h1 h2 => le_trans h1 h2⟩
  exact List.pairwise_insertionSort _ _

/-! ### dropping close ones -/

theorem mem_dropClose (eps : K) (l : List (K × K)) (p : K × K) (h : p ∈ dropClose eps l) : p ∈ l := by
  cases l with
  | nil => simp [dropClose] at h
  | cons a l =>
    unfold dropClose at h
    rcases List.mem_cons.1 h with rfl | h
    · exact List.mem_cons_self
    · rw [List.mem_filterMap] at h
      obtain ⟨q, hq, e⟩ := h
      split at e
      · simp only [Option.some.injEq] at e
        subst e
        exact (adjacent_mem hq).2
      · simp at e

theorem dropClose_or (eps : K) (l : List (K × K)) (p : K × K) (h : p ∈ l) :
    p ∈ dropClose eps l ∨ ∃ q ∈ l, (q, p) ∈ adjacent l ∧ p.1 - q.1 ≤ eps := by
  cases l with
  | nil => simp at h
  | cons a l =>
    rcases List.mem_cons.1 h with rfl | h
    · left; unfold dropClose; exact List.mem_cons_self
    · obtain ⟨i, hi⟩ := List.mem_iff_getElem?.1 h
      have hlen := (List.getElem?_eq_some_iff.1 hi).1
      have hadj : ((a :: l)[i]'(by simp; omega), p) ∈ adjacent (a :: l) := by
        rw [mem_adjacent_iff]
        exact ⟨i, List.getElem?_eq_getElem _, by simpa using hi⟩
      by_cases hc : p.1 - ((a :: l)[i]'(by simp; omega)).1 > eps
      · left
        unfold dropClose
        apply List.mem_cons_of_mem
        rw [List.mem_filterMap]
        exact ⟨_, hadj, by simp only; rw [if_pos hc]⟩
      · right
        exact ⟨_, (adjacent_mem hadj).1, hadj, not_lt.1 hc⟩

theorem dropClose_apart (eps : K) (l : List (K × K)) (hs : l.Pairwise (fun a b => a.1 ≤ b.1)) :
    (dropClose eps l).Pairwise (fun a b => eps < b.1 - a.1) := by
  have key : ∀ l : List (K × K), l.Pairwise (fun a b => a.1 ≤ b.1) →
      ((adjacent l).filterMap fun q => if q.2.1 - q.1.1 > eps then some q.2 else none).Pairwise
        (fun a b => eps < b.1 - a.1) ∧
      ∀ a r, l = a :: r → ∀ b ∈ ((adjacent l).filterMap fun q => if q.2.1 - q.1.1 > eps then some q.2 else none),
        eps < b.1 - a.1 := by
    intro l
    induction l with
    | nil => intro _; exact ⟨by simp [adjacent_nil], by simp⟩
    | cons a l ih =>
      intro hs
      cases l with
      | nil => exact ⟨by simp [adjacent_singleton], by simp [adjacent_singleton]⟩
      | cons b l =>
        obtain ⟨ha, hs'⟩ := List.pairwise_cons.1 hs
        obtain ⟨h1, h2⟩ := ih hs'
        have hab := ha b List.mem_cons_self
        rw [adjacent_cons_cons, List.filterMap_cons]
        by_cases hc : b.1 - a.1 > eps
        · simp only [if_pos hc]
          refine ⟨List.Pairwise.cons (h2 b l rfl) h1, ?_⟩
          intro a' r' e c hcm
          simp only [List.cons.injEq] at e
          obtain ⟨rfl, -⟩ := e
          rcases List.mem_cons.1 hcm with rfl | hcm
          · exact hc
          · have := h2 b l rfl c hcm
            linarith
        · simp only [if_neg hc]
          refine ⟨h1, ?_⟩
          intro a' r' e c hcm
          simp only [List.cons.injEq] at e
          obtain ⟨rfl, -⟩ := e
          have := h2 b l rfl c hcm
          linarith
  cases l with
  | nil => simp [dropClose]
  | cons a l =>
    obtain ⟨h1, h2⟩ := key _ hs
    unfold dropClose
    exact List.Pairwise.cons (h2 a l rfl) h1

end Skyfield
