import Verif.Model.Search
import Mathlib.Algebra.Order.Floor.Ring
import Mathlib.Tactic.Ring
import Mathlib.Tactic.Linarith
import Mathlib.Tactic.FieldSimp
import Mathlib.Tactic.Positivity

/-
Lemmas for C15-C17.
-/
namespace Skyfield
set_option linter.unusedSectionVars false
variable {K : Type*} [Field K] [LinearOrder K] [IsStrictOrderedRing K] [FloorRing K]

/-! ### Adjacent pairs -/

theorem adjacent_cons_cons {α : Type*} (a b : α) (l : List α) :
    adjacent (a :: b :: l) = (a, b) :: adjacent (b :: l) := rfl

theorem adjacent_singleton {α : Type*} (a : α) : adjacent [a] = [] := rfl
theorem adjacent_nil {α : Type*} : adjacent ([] : List α) = [] := rfl

theorem mem_adjacent_append {α : Type*} (l1 l2 : List α) (p : α × α) :
    p ∈ adjacent (l1 ++ l2) ↔ p ∈ adjacent l1 ∨ p ∈ adjacent l2 ∨
      (l1.getLast? = some p.1 ∧ l2.head? = some p.2) := by
  induction l1 with
  | nil => simp [adjacent_nil]
  | cons a l1 ih =>
    cases l1 with
    | nil =>
      cases l2 with
      | nil => simp [adjacent_nil, adjacent_singleton]
      | cons b l2 =>
        simp only [List.cons_append, List.nil_append, adjacent_cons_cons, List.mem_cons,
          adjacent_singleton, List.not_mem_nil, false_or, List.getLast?_singleton,
          List.head?_cons, Option.some.injEq]
        constructor
        · rintro (rfl | h)
          · exact Or.inr ⟨rfl, rfl⟩
          · exact Or.inl h
        · rintro (h | ⟨rfl, rfl⟩)
          · exact Or.inr h
          · exact Or.inl rfl
    | cons b l1 =>
      simp only [List.cons_append] at ih ⊢
      rw [adjacent_cons_cons, adjacent_cons_cons, List.mem_cons, List.mem_cons, ih,
        List.getLast?_cons_cons]
      tauto

theorem adjacent_mem {α : Type*} {l : List α} {p : α × α} (h : p ∈ adjacent l) :
    p.1 ∈ l ∧ p.2 ∈ l := by
  unfold adjacent at h
  have h1 := List.of_mem_zip (a := p.1) (b := p.2) h
  exact ⟨h1.1, List.mem_of_mem_tail h1.2⟩

theorem adjacent_le {l : List K} (hs : l.Pairwise (· ≤ ·)) {p : K × K} (h : p ∈ adjacent l) :
    p.1 ≤ p.2 := by
  induction l with
  | nil => simp [adjacent_nil] at h
  | cons a l ih =>
    cases l with
    | nil => simp [adjacent_singleton] at h
    | cons b l =>
      obtain ⟨ha, hs'⟩ := List.pairwise_cons.1 hs
      rw [adjacent_cons_cons, List.mem_cons] at h
      rcases h with rfl | h
      · exact ha b List.mem_cons_self
      · exact ih hs' h

/-! ### linspace -/

theorem npLinspace_succ (a b : K) (n : ℕ) : npLinspace a b (n + 2) =
    a :: (List.range (n + 1)).map fun i : ℕ => a + (i + 1) * ((b - a) / ((n : K) + 1)) := by
  unfold npLinspace
  rw [show n + 2 = (n + 1) + 1 from rfl, List.range_succ_eq_map, List.map_cons, List.map_map]
  congr 1
  · simp
  · apply List.map_congr_left
    intro i _
    simp only [Function.comp_apply]
    push_cast
    ring_nf

theorem npLinspace_head (a b : K) (n : ℕ) : (npLinspace a b (n + 2)).head? = some a := by
  rw [npLinspace_succ]; rfl

theorem npLinspace_last (a b : K) (n : ℕ) : (npLinspace a b (n + 2)).getLast? = some b := by
  unfold npLinspace
  rw [show n + 2 = (n + 1) + 1 from rfl, List.range_succ, List.map_append, List.map_singleton,
    List.getLast?_append, List.getLast?_singleton, Option.some_or]
  congr 1
  have : ((n : K) + 1) ≠ 0 := by positivity
  push_cast
  have e : (n : K) + 1 + 1 - 1 = n + 1 := by ring
  rw [e]
  field_simp
  ring

theorem npLinspace_adjacent_aux (a d : K) (n k : ℕ) (p : K × K)
    (h : p ∈ adjacent ((List.range' k n).map fun i : ℕ => a + i * d)) : p.2 - p.1 = d := by
  induction n generalizing k with
  | zero => simp [adjacent_nil] at h
  | succ n ih =>
    cases n with
    | zero => simp [List.range', adjacent_singleton] at h
    | succ n =>
      have e : (List.range' k (n + 1 + 1)).map (fun i : ℕ => a + i * d) =
          (a + k * d) :: (a + ((k + 1 : ℕ) : K) * d) ::
            (List.range' (k + 1 + 1) n).map (fun i : ℕ => a + i * d) := by
        simp [List.range'_succ]
      rw [e, adjacent_cons_cons, List.mem_cons] at h
      rcases h with rfl | h
      · push_cast; ring
      · apply ih (k + 1)
        have e2 : (List.range' (k + 1) (n + 1)).map (fun i : ℕ => a + i * d) =
            (a + ((k + 1 : ℕ) : K) * d) :: (List.range' (k + 1 + 1) n).map (fun i : ℕ => a + i * d) := by
          simp [List.range'_succ]
        rw [e2]; exact h

theorem npLinspace_adjacent (a b : K) (n : ℕ) (p : K × K) (h : p ∈ adjacent (npLinspace a b n)) :
    p.2 - p.1 = (b - a) / ((n : K) - 1) := by
  unfold npLinspace at h
  rw [List.range_eq_range'] at h
  exact npLinspace_adjacent_aux _ _ _ _ _ h

theorem npLinspace_sorted (a b : K) (n : ℕ) (h : a ≤ b) : (npLinspace a b n).Pairwise (· ≤ ·) := by
  unfold npLinspace
  rcases Nat.eq_zero_or_pos n with rfl | hn
  · simp
  have hd : 0 ≤ (b - a) / ((n : K) - 1) := by
    apply div_nonneg (by linarith)
    have : (1 : K) ≤ n := by exact_mod_cast hn
    linarith
  rw [List.pairwise_map]
  refine List.Pairwise.imp ?_ List.pairwise_lt_range
  intro i j hij
  have : (i : K) ≤ j := by exact_mod_cast hij.le
  have := mul_le_mul_of_nonneg_right this hd
  linarith

theorem npLinspace_mem (a b : K) (n : ℕ) (h : a ≤ b) (x : K) (hx : x ∈ npLinspace a b (n + 2)) :
    a ≤ x ∧ x ≤ b := by
  unfold npLinspace at hx
  rw [List.mem_map] at hx
  obtain ⟨i, hi, rfl⟩ := hx
  rw [List.mem_range] at hi
  push_cast
  have e : (n : K) + 2 - 1 = n + 1 := by ring
  rw [e]
  have hn : (0 : K) < n + 1 := by positivity
  have hi' : (i : K) ≤ n + 1 := by exact_mod_cast Nat.lt_succ_iff.1 hi
  have h0 : 0 ≤ (b - a) / ((n : K) + 1) := div_nonneg (by linarith) hn.le
  have h1 : (i : K) * ((b - a) / ((n : K) + 1)) ≤ (n + 1) * ((b - a) / ((n : K) + 1)) :=
    mul_le_mul_of_nonneg_right hi' h0
  have h2 : ((n : K) + 1) * ((b - a) / ((n : K) + 1)) = b - a := by field_simp
  have h3 : 0 ≤ (i : K) * ((b - a) / ((n : K) + 1)) := mul_nonneg (Nat.cast_nonneg i) h0
  exact ⟨by linarith, by linarith⟩

theorem bracketPoints_eq (n : ℕ) (s e : K) :
    bracketPoints (n + 2) (s, e) = npLinspace s e (n + 2) := by
  unfold bracketPoints
  apply List.ext_getElem
  · simp [npLinspace]
  · intro i h1 h2
    have hi : i < n + 2 := by simpa [npLinspace] using h2
    simp only [npLinspace, List.getElem_zipWith, List.getElem_map, List.getElem_range,
      List.getElem_reverse, List.length_map, List.length_range]
    have e1 : ((n + 2 - 1 - i : ℕ) : K) = (n : K) + 1 - i := by
      have : n + 2 - 1 - i = n + 1 - i := by omega
      rw [this, Nat.cast_sub (by omega)]; push_cast; ring
    rw [e1]
    have hn : ((n : K) + 1) ≠ 0 := by positivity
    push_cast
    have e2 : (n : K) + 2 - 1 = n + 1 := by ring
    rw [e2]
    field_simp
    ring

/-! ### Brackets -/

/-- `brackets` are, in time order, changes of `f` between `lo` and `hi`, with no net change of `f`
outside them. -/
def Good {V : Type*} (f : K → V) (lo hi : K) : List (K × K) → Prop
  | [] => lo ≤ hi ∧ f lo = f hi
  | b :: rest => lo ≤ b.1 ∧ f lo = f b.1 ∧ b.1 < b.2 ∧ f b.1 ≠ f b.2 ∧ Good f b.2 hi rest

theorem Good.extend {V : Type*} {f : K → V} {lo lo' hi : K} {bs : List (K × K)} (h : Good f lo hi bs)
    (hle : lo' ≤ lo) (hf : f lo' = f lo) : Good f lo' hi bs := by
  cases bs with
  | nil => exact ⟨le_trans hle h.1, hf.trans h.2⟩
  | cons b bs => exact ⟨le_trans hle h.1, hf.trans h.2.1, h.2.2⟩

theorem Good.extend_right {V : Type*} {f : K → V} {lo hi hi' : K} {bs : List (K × K)}
    (h : Good f lo hi bs) (hle : hi ≤ hi') (hf : f hi = f hi') : Good f lo hi' bs := by
  induction bs generalizing lo with
  | nil => exact ⟨le_trans h.1 hle, h.2.trans hf⟩
  | cons b bs ih => exact ⟨h.1, h.2.1, h.2.2.1, h.2.2.2.1, ih h.2.2.2.2⟩

theorem changes_cons_cons {V : Type*} [DecidableEq V] (f : K → V) (a b : K) (l : List K) :
    changes f (a :: b :: l) = if f a ≠ f b then (a, b) :: changes f (b :: l) else changes f (b :: l) := by
  unfold changes
  rw [adjacent_cons_cons, List.filter_cons]
  by_cases h : f a = f b
  · simp [h]
  · simp [h]

theorem good_changes {V : Type*} [DecidableEq V] (f : K → V) (x : K) (l : List K)
    (hs : (x :: l).Pairwise (· ≤ ·)) : Good f x ((x :: l).getLast (by simp)) (changes f (x :: l)) := by
  induction l generalizing x with
  | nil => exact ⟨le_refl _, rfl⟩
  | cons y l ih =>
    obtain ⟨hx, hs'⟩ := List.pairwise_cons.1 hs
    have hxy := hx y List.mem_cons_self
    have := ih y hs'
    rw [changes_cons_cons, List.getLast_cons (by simp)]
    by_cases h : f x = f y
    · rw [if_neg (by simpa using h)]
      exact this.extend hxy h
    · rw [if_pos h]
      refine ⟨le_refl _, rfl, lt_of_le_of_ne hxy ?_, h, this⟩
      intro e
      exact h (by rw [show x = y from e])

theorem Good.mem {V : Type*} {f : K → V} {lo hi : K} {bs : List (K × K)} (h : Good f lo hi bs)
    {b : K × K} (hb : b ∈ bs) : lo ≤ b.1 ∧ b.1 < b.2 ∧ b.2 ≤ hi ∧ f b.1 ≠ f b.2 := by
  induction bs generalizing lo with
  | nil => simp at hb
  | cons c bs ih =>
    have hle : ∀ (bs : List (K × K)) lo, Good f lo hi bs → lo ≤ hi := by
      intro bs
      induction bs with
      | nil => intro lo h; exact h.1
      | cons d bs ih2 =>
        intro lo h
        exact le_trans h.1 (le_trans h.2.2.1.le (ih2 _ h.2.2.2.2))
    rcases List.mem_cons.1 hb with rfl | hb
    · exact ⟨h.1, h.2.2.1, hle bs _ h.2.2.2.2, h.2.2.2.1⟩
    · have := ih h.2.2.2.2 hb
      exact ⟨le_trans h.1 (le_trans h.2.2.1.le this.1), this.2⟩

/-- The refined samples of a good list of brackets are in time order. -/
theorem refine_sorted {V : Type*} {f : K → V} {lo hi : K} (n : ℕ) {bs : List (K × K)}
    (h : Good f lo hi bs) : (bs.flatMap (bracketPoints (n + 2))).Pairwise (· ≤ ·) ∧
      ∀ x ∈ bs.flatMap (bracketPoints (n + 2)), lo ≤ x := by
  induction bs generalizing lo with
  | nil => simp
  | cons b bs ih =>
    obtain ⟨h1, h2⟩ := ih h.2.2.2.2
    rw [List.flatMap_cons, show b = (b.1, b.2) from rfl, bracketPoints_eq]
    constructor
    · rw [List.pairwise_append]
      refine ⟨npLinspace_sorted _ _ _ h.2.2.1.le, h1, ?_⟩
      intro x hx y hy
      exact le_trans (npLinspace_mem _ _ n h.2.2.1.le x hx).2 (h2 y hy)
    · intro x hx
      rw [List.mem_append] at hx
      rcases hx with hx | hx
      · exact le_trans h.1 (npLinspace_mem _ _ n h.2.2.1.le x hx).1
      · exact le_trans h.1 (le_trans h.2.2.1.le (h2 x hx))

theorem refine_head (n : ℕ) (b : K × K) (bs : List (K × K)) :
    ∃ l, (b :: bs).flatMap (bracketPoints (n + 2)) = b.1 :: l := by
  rw [List.flatMap_cons, show b = (b.1, b.2) from rfl, bracketPoints_eq, npLinspace_succ]
  exact ⟨_, rfl⟩

theorem refine_last {V : Type*} {f : K → V} {lo hi : K} (n : ℕ) {bs : List (K × K)}
    (h : Good f lo hi bs) :
    ∀ x, (bs.flatMap (bracketPoints (n + 2))).getLast? = some x → f x = f hi ∧ x ≤ hi := by
  induction bs generalizing lo with
  | nil => simp
  | cons b bs ih =>
    intro x hx
    rw [List.flatMap_cons, show b = (b.1, b.2) from rfl, bracketPoints_eq, List.getLast?_append] at hx
    cases hc : (bs.flatMap (bracketPoints (n + 2))).getLast? with
    | some z =>
      rw [hc, Option.some_or, Option.some.injEq] at hx
      subst hx
      exact ih h.2.2.2.2 z hc
    | none =>
      rw [hc, Option.none_or, npLinspace_last, Option.some.injEq] at hx
      subst hx
      cases bs with
      | nil => exact ⟨h.2.2.2.2.2, h.2.2.2.2.1⟩
      | cons c bs =>
        rw [List.getLast?_eq_none_iff] at hc
        obtain ⟨l, hl⟩ := refine_head n c bs
        rw [hl] at hc
        exact absurd hc (by simp)

/-- Refining good brackets gives good brackets. -/
theorem good_refine {V : Type*} [DecidableEq V] {f : K → V} {lo hi : K} (n : ℕ) {bs : List (K × K)}
    (h : Good f lo hi bs) (hne : bs ≠ []) :
    Good f lo hi (changes f (bs.flatMap (bracketPoints (n + 2)))) := by
  cases bs with
  | nil => exact absurd rfl hne
  | cons b bs =>
    obtain ⟨l, hl⟩ := refine_head n b bs
    have hs := (refine_sorted n h).1
    have hlast := refine_last n h
    rw [hl] at hs hlast ⊢
    have hx := hlast _ (List.getLast?_eq_getLast_of_ne_nil (by simp))
    exact ((good_changes f b.1 l hs).extend h.1 h.2.1).extend_right hx.2 hx.1

/-- In a sorted list with two samples at which `f` differs there is a change between them. -/
theorem exists_change {V : Type*} [DecidableEq V] (f : K → V) (l : List K) (hs : l.Pairwise (· ≤ ·))
    (x y : K) (hx : x ∈ l) (hy : y ∈ l) (hxy : x ≤ y) (hf : f x ≠ f y) :
    ∃ b ∈ changes f l, x ≤ b.1 ∧ b.2 ≤ y := by
  induction l generalizing x with
  | nil => simp at hx
  | cons a l ih =>
    cases l with
    | nil =>
      simp only [List.mem_singleton] at hx hy
      subst hx; subst hy
      exact absurd rfl hf
    | cons b l =>
      obtain ⟨ha, hs'⟩ := List.pairwise_cons.1 hs
      have hsub : ∀ c ∈ changes f (b :: l), c ∈ changes f (a :: b :: l) := by
        intro c hc
        rw [changes_cons_cons]
        split
        · exact List.mem_cons_of_mem _ hc
        · exact hc
      rcases List.mem_cons.1 hx with rfl | hx'
      · rcases List.mem_cons.1 hy with rfl | hy
        · exact absurd rfl hf
        · by_cases hab : f x = f b
          · have hby : b ≤ y := by
              rcases List.mem_cons.1 hy with rfl | hy
              · exact le_refl _
              · exact (List.pairwise_cons.1 hs').1 y hy
            obtain ⟨c, hc, h1, h2⟩ := ih hs' b List.mem_cons_self hy hby (by rwa [← hab])
            exact ⟨c, hsub c hc, le_trans (ha b List.mem_cons_self) h1, h2⟩
          · refine ⟨(x, b), ?_, le_refl _, ?_⟩
            · rw [changes_cons_cons, if_pos hab]; exact List.mem_cons_self
            · rcases List.mem_cons.1 hy with rfl | hy
              · exact le_refl _
              · exact (List.pairwise_cons.1 hs').1 y hy
      · rcases List.mem_cons.1 hy with rfl | hy
        · have : x = y := le_antisymm hxy (ha x hx')
          exact absurd (by rw [this]) hf
        · obtain ⟨c, hc, h⟩ := ih hs' x hx' hy hxy hf
          exact ⟨c, hsub c hc, h⟩

/-- Widths after one refinement. -/
theorem refine_width {V : Type*} [DecidableEq V] {f : K → V} {lo hi w : K} (n : ℕ) {bs : List (K × K)}
    (h : Good f lo hi bs) (hw : ∀ b ∈ bs, b.2 - b.1 = w) :
    ∀ b ∈ changes f (bs.flatMap (bracketPoints (n + 2))), b.2 - b.1 = w / (n + 1) := by
  have key : ∀ (bs : List (K × K)) lo, Good f lo hi bs → (∀ b ∈ bs, b.2 - b.1 = w) →
      ∀ b ∈ adjacent (bs.flatMap (bracketPoints (n + 2))), f b.1 ≠ f b.2 → b.2 - b.1 = w / (n + 1) := by
    intro bs
    induction bs with
    | nil => intro lo _ _ b hb; simp [adjacent_nil] at hb
    | cons c bs ih =>
      intro lo h hw b hb hf
      rw [List.flatMap_cons, show c = (c.1, c.2) from rfl, bracketPoints_eq, mem_adjacent_append] at hb
      rcases hb with hb | hb | ⟨h1, h2⟩
      · have h3 := npLinspace_adjacent _ _ _ _ hb
        rw [h3, hw c List.mem_cons_self]
        push_cast
        congr 1
        ring
      · exact ih _ h.2.2.2.2 (fun d hd => hw d (List.mem_cons_of_mem _ hd)) b hb hf
      · rw [npLinspace_last, Option.some.injEq] at h1
        cases bs with
        | nil => simp at h2
        | cons d bs =>
          obtain ⟨l, hl⟩ := refine_head n d bs
          rw [hl, List.head?_cons, Option.some.injEq] at h2
          exact absurd (by rw [← h1, ← h2]; exact h.2.2.2.2.2.1) hf
  intro b hb
  unfold changes at hb
  rw [List.mem_filter] at hb
  exact key bs lo h hw b hb.1 (by simpa using hb.2)

end Skyfield
