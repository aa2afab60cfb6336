import Verif.Lemmas.Maxima
import Verif.Spec.Hills
import Mathlib.Data.Real.Archimedean
import Mathlib.Algebra.Order.Floor.Ring
import Mathlib.Tactic.Linarith

/-
Lemmas for C116: the search for maxima on a function that rises and falls in turn.
-/
namespace Skyfield
open Spec Set

def Up (f : ℝ → ℝ) (a b : ℝ) : Prop := ∀ s t, a ≤ s → s < t → t ≤ b → f s < f t
def Down (f : ℝ → ℝ) (a b : ℝ) : Prop := ∀ s t, a ≤ s → s < t → t ≤ b → f t < f s

variable {lo hi d : ℝ} {f : ℝ → ℝ} {low high : ℤ → ℝ}

theorem undulates_up (h : Undulates lo hi d f low high) (k : ℤ) {a b : ℝ} (ha : lo ≤ a) (hb : b ≤ hi) (h1 : low k ≤ a) (h2 : b ≤ high k) :
    Up f a b := by
  intro s t hs hst ht
  exact h.up k ⟨⟨by linarith, by linarith⟩, ⟨by linarith, by linarith⟩⟩ ⟨⟨by linarith, by linarith⟩, ⟨by linarith, by linarith⟩⟩ hst

theorem undulates_down (h : Undulates lo hi d f low high) (k : ℤ) {a b : ℝ} (ha : lo ≤ a) (hb : b ≤ hi) (h1 : high k ≤ a)
    (h2 : b ≤ low (k + 1)) : Down f a b := by
  intro s t hs hst ht
  exact h.down k ⟨⟨by linarith, by linarith⟩, ⟨by linarith, by linarith⟩⟩ ⟨⟨by linarith, by linarith⟩, ⟨by linarith, by linarith⟩⟩ hst

/-- Every moment is between two lows. -/
theorem undulates_between (h : Undulates lo hi d f low high) (hd : 0 < d) (x : ℝ) : ∃ k, low k ≤ x ∧ x < low (k + 1) := by
  have step : ∀ k, low k + 2 * d ≤ low (k + 1) := fun k => by linarith [h.rise k, h.fall k]
  have fwd : ∀ n : ℕ, low 0 + 2 * d * n ≤ low n := by
    intro n
    induction n with
    | zero => simp
    | succ n ih => have := step n; push_cast; linarith
  have bwd : ∀ n : ℕ, low (-n) ≤ low 0 - 2 * d * n := by
    intro n
    induction n with
    | zero => simp
    | succ n ih =>
      have := step (-((n + 1 : ℕ) : ℤ))
      rw [show -((n + 1 : ℕ) : ℤ) + 1 = -(n : ℤ) by push_cast; ring] at this
      push_cast at this ⊢; linarith
  have mono : ∀ a b : ℤ, a ≤ b → low a ≤ low b := by
    intro a b hab
    induction b, hab using Int.le_induction with
    | base => exact le_rfl
    | succ b _ ih => linarith [step b]
  obtain ⟨n, hn⟩ := exists_nat_gt ((x - low 0) / (2 * d))
  obtain ⟨m, hm⟩ := exists_nat_gt ((low 0 - x) / (2 * d))
  rw [div_lt_iff₀ (by linarith)] at hn hm
  obtain ⟨k, hk, hmax⟩ := Int.exists_greatest_of_bdd (P := fun k => low k ≤ x)
    ⟨n, fun z hz => by
      by_contra hc
      have h1 := mono n z (by omega)
      have h2 := fwd n
      linarith⟩
    ⟨-m, by have := bwd m; linarith⟩
  refine ⟨k, hk, ?_⟩
  by_contra hc
  have := hmax (k + 1) (not_lt.1 hc)
  omega

/-- Within a stretch no longer than `d` there is at most one turn. -/
theorem undulates_shape (h : Undulates lo hi d f low high) (hd : 0 < d) {x z : ℝ} (hx : lo ≤ x) (hz : z ≤ hi) (hxz : z - x ≤ d) :
    Up f x z ∨ Down f x z ∨ (∃ t, x < t ∧ t < z ∧ Down f x t ∧ Up f t z) ∨
      ∃ k, x < high k ∧ high k < z ∧ low k ≤ x ∧ z ≤ low (k + 1) ∧ Up f x (high k) ∧ Down f (high k) z := by
  obtain ⟨k, h1, h2⟩ := undulates_between h hd x
  have r0 := h.rise k
  have f0 := h.fall k
  have r1 := h.rise (k + 1)
  rcases le_or_gt z (high k) with h3 | h3
  · exact Or.inl (undulates_up h k hx hz h1 h3)
  rcases le_or_gt (high k) x with h4 | h4
  · rcases le_or_gt z (low (k + 1)) with h5 | h5
    · exact Or.inr (Or.inl (undulates_down h k hx hz h4 h5))
    · refine Or.inr (Or.inr (Or.inl ⟨low (k + 1), h2, h5, undulates_down h k hx (by linarith) h4 le_rfl, ?_⟩))
      exact undulates_up h (k + 1) (by linarith) hz le_rfl (by linarith)
  · exact Or.inr (Or.inr (Or.inr ⟨k, h4, h3, h1, by linarith, undulates_up h k hx (by linarith) h1 le_rfl,
      undulates_down h k (by linarith) hz le_rfl (by linarith)⟩))

/-- A drop of the slope shows a top. -/
theorem undulates_drop (h : Undulates lo hi d f low high) (hd : 0 < d) {x y z : ℝ} (hx : lo ≤ x) (hxy : x < y) (hyz : y < z) (hz : z ≤ hi)
    (hxz : z - x ≤ d) (hdrop : npSign (f z - f y) < npSign (f y - f x)) :
    ∃ k, x < high k ∧ high k < z ∧ low k ≤ x ∧ z ≤ low (k + 1) ∧ Up f x (high k) ∧ Down f (high k) z := by
  have e1 := npSign_cases (f y - f x)
  have e2 := npSign_cases (f z - f y)
  rcases undulates_shape h hd hx hz hxz with c | c | ⟨t, t1, t2, c1, c2⟩ | c
  · have := c y z hxy.le hyz le_rfl
    exfalso; rcases e2 with ⟨e, e'⟩ | ⟨e, e'⟩ | ⟨e, e'⟩ <;> rcases e1 with ⟨g, g'⟩ | ⟨g, g'⟩ | ⟨g, g'⟩ <;> first | omega | linarith
  · have := c x y le_rfl hxy hyz.le
    exfalso; rcases e2 with ⟨e, e'⟩ | ⟨e, e'⟩ | ⟨e, e'⟩ <;> rcases e1 with ⟨g, g'⟩ | ⟨g, g'⟩ | ⟨g, g'⟩ <;> first | omega | linarith
  · exfalso
    rcases le_or_gt y t with hy | hy
    · have := c1 x y le_rfl hxy hy
      rcases e2 with ⟨e, e'⟩ | ⟨e, e'⟩ | ⟨e, e'⟩ <;> rcases e1 with ⟨g, g'⟩ | ⟨g, g'⟩ | ⟨g, g'⟩ <;> first | omega | linarith
    · have := c2 y z hy.le hyz le_rfl
      rcases e2 with ⟨e, e'⟩ | ⟨e, e'⟩ | ⟨e, e'⟩ <;> rcases e1 with ⟨g, g'⟩ | ⟨g, g'⟩ | ⟨g, g'⟩ <;> first | omega | linarith
  · exact c

theorem level_top {a b p z : ℝ} (hab : a < b) (hbz : b ≤ z) (h1 : Up f a p) (h2 : Down f p z) (e : f a = f b) : a < p ∧ p < b := by
  constructor
  · by_contra hc
    have := h2 a b (not_lt.1 hc) hab hbz
    linarith
  · by_contra hc
    have := h1 a b le_rfl hab (not_lt.1 hc)
    linarith

/-- After two equal samples over a top the function falls. -/
theorem undulates_level_right (h : Undulates lo hi d f low high) (hd : 0 < d) {a b c e : ℝ} (ha : lo ≤ a) (hab : a < b) (hbc : b < c)
    (hce : c < e) (he : e ≤ hi) (h1 : c - a ≤ d) (h2 : e - b ≤ d) (h3 : f a < f b) (h4 : f b = f c) : f e < f c := by
  have hs : npSign (f c - f b) < npSign (f b - f a) := by
    have e1 := npSign_cases (f b - f a)
    have e2 := npSign_cases (f c - f b)
    rcases e2 with ⟨e, e'⟩ | ⟨e, e'⟩ | ⟨e, e'⟩ <;> rcases e1 with ⟨g, g'⟩ | ⟨g, g'⟩ | ⟨g, g'⟩ <;> first | omega | linarith
  obtain ⟨k, k1, k2, -, -, k3, k4⟩ := undulates_drop h hd ha hab hbc (by linarith) h1 hs
  have hbk : b < high k := by
    by_contra hc
    have := k4 b c (not_lt.1 hc) hbc le_rfl
    linarith
  rcases undulates_shape h hd (show lo ≤ b by linarith) he h2 with s | s | ⟨t, t1, t2, s1, s2⟩ | ⟨k', q1, q2, -, -, s1, s2⟩
  · have := s b c le_rfl hbc hce.le; linarith
  · exact s c e hbc.le hce le_rfl
  · exfalso
    have g1 := s1 b (min t (high k)) le_rfl (lt_min t1 hbk) (min_le_left _ _)
    have g2 := k3 b (min t (high k)) hab.le (lt_min t1 hbk) (min_le_right _ _)
    linarith
  · have := level_top hbc hce.le s1 s2 h4
    exact s2 c e this.2.le hce le_rfl

/-- Before two equal samples over a top the function rises. -/
theorem undulates_level_left (h : Undulates lo hi d f low high) (hd : 0 < d) {a b c e : ℝ} (ha : lo ≤ a) (hab : a < b) (hbc : b < c)
    (hce : c < e) (he : e ≤ hi) (h1 : c - a ≤ d) (h2 : e - b ≤ d) (h3 : f e < f c) (h4 : f b = f c) : f a < f b := by
  have hs : npSign (f e - f c) < npSign (f c - f b) := by
    have e1 := npSign_cases (f c - f b)
    have e2 := npSign_cases (f e - f c)
    rcases e2 with ⟨e, e'⟩ | ⟨e, e'⟩ | ⟨e, e'⟩ <;> rcases e1 with ⟨g, g'⟩ | ⟨g, g'⟩ | ⟨g, g'⟩ <;> first | omega | linarith
  obtain ⟨k, k1, k2, -, -, k3, k4⟩ := undulates_drop h hd (by linarith) hbc hce he h2 hs
  have hkc : high k < c := by
    by_contra hc
    have := k3 b c le_rfl hbc (not_lt.1 hc)
    linarith
  rcases undulates_shape h hd ha (show c ≤ hi by linarith) h1 with s | s | ⟨t, t1, t2, s1, s2⟩ | ⟨k', q1, q2, -, -, s1, s2⟩
  · exact s a b le_rfl hab hbc.le
  · have := s b c hab.le hbc le_rfl; linarith
  · exfalso
    have g1 := s2 (max t (high k)) c (le_max_left _ _) (max_lt t2 hkc) le_rfl
    have g2 := k4 (max t (high k)) c (le_max_right _ _) (max_lt t2 hkc) hce.le
    linarith
  · have hbk : b ≤ high k' := by
      by_contra hc
      have := s2 b c (not_le.1 hc).le hbc le_rfl
      linarith
    exact s1 a b le_rfl hab hbk

/-! ### the samples of the next round -/

theorem adjacent_right_unique {l : List ℝ} (hs : l.Pairwise (· < ·)) {a b b' : ℝ} (h : (a, b) ∈ adjacent l) (h' : (a, b') ∈ adjacent l) :
    b = b' := by
  rw [mem_adjacent_iff] at h h'
  obtain ⟨i, i1, i2⟩ := h
  obtain ⟨j, j1, j2⟩ := h'
  obtain ⟨li, ei⟩ := seq_of_get i1
  obtain ⟨lj, ej⟩ := seq_of_get j1
  have : i = j := by
    apply le_antisymm
    · rw [← seq_le_iff hs li lj, ei, ej]
    · rw [← seq_le_iff hs lj li, ei, ej]
  subst this
  rw [i2] at j2
  exact Option.some.inj j2

theorem adjacent_left_unique {l : List ℝ} (hs : l.Pairwise (· < ·)) {a a' b : ℝ} (h : (a, b) ∈ adjacent l) (h' : (a', b) ∈ adjacent l) :
    a = a' := by
  rw [mem_adjacent_iff] at h h'
  obtain ⟨i, i1, i2⟩ := h
  obtain ⟨j, j1, j2⟩ := h'
  obtain ⟨li, ei⟩ := seq_of_get i2
  obtain ⟨lj, ej⟩ := seq_of_get j2
  have : i + 1 = j + 1 := by
    apply le_antisymm
    · rw [← seq_le_iff hs li lj, ei, ej]
    · rw [← seq_le_iff hs lj li, ei, ej]
  have : i = j := by omega
  subst this
  rw [i1] at j1
  exact Option.some.inj j1

theorem mem_adjacent_flatMap (n : ℕ) (l : List (ℝ × ℝ)) (p : ℝ × ℝ) :
    p ∈ adjacent (l.flatMap (bracketPoints (n + 2))) ↔
      (∃ q ∈ l, p ∈ adjacent (npLinspace q.1 q.2 (n + 2))) ∨ ∃ q ∈ adjacent l, p = (q.1.2, q.2.1) := by
  induction l with
  | nil => simp [adjacent_nil]
  | cons a l ih =>
    rw [List.flatMap_cons, mem_adjacent_append, ih, bracketPoints_eq]
    cases l with
    | nil => simp [adjacent_singleton, adjacent_nil]
    | cons b l =>
      rw [adjacent_cons_cons, npLinspace_last, List.flatMap_cons, bracketPoints_eq, List.head?_append, npLinspace_head]
      simp only [List.mem_cons, exists_eq_or_imp, Option.some_or, Option.some.injEq]
      constructor
      · rintro (h | ⟨h | h⟩ | ⟨h1, h2⟩)
        · exact Or.inl (Or.inl h)
        · exact Or.inl (Or.inr (by assumption))
        · exact Or.inr (Or.inr (by assumption))
        · exact Or.inr (Or.inl (Prod.ext h1.symm h2.symm))
      · rintro ((h | h) | (h | h))
        · exact Or.inl h
        · exact Or.inr (Or.inl (Or.inl h))
        · subst h; exact Or.inr (Or.inr ⟨rfl, rfl⟩)
        · exact Or.inr (Or.inl (Or.inr h))

theorem mem_adjacent_map {α β : Type*} (g : α → β) (l : List α) (p : β × β) :
    p ∈ adjacent (l.map g) ↔ ∃ q ∈ adjacent l, p = (g q.1, g q.2) := by
  rw [mem_adjacent_iff]
  constructor
  · rintro ⟨i, h1, h2⟩
    rw [List.getElem?_map, Option.map_eq_some_iff] at h1 h2
    obtain ⟨a, a1, a2⟩ := h1
    obtain ⟨b, b1, b2⟩ := h2
    exact ⟨(a, b), (mem_adjacent_iff _ _).2 ⟨i, a1, b1⟩, Prod.ext a2.symm b2.symm⟩
  · rintro ⟨q, hq, rfl⟩
    obtain ⟨i, h1, h2⟩ := (mem_adjacent_iff _ _).1 hq
    exact ⟨i, by rw [List.getElem?_map, h1]; rfl, by rw [List.getElem?_map, h2]; rfl⟩

/-- The pairs of neighbours in the next samples. -/
theorem mem_adjacent_next (f : ℝ → ℝ) (n : ℕ) (jd : List ℝ) (p : ℝ × ℝ) :
    p ∈ adjacent (nextSamples f (n + 2) jd) ↔ p.1 ≠ p.2 ∧
      ((∃ k ∈ chooseBrackets (jd.map f), p ∈ adjacent (npLinspace (seq jd k) (seq jd (k + 1)) (n + 2))) ∨
        ∃ q ∈ adjacent (chooseBrackets (jd.map f)), p = (seq jd (q.1 + 1), seq jd q.2)) := by
  unfold nextSamples
  rw [adjacent_rad, List.mem_filter, roundBrackets_eq, mem_adjacent_flatMap]
  simp only [ne_eq, decide_not, Bool.not_eq_true', decide_eq_false_iff_not, mem_adjacent_map, List.mem_map]
  constructor
  · rintro ⟨h | h, hne⟩
    · obtain ⟨q, ⟨k, hk, rfl⟩, hq⟩ := h
      exact ⟨hne, Or.inl ⟨k, hk, hq⟩⟩
    · obtain ⟨q, ⟨r, hr, rfl⟩, rfl⟩ := h
      exact ⟨hne, Or.inr ⟨r, hr, rfl⟩⟩
  · rintro ⟨hne, h | h⟩
    · obtain ⟨k, hk, hq⟩ := h
      exact ⟨Or.inl ⟨_, ⟨k, hk, rfl⟩, hq⟩, hne⟩
    · obtain ⟨r, hr, rfl⟩ := h
      exact ⟨Or.inr ⟨_, ⟨r, hr, rfl⟩, rfl⟩, hne⟩

theorem linspace_first (a b : ℝ) (n : ℕ) : (a, a + (b - a) / (n + 1)) ∈ adjacent (npLinspace a b (n + 2)) := by
  rw [mem_adjacent_iff]
  refine ⟨0, ?_, ?_⟩
  · simp [npLinspace]
  · simp [npLinspace]; ring

theorem linspace_final (a b : ℝ) (n : ℕ) : (b - (b - a) / (n + 1), b) ∈ adjacent (npLinspace a b (n + 2)) := by
  rw [mem_adjacent_iff]
  have hn : (n : ℝ) + 1 ≠ 0 := by positivity
  refine ⟨n, ?_, ?_⟩
  · simp [npLinspace, show (n : ℝ) + 2 - 1 = n + 1 by ring]; field_simp; ring
  · simp [npLinspace, show (n : ℝ) + 2 - 1 = n + 1 by ring]; field_simp; ring

/-- The samples of a round: neighbours are `w` apart, except where the function falls before and rises after. -/
structure Spread (lo hi : ℝ) (f : ℝ → ℝ) (jd : List ℝ) (w : ℝ) : Prop where
  sorted : jd.Pairwise (· < ·)
  inside : ∀ x ∈ jd, lo ≤ x ∧ x ≤ hi
  first : ∀ a b l, jd = a :: b :: l → b - a = w
  before : ∀ a b c, (a, b) ∈ adjacent jd → (b, c) ∈ adjacent jd → c - b ≠ w → f b < f a
  after : ∀ a b c, (a, b) ∈ adjacent jd → (b, c) ∈ adjacent jd → b - a ≠ w → f b < f c

theorem seq_adjacent {jd : List ℝ} {i : ℕ} (h : i + 1 < jd.length) : (seq jd i, seq jd (i + 1)) ∈ adjacent jd :=
  (mem_adjacent_iff _ _).2 ⟨i, seq_get (by omega), seq_get h⟩

theorem seq_mem' {jd : List ℝ} {i : ℕ} (h : i < jd.length) : seq jd i ∈ jd := List.mem_of_getElem? (seq_get h)

/-- At a drop of the slope the samples are `w` apart. -/
theorem spread_drop {jd : List ℝ} {w : ℝ} (h : Spread lo hi f jd w) {i : ℕ} (hi : i ∈ flatnonzero (diffSignDiff (jd.map f)) (· < 0)) :
    i + 2 < jd.length ∧ seq jd (i + 1) - seq jd i = w ∧ seq jd (i + 2) - seq jd (i + 1) = w ∧
      npSign (f (seq jd (i + 2)) - f (seq jd (i + 1))) < npSign (f (seq jd (i + 1)) - f (seq jd i)) := by
  rw [mem_drop_indices] at hi
  obtain ⟨h1, h2⟩ := hi
  have a1 := seq_adjacent (show i + 1 < jd.length by omega)
  have a2 := seq_adjacent (show i + 1 + 1 < jd.length by omega)
  have e1 := npSign_cases (f (seq jd (i + 1)) - f (seq jd i))
  have e2 := npSign_cases (f (seq jd (i + 2)) - f (seq jd (i + 1)))
  have h2' : npSign (f (seq jd (i + 2)) - f (seq jd (i + 1))) < npSign (f (seq jd (i + 1)) - f (seq jd i)) := h2
  refine ⟨h1, ?_, ?_, h2'⟩
  · by_contra hc
    have := h.after _ _ _ a1 a2 hc
    rw [show i + 1 + 1 = i + 2 from rfl] at this
    rcases e2 with ⟨e, e'⟩ | ⟨e, e'⟩ | ⟨e, e'⟩ <;> rcases e1 with ⟨g, g'⟩ | ⟨g, g'⟩ | ⟨g, g'⟩ <;> first | omega | linarith
  · by_contra hc
    have := h.before _ _ _ a1 a2 hc
    rcases e2 with ⟨e, e'⟩ | ⟨e, e'⟩ | ⟨e, e'⟩ <;> rcases e1 with ⟨g, g'⟩ | ⟨g, g'⟩ | ⟨g, g'⟩ <;> first | omega | linarith

theorem chosen_width {jd : List ℝ} {w : ℝ} (h : Spread lo hi f jd w) {k : ℕ} (hk : k ∈ chooseBrackets (jd.map f)) :
    k + 1 < jd.length ∧ seq jd (k + 1) - seq jd k = w := by
  rw [mem_chooseBrackets] at hk
  obtain ⟨i, hi, rfl | rfl⟩ := hk
  · obtain ⟨h1, h2, -, -⟩ := spread_drop h hi
    exact ⟨by omega, h2⟩
  · obtain ⟨h1, -, h2, -⟩ := spread_drop h hi
    exact ⟨by omega, h2⟩

private theorem drop_right {x y z : ℝ} (h : npSign (f z - f y) < npSign (f y - f x)) (hn : ¬ f z < f y) : f y = f z ∧ f x < f y := by
  have e1 := npSign_cases (f y - f x)
  have e2 := npSign_cases (f z - f y)
  rcases e2 with ⟨e, e'⟩ | ⟨e, e'⟩ | ⟨e, e'⟩ <;> rcases e1 with ⟨g, g'⟩ | ⟨g, g'⟩ | ⟨g, g'⟩ <;>
    first | omega | (exact absurd (by linarith) hn) | (constructor <;> linarith)

private theorem drop_left {x y z : ℝ} (h : npSign (f z - f y) < npSign (f y - f x)) (hn : ¬ f x < f y) : f x = f y ∧ f z < f y := by
  have e1 := npSign_cases (f y - f x)
  have e2 := npSign_cases (f z - f y)
  rcases e2 with ⟨e, e'⟩ | ⟨e, e'⟩ | ⟨e, e'⟩ <;> rcases e1 with ⟨g, g'⟩ | ⟨g, g'⟩ | ⟨g, g'⟩ <;>
    first | omega | (exact absurd (by linarith) hn) | (constructor <;> linarith)

private theorem drop_of {x y z : ℝ} (h : f x ≤ f y) (h' : f z < f y) : npSign (f z - f y) < npSign (f y - f x) := by
  have e1 := npSign_cases (f y - f x)
  have e2 := npSign_cases (f z - f y)
  rcases e2 with ⟨e, e'⟩ | ⟨e, e'⟩ | ⟨e, e'⟩ <;> rcases e1 with ⟨g, g'⟩ | ⟨g, g'⟩ | ⟨g, g'⟩ <;> first | omega | linarith

private theorem drop_of' {x y z : ℝ} (h : f x < f y) (h' : f z ≤ f y) : npSign (f z - f y) < npSign (f y - f x) := by
  have e1 := npSign_cases (f y - f x)
  have e2 := npSign_cases (f z - f y)
  rcases e2 with ⟨e, e'⟩ | ⟨e, e'⟩ | ⟨e, e'⟩ <;> rcases e1 with ⟨g, g'⟩ | ⟨g, g'⟩ | ⟨g, g'⟩ <;> first | omega | linarith

/-- Where the chosen brackets leave a gap, the function falls at the end of the one before it. -/
theorem gap_before (hU : Undulates lo hi d f low high) {jd : List ℝ} {w u : ℝ} (hw : 0 < w) (hd : 2 * w ≤ d) (h : Spread lo hi f jd w)
    {j : ℕ} (hj : j ∈ chooseBrackets (jd.map f)) (hnot : j + 1 ∉ chooseBrackets (jd.map f)) (hm : j + 2 < jd.length)
    (hu : 0 < u) (huw : u ≤ w) : f (seq jd (j + 1)) < f (seq jd (j + 1) - u) := by
  obtain ⟨i, hi, hji⟩ := (mem_chooseBrackets _ _).1 hj
  have hji : j = i + 1 := by
    rcases hji with rfl | h'
    · exact absurd ((mem_chooseBrackets _ _).2 ⟨j, hi, Or.inr rfl⟩) hnot
    · exact h'
  subst hji
  obtain ⟨l1, w1, w2, hdrop⟩ := spread_drop h hi
  have in0 := h.inside _ (seq_mem' (show i < jd.length by omega))
  have in2 := h.inside _ (seq_mem' (show i + 2 < jd.length by omega))
  have in3 := h.inside _ (seq_mem' (show i + 3 < jd.length by omega))
  have hfall : f (seq jd (i + 2)) < f (seq jd (i + 1)) := by
    by_contra hc
    obtain ⟨e1, e2⟩ := drop_right hdrop hc
    have w3 : seq jd (i + 3) - seq jd (i + 2) = w := by
      by_contra hc'
      exact hc (h.before _ _ _ (seq_adjacent (show i + 1 + 1 < jd.length by omega)) (seq_adjacent (show i + 2 + 1 < jd.length by omega)) hc')
    have := undulates_level_right hU (by linarith) in0.1 (by linarith) (by linarith) (show seq jd (i + 2) < seq jd (i + 3) by linarith) in3.2
      (by linarith) (by linarith) e2 e1
    have hd2 : i + 1 ∈ flatnonzero (diffSignDiff (jd.map f)) (· < 0) := (mem_drop_indices _ _ _).2 ⟨by omega, drop_of e1.le this⟩
    exact hnot ((mem_chooseBrackets _ _).2 ⟨_, hd2, Or.inr rfl⟩)
  obtain ⟨k, k1, k2, -, -, k3, k4⟩ := undulates_drop hU (by linarith) in0.1 (by linarith) (by linarith) in2.2 (by linarith) hdrop
  rw [show i + 1 + 1 = i + 2 from rfl]
  rcases le_or_gt (high k) (seq jd (i + 2) - u) with hc | hc
  · exact k4 _ _ hc (by linarith) le_rfl
  · refine lt_of_lt_of_le hfall ?_
    rcases eq_or_lt_of_le (show seq jd (i + 1) ≤ seq jd (i + 2) - u by linarith) with e | e
    · rw [← e]
    · exact (k3 _ _ (by linarith) e hc.le).le

/-- ... and rises at the start of the one after it. -/
theorem gap_after (hU : Undulates lo hi d f low high) {jd : List ℝ} {w u : ℝ} (hw : 0 < w) (hd : 2 * w ≤ d) (h : Spread lo hi f jd w)
    {m : ℕ} (hm : m + 1 ∈ chooseBrackets (jd.map f)) (hnot : m ∉ chooseBrackets (jd.map f)) (hu : 0 < u) (huw : u ≤ w) :
    f (seq jd (m + 1)) < f (seq jd (m + 1) + u) := by
  obtain ⟨i, hi, hji⟩ := (mem_chooseBrackets _ _).1 hm
  have hji : m + 1 = i := by
    rcases hji with h' | h'
    · exact h'
    · exact absurd ((mem_chooseBrackets _ _).2 ⟨i, hi, Or.inl (by omega)⟩) hnot
  subst hji
  obtain ⟨l1, w1, w2, hdrop⟩ := spread_drop h hi
  have in0 := h.inside _ (seq_mem' (show m < jd.length by omega))
  have in1 := h.inside _ (seq_mem' (show m + 1 < jd.length by omega))
  have in3 := h.inside _ (seq_mem' (show m + 3 < jd.length by omega))
  simp only [show m + 1 + 1 = m + 2 from rfl, show m + 1 + 2 = m + 3 from rfl] at *
  have hrise : f (seq jd (m + 1)) < f (seq jd (m + 2)) := by
    by_contra hc
    obtain ⟨e1, e2⟩ := drop_left hdrop hc
    have w3 : seq jd (m + 1) - seq jd m = w := by
      by_contra hc'
      exact hc (h.after _ _ _ (seq_adjacent (show m + 1 < jd.length by omega)) (seq_adjacent (show m + 1 + 1 < jd.length by omega)) hc')
    have := undulates_level_left hU (by linarith) in0.1 (show seq jd m < seq jd (m + 1) by linarith)
      (show seq jd (m + 1) < seq jd (m + 2) by linarith) (by linarith) in3.2 (by linarith) (by linarith) e2 e1
    have hd2 : m ∈ flatnonzero (diffSignDiff (jd.map f)) (· < 0) := (mem_drop_indices _ _ _).2 ⟨by omega, drop_of' this e1.ge⟩
    exact hnot ((mem_chooseBrackets _ _).2 ⟨_, hd2, Or.inl rfl⟩)
  obtain ⟨k, k1, k2, -, -, k3, k4⟩ := undulates_drop hU (by linarith) in1.1 (by linarith) (by linarith) in3.2 (by linarith) hdrop
  rcases le_or_gt (seq jd (m + 1) + u) (high k) with hc | hc
  · exact k3 _ _ le_rfl (by linarith) hc
  · refine lt_of_lt_of_le hrise ?_
    rcases eq_or_lt_of_le (show seq jd (m + 1) + u ≤ seq jd (m + 2) by linarith) with e | e
    · rw [← e]
    · exact (k4 _ _ hc.le e (by linarith)).le

/-- The samples of the next round are spread in the same way, `num - 1` times closer. -/
theorem spread_next (hU : Undulates lo hi d f low high) {jd : List ℝ} {w : ℝ} (hw : 0 < w) (hd : 2 * w ≤ d) (h : Spread lo hi f jd w)
    (n : ℕ) : Spread lo hi f (nextSamples f (n + 2) jd) (w / (n + 1)) := by
  have hn : (0 : ℝ) < n + 1 := by positivity
  have hu : 0 < w / (n + 1) := by positivity
  have huw : w / (n + 1) ≤ w := div_le_self hw.le (by linarith [(Nat.cast_nonneg n : (0 : ℝ) ≤ n)])
  have hs' := nextSamples_sorted f n jd h.sorted
  have hpre : ∀ k ∈ chooseBrackets (jd.map f), (seq jd (k + 1) - w / (n + 1), seq jd (k + 1)) ∈ adjacent (nextSamples f (n + 2) jd) := by
    intro k hk
    rw [mem_adjacent_next]
    refine ⟨by simp only; linarith, Or.inl ⟨k, hk, ?_⟩⟩
    rw [← (chosen_width h hk).2]
    exact linspace_final _ _ _
  have hpost : ∀ k ∈ chooseBrackets (jd.map f), (seq jd k, seq jd k + w / (n + 1)) ∈ adjacent (nextSamples f (n + 2) jd) := by
    intro k hk
    rw [mem_adjacent_next]
    refine ⟨by simp only; linarith, Or.inl ⟨k, hk, ?_⟩⟩
    rw [← (chosen_width h hk).2]
    exact linspace_first _ _ _
  have hclass : ∀ a b, (a, b) ∈ adjacent (nextSamples f (n + 2) jd) → b - a ≠ w / (n + 1) →
      ∃ j m, j ∈ chooseBrackets (jd.map f) ∧ j + 1 ∉ chooseBrackets (jd.map f) ∧ m + 1 ∈ chooseBrackets (jd.map f) ∧
        m ∉ chooseBrackets (jd.map f) ∧ a = seq jd (j + 1) ∧ b = seq jd (m + 1) ∧ j + 2 < jd.length := by
    intro a b hab hne
    rw [mem_adjacent_next] at hab
    obtain ⟨hne', ⟨k, hk, hp⟩ | ⟨⟨j, m⟩, hq, e⟩⟩ := hab
    · exfalso
      apply hne
      have := npLinspace_adjacent _ _ _ _ hp
      push_cast at this
      rw [(chosen_width h hk).2, show (n : ℝ) + 2 - 1 = n + 1 by ring] at this
      exact this
    · obtain ⟨g1, g2⟩ := mem_adjacent_sorted_gap (chooseBrackets_sorted _) hq
      obtain ⟨q1, q2⟩ := adjacent_mem hq
      simp only [Prod.mk.injEq] at g1 g2 q1 q2 e
      obtain ⟨rfl, rfl⟩ := e
      have hjm : j + 1 ≠ m := by rintro rfl; exact hne' rfl
      have hlen := (chosen_width h q2).1
      refine ⟨j, m - 1, q1, ?_, ?_, ?_, rfl, ?_, by omega⟩
      · intro hc; have := g2 _ hc; omega
      · rwa [show m - 1 + 1 = m by omega]
      · intro hc; have := g2 _ hc; omega
      · rw [show m - 1 + 1 = m by omega]
  refine ⟨hs', ?_, ?_, ?_, ?_⟩
  · intro x hx
    unfold nextSamples at hx
    rw [mem_rad, roundBrackets_eq, List.mem_flatMap] at hx
    obtain ⟨q, hq, hx⟩ := hx
    rw [List.mem_map] at hq
    obtain ⟨k, hk, rfl⟩ := hq
    rw [bracketPoints_eq] at hx
    obtain ⟨l1, l2⟩ := chosen_width h hk
    have := npLinspace_mem _ _ n (by linarith) x hx
    have i1 := h.inside _ (seq_mem' (show k < jd.length by omega))
    have i2 := h.inside _ (seq_mem' l1)
    exact ⟨by linarith, by linarith⟩
  · intro a b l e
    by_contra hc
    have hab : (a, b) ∈ adjacent (nextSamples f (n + 2) jd) := by rw [e, adjacent_cons_cons]; exact List.mem_cons_self
    obtain ⟨j, m, j1, -, -, -, rfl, -, -⟩ := hclass a b hab hc
    have := (adjacent_mem (hpre j j1)).1
    rw [e] at this hs'
    rcases List.mem_cons.1 this with h' | h'
    · linarith
    · have := (List.pairwise_cons.1 hs').1 _ h'
      linarith
  · intro a b c hab hbc hne
    obtain ⟨j, m, j1, j2, -, -, rfl, -, j3⟩ := hclass b c hbc hne
    rw [adjacent_left_unique hs' hab (hpre j j1)]
    exact gap_before hU hw hd h j1 j2 j3 hu huw
  · intro a b c hab hbc hne
    obtain ⟨j, m, -, -, m1, m2, -, rfl, -⟩ := hclass a b hab hne
    rw [adjacent_right_unique hs' hbc (hpost _ m1)]
    exact gap_after hU hw hd h m1 m2 hu huw

/-! ### the last round -/

/-- `t` and `v` as read off the samples from `i` to `j`. -/
structure SeenAt (f : ℝ → ℝ) (jd : List ℝ) (i j : ℕ) (t v : ℝ) : Prop where
  len : j < jd.length
  lt : i + 1 < j
  left : f (seq jd i) < v
  right : f (seq jd j) < v
  level : ∀ k, i < k → k < j → f (seq jd k) = v
  time : t = if j = i + 2 then seq jd (i + 1) else (seq jd i + seq jd j) / 2

theorem looks_iff (f : ℝ → ℝ) (jd : List ℝ) (t v : ℝ) : LooksLikeMaximum f jd t v ↔ ∃ i j, SeenAt f jd i j t v := by
  constructor
  · rintro ⟨i, j, a, b, ha, hb, hij, h1, h2, h3, h4⟩
    obtain ⟨li, rfl⟩ := seq_of_get ha
    obtain ⟨lj, rfl⟩ := seq_of_get hb
    refine ⟨i, j, lj, hij, h1, h2, fun k k1 k2 => h3 k _ k1 k2 (seq_get (by omega)), ?_⟩
    rcases h4 with ⟨e, ht⟩ | ⟨e, ht⟩
    · rw [if_pos e, (seq_of_get ht).2]
    · rw [if_neg (by omega), ht]
  · rintro ⟨i, j, h⟩
    have := h.lt
    have hl := h.len
    refine ⟨i, j, _, _, seq_get (by omega), seq_get h.len, h.lt, h.left, h.right, ?_, ?_⟩
    · intro k m k1 k2 hm
      rw [← (seq_of_get hm).2]
      exact h.level k k1 k2
    · by_cases e : j = i + 2
      · left
        refine ⟨e, ?_⟩
        rw [h.time, if_pos e]
        exact seq_get (by omega)
      · right
        refine ⟨by omega, ?_⟩
        rw [h.time, if_neg e]

theorem seen_unique {jd : List ℝ} (hs : jd.Pairwise (· < ·)) {i j i' j' : ℕ} {t v t' v' p : ℝ} (h : SeenAt f jd i j t v)
    (h' : SeenAt f jd i' j' t' v') (h1 : seq jd i < p) (h2 : p < seq jd j) (h3 : seq jd i' < p) (h4 : p < seq jd j') :
    t = t' ∧ v = v' := by
  have key : ∀ {i j i' j' : ℕ} {t v t' v' : ℝ}, SeenAt f jd i j t v → SeenAt f jd i' j' t' v' → p < seq jd j → seq jd i' < p → ¬ i < i' := by
    intro i j i' j' t v t' v' h h' h2 h3 hlt
    have hl := h.len
    have hl' := h'.len
    have g1 := h.lt
    have g1' := h'.lt
    have hij : i' < j := by rw [← seq_lt_iff hs (by omega) h.len]; linarith
    have e1 := h.level i' hlt hij
    have e2 := h'.left
    have e3 := h'.level (i' + 1) (by omega) (by omega)
    rcases Nat.lt_or_ge (i' + 1) j with c | c
    · have := h.level (i' + 1) (by omega) c
      linarith
    · have e4 := h.right
      rw [show j = i' + 1 by omega] at e4
      linarith
  have hii : i = i' := by
    have := key h h' h2 h3
    have := key h' h h4 h1
    omega
  subst hii
  have g1 := h.lt
  have g1' := h'.lt
  have e1 := h.level (i + 1) (by omega) (by omega)
  have e2 := h'.level (i + 1) (by omega) (by omega)
  have hv : v = v' := by linarith
  subst hv
  have hjj : j = j' := by
    rcases Nat.lt_trichotomy j j' with c | c | c
    · have := h'.level j (by omega) c
      have := h.right
      linarith
    · exact c
    · have := h.level j' (by omega) c
      have := h'.right
      linarith
  subst hjj
  exact ⟨by rw [h.time, h'.time], rfl⟩

/-- What is seen as a maximum is a top of the function. -/
theorem seen_top (hU : Undulates lo hi d f low high) {jd : List ℝ} {w : ℝ} (hw : 0 < w) (hd : 2 * w ≤ d) (h : Spread lo hi f jd w)
    {i j : ℕ} {t v : ℝ} (hv : SeenAt f jd i j t v) :
    ∃ k, seq jd i < high k ∧ high k < seq jd j ∧ |t - high k| ≤ w ∧ v ≤ f (high k) ∧
      ∀ x, lo ≤ x → x ≤ hi → low k ≤ x → x ≤ low (k + 1) → w ≤ |x - high k| → f x ≤ v := by
  have hl := hv.len
  have hij := hv.lt
  have e1 := hv.level (i + 1) (by omega) (by omega)
  have e0 := hv.left
  have ej := hv.right
  have le2 : f (seq jd (i + 2)) ≤ v := by
    rcases Nat.lt_or_ge (i + 2) j with c | c
    · exact (hv.level (i + 2) (by omega) c).le
    · rw [show i + 2 = j by omega]; exact ej.le
  have hdr : i ∈ flatnonzero (diffSignDiff (jd.map f)) (· < 0) :=
    (mem_drop_indices _ _ _).2 ⟨by omega, drop_of' (by rw [e1]; exact e0) (by rw [e1]; exact le2)⟩
  obtain ⟨l1, w1, w2, hdrop⟩ := spread_drop h hdr
  have in0 := h.inside _ (seq_mem' (show i < jd.length by omega))
  have in2 := h.inside _ (seq_mem' (show i + 2 < jd.length by omega))
  obtain ⟨k, k1, k2, k5, k6, k3, k4⟩ := undulates_drop hU (by linarith) in0.1 (by linarith) (by linarith) in2.2 (by linarith) hdrop
  have top : f (seq jd (i + 1)) ≤ f (high k) := by
    rcases lt_trichotomy (seq jd (i + 1)) (high k) with c | c | c
    · exact (k3 _ _ (by linarith) c le_rfl).le
    · rw [c]
    · exact (k4 _ _ le_rfl c (by linarith)).le
  have upto : ∀ x y, lo ≤ x → low k ≤ x → x ≤ y → y ≤ high k → f x ≤ f y := by
    intro x y h1 h2 h3 h4
    rcases eq_or_lt_of_le h3 with e | e
    · rw [e]
    · exact (undulates_up hU k h1 (show high k ≤ hi by linarith) h2 le_rfl _ _ le_rfl e h4).le
  have downto : ∀ x y, x ≤ hi → x ≤ low (k + 1) → y ≤ x → high k ≤ y → f x ≤ f y := by
    intro x y h1 h2 h3 h4
    rcases eq_or_lt_of_le h3 with e | e
    · rw [e]
    · exact (undulates_down hU k (show lo ≤ high k by linarith) h1 le_rfl h2 _ _ h4 e le_rfl).le
  refine ⟨k, k1, ?_⟩
  by_cases hj : j = i + 2
  · subst hj
    have ht := hv.time
    rw [if_pos rfl] at ht
    refine ⟨k2, ?_, by rw [← e1]; exact top, ?_⟩
    · rw [ht, abs_le]; constructor <;> linarith
    · intro x x1 x2 x3 x4 x5
      rcases le_abs.1 x5 with c | c
      · rcases le_or_gt (high k) (seq jd (i + 1)) with c' | c'
        · rw [← e1]; exact downto _ _ x2 x4 (by linarith) c'
        · exact le_trans (downto _ (seq jd (i + 2)) x2 x4 (by linarith) (by linarith)) ej.le
      · rcases le_or_gt (seq jd (i + 1)) (high k) with c' | c'
        · rw [← e1]; exact upto _ _ x1 x3 (by linarith) c'
        · exact le_trans (upto _ (seq jd i) x1 x3 (by linarith) (by linarith)) e0.le
  · have e2 := hv.level (i + 2) (by omega) (by omega)
    have in3 := h.inside _ (seq_mem' (show i + 3 < jd.length by omega))
    have w3 : seq jd (i + 3) - seq jd (i + 2) = w := by
      by_contra hc'
      have := h.before _ _ _ (seq_adjacent (show i + 1 + 1 < jd.length by omega)) (seq_adjacent (show i + 2 + 1 < jd.length by omega)) hc'
      rw [show i + 1 + 1 = i + 2 from rfl] at this
      linarith
    have h3 := undulates_level_right hU (by linarith) in0.1 (by linarith) (by linarith) (show seq jd (i + 2) < seq jd (i + 3) by linarith) in3.2
      (by linarith) (by linarith) (by linarith) (show f (seq jd (i + 1)) = f (seq jd (i + 2)) by linarith)
    have hj3 : j = i + 3 := by
      by_contra hc
      have := hv.level (i + 3) (by omega) (by omega)
      linarith
    subst hj3
    have ht := hv.time
    rw [if_neg (by omega)] at ht
    have p1 : seq jd (i + 1) < high k := by
      by_contra hc
      have := k4 (seq jd (i + 1)) (seq jd (i + 2)) (not_lt.1 hc) (by linarith) le_rfl
      linarith
    refine ⟨by linarith, ?_, by rw [← e1]; exact top, ?_⟩
    · rw [ht, abs_le]; constructor <;> linarith
    · intro x x1 x2 x3 x4 x5
      rcases le_abs.1 x5 with c | c
      · rw [← e2]; exact downto _ _ x2 x4 (by linarith) k2.le
      · rw [← e1]; exact upto _ _ x1 x3 (by linarith) p1.le

end Skyfield
