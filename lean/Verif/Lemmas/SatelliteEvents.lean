import Verif.Model.SatelliteEvents
import Verif.Props.Search
import Mathlib.Data.List.Sort

/-! Lemmas for the search for the passes of a satellite: what a discrete search keeps at each of its
initial samples. -/
namespace Skyfield
set_option linter.unusedSectionVars false
variable {K : Type*} [Field K] [LinearOrder K] [IsStrictOrderedRing K] [FloorRing K]
variable {V : Type*} [DecidableEq V]

theorem Good.le {f : K → V} {lo hi : K} {bs : List (K × K)} (h : Good f lo hi bs) : lo ≤ hi := by
  induction bs generalizing lo with
  | nil => exact h.1
  | cons b bs ih => exact le_trans h.1 (le_trans h.2.2.1.le (ih h.2.2.2.2))

/-- After the last bracket the function keeps its value. -/
theorem Good.last {f : K → V} {lo hi : K} {bs : List (K × K)} (h : Good f lo hi bs) (b : K × K) (hb : b ∈ bs)
    (hmax : ∀ c ∈ bs, c.2 ≤ b.2) : f b.2 = f hi := by
  induction bs generalizing lo with
  | nil => simp at hb
  | cons a bs ih =>
    cases bs with
    | nil =>
      rw [List.mem_singleton] at hb
      subst hb
      exact h.2.2.2.2.2
    | cons c bs =>
      rcases List.mem_cons.1 hb with rfl | hb
      · have := h.2.2.2.2.mem List.mem_cons_self
        have h2 := hmax c (by simp)
        exact absurd (lt_of_le_of_lt this.1 this.2.1) (not_lt.2 h2)
      · exact ih h.2.2.2.2 hb fun d hd => hmax d (List.mem_cons_of_mem _ hd)

/-- Before the first bracket the function keeps its value. -/
theorem Good.first {f : K → V} {lo hi : K} {bs : List (K × K)} (h : Good f lo hi bs) (b : K × K) (hb : b ∈ bs)
    (hmin : ∀ c ∈ bs, b.2 ≤ c.2) : f lo = f b.1 := by
  cases bs with
  | nil => simp at hb
  | cons a bs =>
    rcases List.mem_cons.1 hb with rfl | hb
    · exact h.2.1
    · have := h.2.2.2.2.mem hb
      exact absurd (lt_of_le_of_lt this.1 this.2.1) (not_lt.2 (hmin a List.mem_cons_self))

theorem Good.none_iff {f : K → V} {lo hi : K} {bs : List (K × K)} (h : Good f lo hi bs) (hb : bs = []) :
    f lo = f hi := by
  subst hb
  exact h.2

/-- The ends of the brackets increase. -/
theorem Good.increasing {f : K → V} {lo hi : K} {bs : List (K × K)} (h : Good f lo hi bs) :
    bs.Pairwise (fun a b => a.2 < b.2) := by
  induction bs generalizing lo with
  | nil => exact List.Pairwise.nil
  | cons b bs ih =>
    refine List.Pairwise.cons ?_ (ih h.2.2.2.2)
    intro c hc
    have := h.2.2.2.2.mem hc
    exact lt_of_le_of_lt this.1 this.2.1

/-- Neighbouring brackets announce different values. -/
theorem Good.neighbours {f : K → V} {lo hi : K} {bs : List (K × K)} (h : Good f lo hi bs) (b : K × K) (hb : b ∈ bs)
    (c : K × K) (hc : c ∈ bs) (hlt : b.2 < c.2) (hno : ∀ d ∈ bs, ¬(b.2 < d.2 ∧ d.2 < c.2)) : f b.2 ≠ f c.2 := by
  induction bs generalizing lo with
  | nil => simp at hb
  | cons a bs ih =>
    have hinc := h.increasing
    rcases List.mem_cons.1 hb with rfl | hb'
    · rcases List.mem_cons.1 hc with rfl | hc
      · exact absurd hlt (lt_irrefl _)
      · have := h.2.2.2.2.first c hc fun d hd => by
          by_contra hcd
          exact hno d (List.mem_cons_of_mem _ hd) ⟨(List.pairwise_cons.1 hinc).1 d hd, not_le.1 hcd⟩
        rw [this]
        exact (h.2.2.2.2.mem hc).2.2.2
    · rcases List.mem_cons.1 hc with rfl | hc'
      · exact absurd hlt (not_lt.2 ((List.pairwise_cons.1 hinc).1 b hb').le)
      · exact ih h.2.2.2.2 hb' hc' fun d hd => hno d (List.mem_cons_of_mem _ hd)

/-- The brackets respect the moment `x`: some end before it, the others start after it, and the value at
`x` is the one they announce. -/
def Through (f : K → V) (lo hi x : K) (bs : List (K × K)) : Prop :=
  ∃ bs1 bs2, bs = bs1 ++ bs2 ∧ Good f lo x bs1 ∧ Good f x hi bs2

theorem changes_append_same (f : K → V) (l1 l2 : List K)
    (h : ∀ u w, l1.getLast? = some u → l2.head? = some w → f u = f w) :
    changes f (l1 ++ l2) = changes f l1 ++ changes f l2 := by
  induction l1 with
  | nil => simp [changes, adjacent]
  | cons a l1 ih =>
    cases l1 with
    | nil =>
      cases l2 with
      | nil => simp [changes, adjacent]
      | cons b l2 =>
        have := h a b rfl rfl
        rw [List.singleton_append, changes_cons_cons, if_neg (by simpa using this)]
        simp [changes, adjacent]
    | cons b l1 =>
      have := ih (fun u w hu hw => h u w (by rw [List.getLast?_cons_cons]; exact hu) hw)
      rw [List.cons_append, List.cons_append, changes_cons_cons, changes_cons_cons, ← List.cons_append, this]
      split
      · rfl
      · rfl

theorem changes_split (f : K → V) (p : List K) (x : K) (q : List K) :
    changes f (p ++ x :: q) = changes f (p ++ [x]) ++ changes f (x :: q) := by
  induction p with
  | nil => simp [changes, adjacent]
  | cons a p ih =>
    cases p with
    | nil =>
      rw [List.cons_append, List.nil_append, changes_cons_cons, List.cons_append, List.nil_append, changes_cons_cons]
      split
      · simp [changes, adjacent]
      · simp [changes, adjacent]
    | cons b p =>
      simp only [List.cons_append] at ih ⊢
      rw [changes_cons_cons, changes_cons_cons, ih]
      split
      · rfl
      · rfl

/-- The changes between sorted samples respect every sample. -/
theorem through_samples (f : K → V) (jd : List K) (hs : jd.Pairwise (· ≤ ·)) (lo hi : K) (h0 : jd.head? = some lo)
    (h1 : jd.getLast? = some hi) (x : K) (hx : x ∈ jd) : Through f lo hi x (changes f jd) := by
  obtain ⟨p, q, rfl⟩ := List.append_of_mem hx
  refine ⟨_, _, changes_split f p x q, ?_, ?_⟩
  · have hsp : (p ++ [x]).Pairwise (· ≤ ·) := by
      refine List.Pairwise.sublist ?_ hs
      exact List.Sublist.append_left (List.Sublist.cons_cons x (List.nil_sublist q)) p
    cases p with
    | nil =>
      rw [List.nil_append, List.head?_cons, Option.some.injEq] at h0
      subst h0
      exact ⟨le_refl _, rfl⟩
    | cons a p =>
      rw [List.cons_append, List.head?_cons, Option.some.injEq] at h0
      subst h0
      have := good_changes f a (p ++ [x]) hsp
      simpa using this
  · have hsq : (x :: q).Pairwise (· ≤ ·) := hs.sublist (List.sublist_append_right p _)
    have := good_changes f x q hsq
    rw [List.getLast?_append, List.getLast?_eq_getLast_of_ne_nil (by simp : x :: q ≠ []), Option.some_or,
      Option.some.injEq] at h1
    rwa [h1] at this

theorem flatMap_eq_nil_of {n : ℕ} {bs : List (K × K)} (h : bs.flatMap (bracketPoints (n + 2)) = []) : bs = [] := by
  cases bs with
  | nil => rfl
  | cons b bs =>
    obtain ⟨l, hl⟩ := refine_head n b bs
    rw [hl] at h
    simp at h

theorem good_refine' {f : K → V} {lo hi : K} (n : ℕ) {bs : List (K × K)} (h : Good f lo hi bs) :
    Good f lo hi (changes f (bs.flatMap (bracketPoints (n + 2)))) := by
  cases bs with
  | nil => exact h
  | cons b bs => exact good_refine n h (by simp)

/-- Refining keeps that. -/
theorem through_refine {f : K → V} {lo hi x : K} (n : ℕ) {bs : List (K × K)} (h : Through f lo hi x bs) :
    Through f lo hi x (changes f (bs.flatMap (bracketPoints (n + 2)))) := by
  obtain ⟨bs1, bs2, rfl, g1, g2⟩ := h
  refine ⟨_, _, ?_, good_refine' n g1, good_refine' n g2⟩
  rw [List.flatMap_append]
  apply changes_append_same
  intro u w hu hw
  have h1 := (refine_last n g1 u hu).1
  cases bs2 with
  | nil => simp at hw
  | cons b bs2 =>
    obtain ⟨l, hl⟩ := refine_head n b bs2
    rw [hl, List.head?_cons, Option.some.injEq] at hw
    rw [h1, g2.2.1, hw]

/-- What the loop guarantees at each initial sample. -/
theorem discreteLoop_through (f : K → V) (epsilon lo hi : K) (n : ℕ) (fuel : ℕ) (jd : List K)
    (events : List (K × V)) (hg : Good f lo hi (changes f jd))
    (h : discreteLoop f epsilon (n + 2) fuel jd = some events) :
    ∃ bs, Good f lo hi bs ∧ events = bs.map (fun b => (b.2, f b.2)) ∧
      (∀ b ∈ bs, b.2 - b.1 ≤ epsilon) ∧ (∀ x, Through f lo hi x (changes f jd) → Through f lo hi x bs) := by
  induction fuel generalizing jd with
  | zero => simp [discreteLoop] at h
  | succ fuel ih =>
    unfold discreteLoop discreteRound at h
    by_cases h0 : changes f jd = []
    · simp only [h0, if_true] at h
      rw [h0] at hg
      simp only [Option.some.injEq] at h
      subst h
      exact ⟨[], hg, rfl, by simp, by simp [h0]⟩
    · by_cases h1 : (changes f jd).all fun b => b.2 - b.1 ≤ epsilon
      · simp only [if_neg h0, if_pos h1, Option.some.injEq] at h
        refine ⟨changes f jd, hg, h.symm, ?_, fun x hx => hx⟩
        intro b hb
        simpa using List.all_eq_true.1 h1 b hb
      · simp only [if_neg h0, if_neg h1] at h
        obtain ⟨bs, a1, a2, a3, a4⟩ := ih _ (good_refine n hg h0) h
        exact ⟨bs, a1, a2, a3, fun x hx => a4 x (through_refine n hx)⟩

/-- Widths after one refinement, as an upper bound. -/
theorem refine_width_le {f : K → V} {lo hi w : K} (n : ℕ) {bs : List (K × K)}
    (h : Good f lo hi bs) (hw : ∀ b ∈ bs, b.2 - b.1 ≤ w) :
    ∀ b ∈ changes f (bs.flatMap (bracketPoints (n + 2))), b.2 - b.1 ≤ w / (n + 1) := by
  have key : ∀ (bs : List (K × K)) lo, Good f lo hi bs → (∀ b ∈ bs, b.2 - b.1 ≤ w) →
      ∀ b ∈ adjacent (bs.flatMap (bracketPoints (n + 2))), f b.1 ≠ f b.2 → b.2 - b.1 ≤ w / (n + 1) := by
    intro bs
    induction bs with
    | nil => intro lo _ _ b hb; simp [adjacent_nil] at hb
    | cons c bs ih =>
      intro lo h hw b hb hf
      rw [List.flatMap_cons, show c = (c.1, c.2) from rfl, bracketPoints_eq, mem_adjacent_append] at hb
      rcases hb with hb | hb | ⟨h1, h2⟩
      · have h3 := npLinspace_adjacent _ _ _ _ hb
        have hc := hw c List.mem_cons_self
        have e : (((n + 2 : ℕ) : K) - 1) = n + 1 := by push_cast; ring
        rw [h3, e]
        have hn : (0 : K) < n + 1 := by positivity
        exact div_le_div_of_nonneg_right hc hn.le
      · exact ih _ h.2.2.2.2 (fun d hd => hw d (List.mem_cons_of_mem _ hd)) b hb hf
      · rw [npLinspace_last, Option.some.injEq] at h1
        cases bs with
        | nil => simp at h2
        | cons d bs =>
          obtain ⟨l, hl⟩ := refine_head n d bs
          rw [hl, List.head?_cons, Option.some.injEq] at h2
          exact absurd (by rw [← h1, ← h2]; exact h.2.2.2.2.2.1) hf
  intro b hb
  unfold changes at hb
  rw [List.mem_filter] at hb
  exact key bs lo h hw b hb.1 (by simpa using hb.2)

theorem discreteLoop_stops_le (f : K → V) (epsilon lo hi w : K) (n k : ℕ) (jd : List K)
    (hg : Good f lo hi (changes f jd)) (hw : ∀ b ∈ changes f jd, b.2 - b.1 ≤ w)
    (hk : w ≤ epsilon * (n + 1) ^ k) :
    ∃ events, discreteLoop f epsilon (n + 2) (k + 1) jd = some events := by
  induction k generalizing jd w with
  | zero =>
    unfold discreteLoop discreteRound
    by_cases h0 : changes f jd = []
    · simp [h0]
    · have : ((changes f jd).all fun b => b.2 - b.1 ≤ epsilon) = true := by
        rw [List.all_eq_true]
        intro b hb
        rw [pow_zero, mul_one] at hk
        simpa using le_trans (hw b hb) hk
      simp only [if_neg h0, if_pos this]
      exact ⟨_, rfl⟩
  | succ k ih =>
    unfold discreteLoop
    cases hr : discreteRound f epsilon (n + 2) jd with
    | inl events => exact ⟨events, rfl⟩
    | inr jd' =>
      simp only
      unfold discreteRound at hr
      by_cases h0 : changes f jd = []
      · simp [h0] at hr
      · by_cases h1 : (changes f jd).all fun b => b.2 - b.1 ≤ epsilon
        · simp only [if_neg h0, if_pos h1] at hr
          exact absurd hr (by simp)
        · simp only [if_neg h0, if_neg h1, Sum.inr.injEq] at hr
          subst hr
          refine ih (w / (n + 1)) _ (good_refine n hg h0) (refine_width_le n hg hw) ?_
          have hn : (0 : K) < n + 1 := by positivity
          rw [div_le_iff₀ hn]
          calc w ≤ _ := hk
            _ = _ := by rw [pow_succ]; ring

/-! ### The samples between culminations -/

theorem crossingSamples_nil (a b : K) : crossingSamples a [] b = [a, (a + b) / 2, b] := by
  simp [crossingSamples]

theorem crossingSamples_cons (a m b : K) (ms : List K) :
    crossingSamples a (m :: ms) b = a :: (a + m) / 2 :: crossingSamples m ms b := by
  simp [crossingSamples, List.dropLast]

theorem crossingSamples_head (a b : K) (ms : List K) : (crossingSamples a ms b).head? = some a := by
  cases ms with
  | nil => simp [crossingSamples_nil]
  | cons m ms => simp [crossingSamples_cons]

theorem crossingSamples_last (a b : K) (ms : List K) : (crossingSamples a ms b).getLast? = some b := by
  induction ms generalizing a with
  | nil => simp [crossingSamples_nil]
  | cons m ms ih =>
    rw [crossingSamples_cons]
    have := ih m
    cases h : crossingSamples m ms b with
    | nil => rw [h] at this; simp at this
    | cons x l => rw [h] at this; rw [List.getLast?_cons_cons, List.getLast?_cons_cons]; exact this

theorem crossingSamples_mem (a b x : K) (ms : List K) (hx : x ∈ ms) : x ∈ crossingSamples a ms b := by
  induction ms generalizing a with
  | nil => simp at hx
  | cons m ms ih =>
    rw [crossingSamples_cons]
    rcases List.mem_cons.1 hx with rfl | hx
    · have := crossingSamples_head x b ms
      exact List.mem_cons_of_mem _ (List.mem_cons_of_mem _ (List.mem_of_mem_head? this))
    · exact List.mem_cons_of_mem _ (List.mem_cons_of_mem _ (ih m hx))

/-- The middle between neighbours is a sample. -/
theorem crossingSamples_middle (a b : K) (ms : List K) (p : K × K) (hp : p ∈ adjacent (a :: (ms ++ [b]))) :
    (p.1 + p.2) / 2 ∈ crossingSamples a ms b := by
  induction ms generalizing a with
  | nil =>
    simp [adjacent] at hp
    subst hp
    simp [crossingSamples_nil]
  | cons m ms ih =>
    rw [List.cons_append, adjacent_cons_cons, List.mem_cons] at hp
    rw [crossingSamples_cons]
    rcases hp with rfl | hp
    · simp
    · exact List.mem_cons_of_mem _ (List.mem_cons_of_mem _ (ih m hp))

theorem crossingSamples_sorted (a b : K) (ms : List K) (h : (a :: (ms ++ [b])).Pairwise (· ≤ ·)) :
    (crossingSamples a ms b).Pairwise (· ≤ ·) ∧ ∀ x ∈ crossingSamples a ms b, a ≤ x ∧ x ≤ b := by
  induction ms generalizing a with
  | nil =>
    have hab : a ≤ b := by simpa using h
    rw [crossingSamples_nil]
    have h1 : a ≤ (a + b) / 2 := by linarith
    have h2 : (a + b) / 2 ≤ b := by linarith
    simp [hab, h1, h2]
  | cons m ms ih =>
    obtain ⟨h1, h2⟩ := List.pairwise_cons.1 h
    obtain ⟨i1, i2⟩ := ih m h2
    have ham : a ≤ m := h1 m (by simp)
    have hmb : m ≤ b := (List.pairwise_cons.1 h2).1 b (by simp)
    have e1 : a ≤ (a + m) / 2 := by linarith
    have e2 : (a + m) / 2 ≤ m := by linarith
    rw [crossingSamples_cons]
    constructor
    · refine List.Pairwise.cons ?_ (List.Pairwise.cons ?_ i1)
      · intro x hx
        rcases List.mem_cons.1 hx with rfl | hx
        · exact e1
        · exact le_trans ham (i2 x hx).1
      · intro x hx
        exact le_trans e2 (i2 x hx).1
    · intro x hx
      rcases List.mem_cons.1 hx with rfl | hx
      · exact ⟨le_refl _, le_trans ham hmb⟩
      · rcases List.mem_cons.1 hx with rfl | hx
        · exact ⟨e1, le_trans e2 hmb⟩
        · exact ⟨le_trans ham (i2 x hx).1, (i2 x hx).2⟩

end Skyfield
