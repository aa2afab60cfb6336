import Verif.Props.Search
import Verif.Spec.Sectors
import Mathlib.Analysis.Real.Pi.Bounds
import Mathlib.Topology.Order.IntermediateValue
import Mathlib.Topology.Algebra.Order.Field

/-
C115, first part: a search of the part of a turn an angle is in reports every boundary the angle passes.
-/
namespace Skyfield
open _root_.Spec Real
set_option linter.unusedSectionVars false

variable {V : Type*} [DecidableEq V]

/-- "The moment `c` lies between `a` and `b`", up to which ends belong. -/
structure Between (H : ℝ → ℝ → ℝ → Prop) : Prop where
  lt : ∀ a c b, H a c b → a < b
  le : ∀ a c b, H a c b → a ≤ c ∧ c ≤ b
  split : ∀ a c b x, H a c b → a ≤ x → x ≤ b → H a c x ∨ H x c b
  mono : ∀ a a' c b b', a' ≤ a → b ≤ b' → H a c b → H a' c b'
  once : ∀ a c b b', H a c b → ¬ H b c b'

private theorem in_adjacent {H : ℝ → ℝ → ℝ → Prop} (hH : Between H) {c : ℝ} (l : List ℝ) (a b : ℝ) (hs : l.Pairwise (· ≤ ·))
    (ha : l.head? = some a) (hb : l.getLast? = some b) (h : H a c b) : ∃ p ∈ adjacent l, H p.1 c p.2 := by
  induction l generalizing a with
  | nil => simp at ha
  | cons x l ih =>
    simp only [List.head?_cons, Option.some.injEq] at ha
    subst ha
    cases l with
    | nil =>
      simp only [List.getLast?_singleton, Option.some.injEq] at hb
      subst hb
      exact absurd (hH.lt _ _ _ h) (lt_irrefl _)
    | cons y l =>
      obtain ⟨h1, h2⟩ := List.pairwise_cons.1 hs
      have hb' : (y :: l).getLast? = some b := by rw [← hb, List.getLast?_cons_cons]
      have hyb : y ≤ b := by
        rcases List.mem_cons.1 (List.mem_of_getLast? hb') with e | e
        · exact e.ge
        · exact (List.pairwise_cons.1 h2).1 b e
      rw [adjacent_cons_cons]
      rcases hH.split _ _ _ y h (h1 y List.mem_cons_self) hyb with e | e
      · exact ⟨(x, y), List.mem_cons_self, e⟩
      · obtain ⟨p, hp, hp'⟩ := ih y h2 rfl hb' e
        exact ⟨p, List.mem_cons_of_mem _ hp, hp'⟩

private theorem adjacent_flatMap {α β : Type*} (g : α → List β) (l : List α) (b : α) (hb : b ∈ l) (p : β × β) (hp : p ∈ adjacent (g b)) :
    p ∈ adjacent (l.flatMap g) := by
  induction l with
  | nil => simp at hb
  | cons a l ih =>
    rw [List.flatMap_cons, mem_adjacent_append]
    rcases List.mem_cons.1 hb with rfl | hb
    · exact Or.inl hp
    · exact Or.inr (Or.inl (ih hb))

private theorem loop_all {H : ℝ → ℝ → ℝ → Prop} (hH : Between H) (f : ℝ → V) (epsilon lo hi step w : ℝ) (n : ℕ)
    (hchange : ∀ a b, lo ≤ a → b ≤ hi → b - a < step → (∃ c, H a c b) → f a ≠ f b) (fuel : ℕ) (jd : List ℝ) (events : List (ℝ × V))
    (hg : Good f lo hi (changes f jd)) (hw : ∀ b ∈ changes f jd, b.2 - b.1 = w) (hwe : w < step)
    (hcap : ∀ c, H lo c hi → ∃ b ∈ changes f jd, H b.1 c b.2)
    (h : discreteLoop f epsilon (n + 2) fuel jd = some events) :
    ∃ bs, Good f lo hi bs ∧ events = bs.map (fun b => (b.2, f b.2)) ∧ (∀ b ∈ bs, b.2 - b.1 ≤ epsilon ∧ b.2 - b.1 < step) ∧
      ∀ c, H lo c hi → ∃ b ∈ bs, H b.1 c b.2 := by
  induction fuel generalizing jd w with
  | zero => simp [discreteLoop] at h
  | succ fuel ih =>
    unfold discreteLoop discreteRound at h
    by_cases h0 : changes f jd = []
    · simp only [h0, if_true, Option.some.injEq] at h
      subst h
      rw [h0] at hg hcap
      exact ⟨[], hg, rfl, by simp, hcap⟩
    · by_cases h1 : (changes f jd).all fun b => b.2 - b.1 ≤ epsilon
      · simp only [if_neg h0, if_pos h1, Option.some.injEq] at h
        exact ⟨changes f jd, hg, h.symm, fun b hb => ⟨by simpa using List.all_eq_true.1 h1 b hb, by rw [hw b hb]; exact hwe⟩, hcap⟩
      · simp only [if_neg h0, if_neg h1] at h
        have hn : (1 : ℝ) ≤ n + 1 := by linarith [(Nat.cast_nonneg n : (0 : ℝ) ≤ n)]
        have hw0 : 0 ≤ w := by
          obtain ⟨b, hb⟩ := List.exists_mem_of_ne_nil _ h0
          rw [← hw b hb]
          linarith [(hg.mem hb).2.1]
        have hwn : w / (n + 1) < step := lt_of_le_of_lt (div_le_self hw0 hn) hwe
        refine ih (w / (n + 1)) _ (good_refine n hg h0) (refine_width n hg hw) hwn ?_ h
        intro c hc
        obtain ⟨b, hb, hbc⟩ := hcap c hc
        have hm := hg.mem hb
        obtain ⟨p, hp, hpc⟩ := in_adjacent hH (npLinspace b.1 b.2 (n + 2)) b.1 b.2 (npLinspace_sorted _ _ _ hm.2.1.le) (npLinspace_head _ _ n)
          (npLinspace_last _ _ n) hbc
        have hpm := adjacent_mem hp
        have e1 := (npLinspace_mem _ _ n hm.2.1.le p.1 hpm.1).1
        have e2 := (npLinspace_mem _ _ n hm.2.1.le p.2 hpm.2).2
        refine ⟨p, List.mem_filter.2 ⟨adjacent_flatMap _ _ b hb p ?_, ?_⟩, hpc⟩
        · rw [show b = (b.1, b.2) from rfl, bracketPoints_eq]
          exact hp
        · have hd := npLinspace_adjacent _ _ _ p hp
          push_cast at hd
          rw [hw b hb, show (n : ℝ) + 2 - 1 = n + 1 by ring] at hd
          simpa using hchange p.1 p.2 (hm.1.trans e1) (e2.trans hm.2.2.1) (by rw [hd]; exact hwn) ⟨c, hpc⟩

private theorem good_disjoint {f : ℝ → V} {lo hi : ℝ} {bs : List (ℝ × ℝ)} (hg : Good f lo hi bs) : bs.Pairwise fun b b' => b.2 ≤ b'.1 := by
  induction bs generalizing lo with
  | nil => exact List.Pairwise.nil
  | cons b bs ih => exact List.Pairwise.cons (fun b' hb' => (hg.2.2.2.2.mem hb').1) (ih hg.2.2.2.2)

private theorem pair_cases {bs : List (ℝ × ℝ)} (hg : bs.Pairwise fun b b' => b.2 ≤ b'.1) {b b' : ℝ × ℝ} (hb : b ∈ bs) (hb' : b' ∈ bs) :
    b = b' ∨ b.2 ≤ b'.1 ∨ b'.2 ≤ b.1 := by
  induction bs with
  | nil => simp at hb
  | cons x bs ih =>
    obtain ⟨h1, h2⟩ := List.pairwise_cons.1 hg
    rcases List.mem_cons.1 hb with rfl | e <;> rcases List.mem_cons.1 hb' with rfl | e'
    · exact Or.inl rfl
    · exact Or.inr (Or.inl (h1 _ e'))
    · exact Or.inr (Or.inr (h1 _ e))
    · exact ih h2 e e'

/-- **C115.** If the searched function differs between any two moments less than a step apart exactly when one of certain moments lies between
them, and these moments are more than `epsilon` apart, the search reports each of them once and nothing else. -/
theorem C115_search {H : ℝ → ℝ → ℝ → Prop} (hH : Between H) {jd0 jd1 epsilon step : ℝ} {f : Searchable ℝ V} {num fuel : ℕ}
    {events : List (ℝ × V)} (hnum : 2 ≤ num) (hstep : f.stepDays = some step) (hpos : 0 < step)
    (hchange : ∀ a b, jd0 ≤ a → a < b → b ≤ jd1 → b - a < step → (f.call a ≠ f.call b ↔ ∃ c, H a c b))
    (hapart : ∀ c c', H jd0 c jd1 → H jd0 c' jd1 → c < c' → epsilon < c' - c)
    (h : findDiscrete jd0 jd1 f epsilon num fuel = .ok (some events)) :
    Reports (fun c => H jd0 c jd1) epsilon events ∧
      ∀ e ∈ events, ∀ c, H jd0 c jd1 → c ≤ e.1 → e.1 ≤ c + epsilon →
        ∃ s, H s c e.1 ∧ jd0 ≤ s ∧ e.1 - s ≤ epsilon ∧ e.1 - s < step ∧ e.1 ≤ jd1 ∧ f.call e.1 = e.2 := by
  have hst : ∀ s, f.stepDays = some s → 0 < s := by
    intro s hs
    rw [hstep, Option.some.injEq] at hs
    rw [← hs]; exact hpos
  have hord := C16_increasing jd0 jd1 f epsilon num fuel events hnum hst h
  have hbs : ∃ bs, Good f.call jd0 jd1 bs ∧ events = bs.map (fun b => (b.2, f.call b.2)) ∧
      (∀ b ∈ bs, b.2 - b.1 ≤ epsilon ∧ b.2 - b.1 < step) ∧ ∀ c, H jd0 c jd1 → ∃ b ∈ bs, H b.1 c b.2 := by
    unfold findDiscrete at h
    cases hs : discreteSamples jd0 jd1 f num with
    | error e => rw [hs] at h; simp at h
    | ok jd =>
      rw [hs] at h
      simp only [Except.ok.injEq] at h
      obtain ⟨hlt, m, rfl⟩ := discreteSamples_ok jd0 jd1 f num jd hnum hst hs
      obtain ⟨n, rfl⟩ : ∃ n, num = n + 2 := ⟨num - 2, by omega⟩
      obtain ⟨jd', hs', -, -, hsp⟩ := C16_sample_spacing jd0 jd1 f (n + 2) step hlt hstep hpos
      rw [hs, Except.ok.injEq] at hs'
      subst hs'
      have hw : ∀ p ∈ adjacent (npLinspace jd0 jd1 (m + 2)), p.2 - p.1 = (jd1 - jd0) / (m + 1) := by
        intro p hp
        rw [npLinspace_adjacent _ _ _ p hp]
        push_cast
        congr 1
        ring
      have hch : ∀ a b, jd0 ≤ a → b ≤ jd1 → b - a < step → (∃ c, H a c b) → f.call a ≠ f.call b := by
        rintro a b h1 h2 h3 ⟨c, hc⟩
        exact (hchange a b h1 (hH.lt _ _ _ hc) h2 h3).2 ⟨c, hc⟩
      have hwe : (jd1 - jd0) / (m + 1) < step := by
        have e := npLinspace_succ jd0 jd1 m
        have hmem : (jd0, jd0 + ((0 : ℕ) + 1 : ℝ) * ((jd1 - jd0) / ((m : ℝ) + 1))) ∈ adjacent (npLinspace jd0 jd1 (m + 2)) := by
          rw [e, List.range_succ_eq_map, List.map_cons, adjacent_cons_cons]
          exact List.mem_cons_self
        have := (hsp _ hmem).2
        simp only [Nat.cast_zero, zero_add, one_mul, add_sub_cancel_left] at this
        exact this
      refine loop_all hH f.call epsilon jd0 jd1 step _ n hch fuel _ events (samples_good f.call jd0 jd1 m hlt.le)
        (fun b hb => hw b (List.mem_of_mem_filter hb)) hwe ?_ h
      intro c hc
      obtain ⟨p, hp, hpc⟩ := in_adjacent hH (npLinspace jd0 jd1 (m + 2)) jd0 jd1 (npLinspace_sorted _ _ _ hlt.le) (npLinspace_head _ _ m)
        (npLinspace_last _ _ m) hc
      have hpm := adjacent_mem hp
      have e1 := (npLinspace_mem _ _ m hlt.le p.1 hpm.1).1
      have e2 := (npLinspace_mem _ _ m hlt.le p.2 hpm.2).2
      exact ⟨p, List.mem_filter.2 ⟨hp, by simpa using hch p.1 p.2 e1 e2 (by rw [hw p hp]; exact hwe) ⟨c, hpc⟩⟩, hpc⟩
  obtain ⟨bs, hg, rfl, hwid, hcap⟩ := hbs
  have hmom : ∀ b ∈ bs, ∃ c, H b.1 c b.2 := fun b hb =>
    (hchange b.1 b.2 (hg.mem hb).1 (hg.mem hb).2.1 (hg.mem hb).2.2.1 (hwid b hb).2).1 (hg.mem hb).2.2.2
  have hup : ∀ b ∈ bs, ∀ c, H b.1 c b.2 → H jd0 c jd1 := fun b hb c hc => hH.mono _ _ _ _ _ (hg.mem hb).1 (hg.mem hb).2.2.1 hc
  have hsame : ∀ c c', H jd0 c jd1 → H jd0 c' jd1 → c' - c ≤ epsilon → c - c' ≤ epsilon → c = c' := by
    intro c c' hc hc' h1 h2
    rcases lt_trichotomy c c' with h3 | h3 | h3
    · exact absurd (hapart c c' hc hc' h3) (not_lt.2 h1)
    · exact h3
    · exact absurd (hapart c' c hc' hc h3) (not_lt.2 h2)
  refine ⟨⟨?_, ?_, hord⟩, ?_⟩
  · intro c hc
    obtain ⟨b, hb, hbc⟩ := hcap c hc
    have hle := hH.le _ _ _ hbc
    refine ⟨(b.2, f.call b.2), ⟨List.mem_map.2 ⟨b, hb, rfl⟩, hle.2, ?_⟩, ?_⟩
    · have := (hwid b hb).1
      change b.2 ≤ c + epsilon
      linarith [hle.1]
    · rintro e ⟨he, he1, he2⟩
      obtain ⟨b', hb', rfl⟩ := List.mem_map.1 he
      simp only at he1 he2
      obtain ⟨c', hc'⟩ := hmom b' hb'
      have hle' := hH.le _ _ _ hc'
      have hw' := (hwid b' hb').1
      rcases pair_cases (good_disjoint hg) hb hb' with e | e | e
      · rw [e]
      · have hcc := hsame c c' hc (hup b' hb' c' hc') (by linarith) (by linarith)
        subst hcc
        exact absurd (hH.mono _ b.2 _ _ b'.2 e le_rfl hc') (hH.once _ _ _ _ hbc)
      · have hcc := hsame c c' hc (hup b' hb' c' hc') (by linarith) (by linarith)
        subst hcc
        exact absurd (hH.mono _ b'.2 _ _ b.2 e le_rfl hbc) (hH.once _ _ _ _ hc')
  · intro e he
    obtain ⟨b, hb, rfl⟩ := List.mem_map.1 he
    obtain ⟨c, hc⟩ := hmom b hb
    have hle := hH.le _ _ _ hc
    have hw' := (hwid b hb).1
    refine ⟨c, ⟨hup b hb c hc, hle.2, by change b.2 ≤ c + epsilon; linarith⟩, ?_⟩
    rintro c' ⟨hc', h1, h2⟩
    simp only at h1 h2
    exact hsame c' c hc' (hup b hb c hc) (by linarith) (by linarith)
  · intro e he c' hc' h1 h2
    obtain ⟨b, hb, rfl⟩ := List.mem_map.1 he
    obtain ⟨c, hc⟩ := hmom b hb
    have hle := hH.le _ _ _ hc
    have hw' := (hwid b hb).1
    simp only at h1 h2
    have hcc := hsame c' c hc' (hup b hb c hc) (by linarith) (by linarith)
    subst hcc
    exact ⟨b.1, hc, (hg.mem hb).1, hw', (hwid b hb).2, (hg.mem hb).2.2.1, rfl⟩

/-! ### Spells -/

/-- **C115.** The search of a function that has the value `F n` during the spell numbered `n` reports the beginning of each spell, if the values are
different in any two spells that fall within one step, and no two spells begin within about `epsilon`. -/
theorem C115_spells {jd0 jd1 epsilon step d : ℝ} {N : ℝ → ℤ} (hN : Monotone N) {f : Searchable ℝ V} {F : ℤ → V}
    (hf : ∀ t, jd0 ≤ t → t ≤ jd1 → f.call t = F (N t))
    (hdiff : ∀ a b, jd0 ≤ a → a < b → b ≤ jd1 → b - a < step → N a ≠ N b → F (N a) ≠ F (N b))
    (hsmall : ∀ a b, a ≤ b → b - a < d → N b ≤ N a + 1) (heps : 0 < epsilon) (hd : epsilon < d) {num fuel : ℕ} {events : List (ℝ × V)} (hnum : 2 ≤ num)
    (hstep : f.stepDays = some step) (hpos : 0 < step) (h : findDiscrete jd0 jd1 f epsilon num fuel = .ok (some events)) :
    Reports (fun c => ∃ n, N jd0 < n ∧ n ≤ N jd1 ∧ Begins N n c) epsilon events ∧
      ∀ e ∈ events, ∀ c n, N jd0 < n → n ≤ N jd1 → Begins N n c → c ≤ e.1 → e.1 ≤ c + epsilon → e.2 = F n ∧ N e.1 = n := by
  have hsep : ∀ n m c c', n < m → Begins N n c → Begins N m c' → epsilon < c' - c := by
    intro n m c c' hnm hc hc'
    by_contra hcon
    set δ := (d - epsilon) / 3 with hδ
    have hδ0 : 0 < δ := by rw [hδ]; linarith
    obtain ⟨t, ht, -, htc⟩ := hc'.exists_between (show c' < c' + δ by linarith)
    have hs : N (c - δ) < n := by
      by_contra hk
      have := hc.1 (show c - δ ∈ {t | n ≤ N t} from not_lt.1 hk)
      linarith
    have hcc : c ≤ c' := hc'.2 fun t ht => hc.1 (show n ≤ N t from hnm.le.trans ht)
    have ht' : c' ≤ t := hc'.1 ht
    have := hsmall (c - δ) t (by linarith) (by linarith)
    have hmt : m ≤ N t := ht
    omega
  have hbegin : ∀ n a b, N a < n → n ≤ N b → ∃ c, Begins N n c ∧ a ≤ c ∧ c ≤ b := by
    intro n a b h1 h2
    have hlow : a ∈ lowerBounds {t | n ≤ N t} := by
      intro t ht
      by_contra hk
      have hle : N t ≤ N a := hN (not_le.1 hk).le
      have hnt : n ≤ N t := ht
      omega
    have hne : ({t | n ≤ N t} : Set ℝ).Nonempty := ⟨b, h2⟩
    have hg := isGLB_csInf hne ⟨a, hlow⟩
    exact ⟨_, hg, hg.2 hlow, hg.1 h2⟩
  set H : ℝ → ℝ → ℝ → Prop := fun a c b => ∃ n, N a < n ∧ n ≤ N b ∧ Begins N n c with hH
  have hlt : ∀ a b n, N a < n → n ≤ N b → a < b := by
    intro a b n h1 h2
    by_contra hk
    have := hN (not_lt.1 hk)
    omega
  have hle : ∀ a c b n, N a < n → n ≤ N b → Begins N n c → a ≤ c ∧ c ≤ b := by
    intro a c b n h1 h2 h3
    obtain ⟨c', k1, k2, k3⟩ := hbegin n a b h1 h2
    rw [h3.unique k1]
    exact ⟨k2, k3⟩
  have hsame : ∀ n m c, Begins N n c → Begins N m c → n = m := by
    intro n m c h1 h2
    rcases lt_trichotomy n m with e | e | e
    · have := hsep n m c c e h1 h2
      linarith
    · exact e
    · have := hsep m n c c e h2 h1
      linarith
  have hB : Between H := by
    refine ⟨?_, ?_, ?_, ?_, ?_⟩
    · rintro a c b ⟨n, h1, h2, -⟩
      exact hlt a b n h1 h2
    · rintro a c b ⟨n, h1, h2, h3⟩
      exact hle a c b n h1 h2 h3
    · rintro a c b x ⟨n, h1, h2, h3⟩ - -
      rcases le_or_gt n (N x) with e | e
      · exact Or.inl ⟨n, h1, e, h3⟩
      · exact Or.inr ⟨n, e, h2, h3⟩
    · rintro a a' c b b' h1 h2 ⟨n, h3, h4, h5⟩
      exact ⟨n, (hN h1).trans_lt h3, h4.trans (hN h2), h5⟩
    · rintro a c b b' ⟨n, h1, h2, h3⟩ ⟨m, h4, h5, h6⟩
      have := hsame n m c h3 h6
      omega
  have hchange : ∀ a b, jd0 ≤ a → a < b → b ≤ jd1 → b - a < step → (f.call a ≠ f.call b ↔ ∃ c, H a c b) := by
    intro a b h1 h2 h3 h4
    rw [hf a h1 (h2.le.trans h3), hf b (h1.trans h2.le) h3]
    constructor
    · intro hne
      have : N a < N b := lt_of_le_of_ne (hN h2.le) fun e => hne (by rw [e])
      obtain ⟨c, hc, -, -⟩ := hbegin (N b) a b this le_rfl
      exact ⟨c, N b, this, le_rfl, hc⟩
    · rintro ⟨c, n, k1, k2, -⟩
      exact hdiff a b h1 h2 h3 h4 (by omega)
  have hapart : ∀ c c', H jd0 c jd1 → H jd0 c' jd1 → c < c' → epsilon < c' - c := by
    rintro c c' ⟨n, -, -, h1⟩ ⟨m, -, -, h2⟩ h3
    rcases lt_trichotomy n m with e | e | e
    · exact hsep n m c c' e h1 h2
    · subst e
      rw [h1.unique h2] at h3
      exact absurd h3 (lt_irrefl _)
    · have := hsep m n c' c e h2 h1
      linarith
  obtain ⟨hr, hv⟩ := C115_search hB hnum hstep hpos hchange hapart h
  refine ⟨hr, ?_⟩
  intro e he c n h1 h2 h3 h4 h5
  obtain ⟨s, ⟨m, k1, k2, k3⟩, k4, k5, k6, k7, k8⟩ := hv e he c ⟨n, h1, h2, h3⟩ h4 h5
  have hm := hsame n m c h3 k3
  subst hm
  have hle1 := hsmall s e.1 (hlt s e.1 n k1 k2).le (by linarith)
  have hNe : N e.1 = n := by omega
  refine ⟨?_, hNe⟩
  rw [← k8, hf e.1 (k4.trans (hlt s e.1 n k1 k2).le) k7, hNe]

/-- **C115.** In a stretch shorter than one step, at whose ends the function has the same value, the search finds nothing, whatever happens between. -/
theorem C115_short_spell_missed {jd0 jd1 step : ℝ} {f : Searchable ℝ V} (hstep : f.stepDays = some step) (hlt : jd0 < jd1) (hshort : jd1 - jd0 < step)
    (hsame : f.call jd0 = f.call jd1) (epsilon : ℝ) (num fuel : ℕ) : findDiscrete jd0 jd1 f epsilon num (fuel + 1) = .ok (some []) := by
  have hs : discreteSamples jd0 jd1 f num = .ok [jd0, jd1] := by
    unfold discreteSamples
    rw [if_neg (not_le.2 hlt)]
    have ha : astypeInt ((jd1 - jd0) / step) = 0 := by
      unfold astypeInt
      rw [if_pos (by apply div_nonneg <;> linarith), Int.floor_eq_zero_iff, Set.mem_Ico]
      constructor
      · apply div_nonneg <;> linarith
      · rw [div_lt_one (by linarith)]; exact hshort
    simp only [hstep, ha]
    rw [if_neg (by norm_num)]
    congr 1
    have : npLinspace jd0 jd1 (0 + 2) = _ := npLinspace_succ jd0 jd1 0
    rw [show ((0 : ℤ) + 2).toNat = 0 + 2 from rfl, this]
    simp
  have hch : changes f.call [jd0, jd1] = [] := by
    rw [changes_cons_cons, if_neg (by simpa using hsame)]
    rfl
  unfold findDiscrete discreteLoop discreteRound
  simp [hs, hch]

/-! ### Growing angles -/

private theorem exists_at {lo hi a b y : ℝ} {L : ℝ → ℝ} (hL : Growing lo hi L) (ha : lo ≤ a) (hab : a ≤ b) (hb : b ≤ hi) (h1 : L a ≤ y)
    (h2 : y ≤ L b) : ∃ c, a ≤ c ∧ c ≤ b ∧ L c = y := by
  have := intermediate_value_Icc hab (hL.continuous.mono (Set.Icc_subset_Icc ha hb)) (show y ∈ Set.Icc (L a) (L b) from ⟨h1, h2⟩)
  obtain ⟨c, hc, e⟩ := this
  exact ⟨c, hc.1, hc.2, e⟩

private theorem growing_le {lo hi : ℝ} {L : ℝ → ℝ} (hL : Growing lo hi L) {s t : ℝ} (h1 : lo ≤ s) (h2 : s ≤ t) (h3 : t ≤ hi) : L s ≤ L t := by
  rcases eq_or_lt_of_le h2 with e | e
  · rw [e]
  · exact (hL.increasing s t h1 e h3).le

private theorem floor_between {w x : ℝ} (hw : 0 < w) (n : ℤ) : n ≤ ⌊x / w⌋ ↔ w * n ≤ x := by
  rw [Int.le_floor, le_div_iff₀ hw, mul_comm]

private theorem floor_eq' {w x : ℝ} (hw : 0 < w) {n : ℤ} (h1 : w * n ≤ x) (h2 : x < w * (n + 1)) : ⌊x / w⌋ = n := by
  refine le_antisymm ?_ ((floor_between hw n).2 h1)
  by_contra hc
  have : n + 1 ≤ ⌊x / w⌋ := by omega
  rw [floor_between hw] at this
  push_cast at this
  linarith

/-- Floors that differ, but agree modulo `k`, are a gain of nearly `k` parts apart. -/
private theorem gain_of_same {w x y : ℝ} (hw : 0 < w) {k : ℕ} (h1 : ⌊x / w⌋ < ⌊y / w⌋) (h2 : ⌊x / w⌋ % (k : ℤ) = ⌊y / w⌋ % (k : ℤ)) :
    w * (k - 1) < y - x := by
  have hd : (k : ℤ) ∣ ⌊y / w⌋ - ⌊x / w⌋ := Int.ModEq.dvd h2
  have hk : (k : ℤ) ≤ ⌊y / w⌋ - ⌊x / w⌋ := Int.le_of_dvd (by omega) hd
  have h3 : ⌊x / w⌋ + k ≤ ⌊y / w⌋ := by omega
  rw [floor_between hw] at h3
  push_cast at h3
  have h4 := Int.lt_floor_add_one (x / w)
  rw [div_lt_iff₀ hw] at h4
  nlinarith

/-- **C115.** A search of the `k`-th of a turn that a growing angle is in reports each passage into the next part, with that part's number, if the
angle gains less than a turn less one part in a step, and less than one part in about `epsilon`. -/
theorem C115_sectors {k : ℕ} (hk : 2 ≤ k) {jd0 jd1 epsilon step d : ℝ} {L : ℝ → ℝ} (hL : Growing jd0 jd1 L)
    (hgain : GainsLess jd0 jd1 step (2 * π - 2 * π / k) L) (hsmall : GainsLess jd0 jd1 d (2 * π / k) L) (hd : epsilon < d)
    {f : Searchable ℝ V} {num fuel : ℕ} {events : List (ℝ × V)} (hnum : 2 ≤ num) (hstep : f.stepDays = some step) (hpos : 0 < step)
    {F : ℤ → V} (hF : Function.Injective F) (hf : ∀ t, jd0 ≤ t → t ≤ jd1 → f.call t = F (⌊L t / (2 * π / k)⌋ % k))
    (h : findDiscrete jd0 jd1 f epsilon num fuel = .ok (some events)) :
    Reports (fun c => jd0 < c ∧ c ≤ jd1 ∧ ∃ n : ℤ, L c = 2 * π / k * n) epsilon events ∧
      ∀ e ∈ events, ∀ c, ∀ n : ℤ, jd0 < c → c ≤ jd1 → L c = 2 * π / k * n → c ≤ e.1 → e.1 ≤ c + epsilon → e.2 = F (n % k) := by
  have hp := pi_pos
  have hk0 : (0 : ℝ) < k := by exact_mod_cast (by omega : 0 < k)
  generalize hwdef : 2 * π / (k : ℝ) = w at *
  have hw : 0 < w := by rw [← hwdef]; positivity
  have hwk : 2 * π - w = w * (k - 1) := by rw [← hwdef]; field_simp
  have hB : Between fun a c b => a < c ∧ c ≤ b ∧ ∃ n : ℤ, L c = w * n := by
    refine ⟨fun a c b h => h.1.trans_le h.2.1, fun a c b h => ⟨h.1.le, h.2.1⟩, ?_, ?_, ?_⟩
    · rintro a c b x ⟨h1, h2, h3⟩ - -
      rcases le_or_gt c x with e | e
      · exact Or.inl ⟨h1, e, h3⟩
      · exact Or.inr ⟨e, h2, h3⟩
    · rintro a a' c b b' h1 h2 ⟨h3, h4, h5⟩
      exact ⟨h1.trans_lt h3, h4.trans h2, h5⟩
    · rintro a c b b' ⟨-, h1, -⟩ ⟨h2, -, -⟩
      linarith
  have hchange : ∀ a b, jd0 ≤ a → a < b → b ≤ jd1 → b - a < step →
      (f.call a ≠ f.call b ↔ ∃ c, a < c ∧ c ≤ b ∧ ∃ n : ℤ, L c = w * n) := by
    intro a b h1 h2 h3 h4
    rw [hf a h1 (h2.le.trans h3), hf b (h1.trans h2.le) h3, hF.ne_iff]
    constructor
    · intro hne
      have hm : ⌊L a / w⌋ ≤ ⌊L b / w⌋ := Int.floor_le_floor (by
        have := growing_le hL h1 h2.le h3
        gcongr)
      have hlt : ⌊L a / w⌋ < ⌊L b / w⌋ := lt_of_le_of_ne hm fun e => hne (by rw [e])
      have e1 : L a < w * ⌊L b / w⌋ := by
        rw [← not_le, ← floor_between hw]
        exact not_le.2 hlt
      have e2 : w * ⌊L b / w⌋ ≤ L b := (floor_between hw _).1 le_rfl
      obtain ⟨c, hc1, hc2, hc3⟩ := exists_at hL h1 h2.le h3 e1.le e2
      refine ⟨c, lt_of_le_of_ne hc1 ?_, hc2, _, hc3⟩
      rintro rfl
      linarith
    · rintro ⟨c, hc1, hc2, n, hn⟩ he
      have e1 := hL.increasing a c h1 hc1 (hc2.trans h3)
      have e2 := growing_le hL (h1.trans hc1.le) hc2 h3
      have hlt : ⌊L a / w⌋ < ⌊L b / w⌋ := by
        have a1 : n ≤ ⌊L b / w⌋ := (floor_between hw n).2 (by rw [← hn]; exact e2)
        have a2 : ¬ n ≤ ⌊L a / w⌋ := fun hc => by
          rw [floor_between hw, ← hn] at hc
          linarith
        omega
      have := gain_of_same hw hlt he
      have := hgain a b h1 h2.le h3 h4
      linarith
  have hapart : ∀ c c', (jd0 < c ∧ c ≤ jd1 ∧ ∃ n : ℤ, L c = w * n) → (jd0 < c' ∧ c' ≤ jd1 ∧ ∃ n : ℤ, L c' = w * n) → c < c' →
      epsilon < c' - c := by
    rintro c c' ⟨h1, -, n, hn⟩ ⟨-, h2, n', hn'⟩ h3
    by_contra hc
    have e1 := hsmall c c' h1.le h3.le h2 (by linarith)
    have e2 := hL.increasing c c' h1.le h3 h2
    rw [hn, hn'] at e1 e2
    have a1 : (n : ℝ) < n' := lt_of_mul_lt_mul_left e2 hw.le
    have a2 : n + 1 ≤ n' := by exact_mod_cast a1
    have a3 : (n : ℝ) + 1 ≤ n' := by exact_mod_cast a2
    have a4 := mul_le_mul_of_nonneg_left a3 hw.le
    linarith
  obtain ⟨hr, hv⟩ := C115_search hB hnum hstep hpos hchange hapart h
  refine ⟨hr, ?_⟩
  intro e he c n h1 h2 hn h3 h4
  obtain ⟨s, -, -, -, -, h5, h6⟩ := hv e he c ⟨h1, h2, n, hn⟩ h3 h4
  rw [← h6, hf e.1 (h1.le.trans h3) h5]
  congr 2
  have e1 := growing_le hL h1.le h3 h5
  have e2 := hsmall c e.1 h1.le h3 h5 (by linarith)
  refine floor_eq' hw (by rw [← hn]; exact e1) ?_
  linarith

/-- **C115.** The same for an angle that shrinks. -/
theorem C115_sectors_shrinking {k : ℕ} (hk : 2 ≤ k) {jd0 jd1 epsilon step d : ℝ} {L : ℝ → ℝ} (hL : Growing jd0 jd1 fun t => -L t)
    (hgain : GainsLess jd0 jd1 step (2 * π - 2 * π / k) fun t => -L t) (hsmall : GainsLess jd0 jd1 d (2 * π / k) fun t => -L t)
    (hd : epsilon < d) {f : Searchable ℝ V} {num fuel : ℕ} {events : List (ℝ × V)} (hnum : 2 ≤ num) (hstep : f.stepDays = some step)
    (hpos : 0 < step) {F : ℤ → V} (hF : Function.Injective F) (hf : ∀ t, jd0 ≤ t → t ≤ jd1 → f.call t = F (⌊L t / (2 * π / k)⌋ % k))
    (h : findDiscrete jd0 jd1 f epsilon num fuel = .ok (some events)) :
    Reports (fun c => jd0 ≤ c ∧ c < jd1 ∧ ∃ n : ℤ, L c = 2 * π / k * n) epsilon events ∧
      ∀ e ∈ events, ∀ c, ∀ n : ℤ, jd0 ≤ c → c < jd1 → L c = 2 * π / k * n → c ≤ e.1 → e.1 ≤ c + epsilon → e.2 = F ((n - 1) % k) := by
  have hp := pi_pos
  have hk0 : (0 : ℝ) < k := by exact_mod_cast (by omega : 0 < k)
  generalize hwdef : 2 * π / (k : ℝ) = w at *
  have hw : 0 < w := by rw [← hwdef]; positivity
  have hwk : 2 * π - w = w * (k - 1) := by rw [← hwdef]; field_simp
  have hB : Between fun a c b => a ≤ c ∧ c < b ∧ ∃ n : ℤ, L c = w * n := by
    refine ⟨fun a c b h => h.1.trans_lt h.2.1, fun a c b h => ⟨h.1, h.2.1.le⟩, ?_, ?_, ?_⟩
    · rintro a c b x ⟨h1, h2, h3⟩ - -
      rcases lt_or_ge c x with e | e
      · exact Or.inl ⟨h1, e, h3⟩
      · exact Or.inr ⟨e, h2, h3⟩
    · rintro a a' c b b' h1 h2 ⟨h3, h4, h5⟩
      exact ⟨h1.trans h3, h4.trans_le h2, h5⟩
    · rintro a c b b' ⟨-, h1, -⟩ ⟨h2, -, -⟩
      linarith
  have hlt' : ∀ s t, jd0 ≤ s → s < t → t ≤ jd1 → L t < L s := fun s t h1 h2 h3 => by
    have := hL.increasing s t h1 h2 h3
    linarith
  have hle' : ∀ s t, jd0 ≤ s → s ≤ t → t ≤ jd1 → L t ≤ L s := fun s t h1 h2 h3 => by
    have := growing_le hL h1 h2 h3
    linarith
  have hchange : ∀ a b, jd0 ≤ a → a < b → b ≤ jd1 → b - a < step →
      (f.call a ≠ f.call b ↔ ∃ c, a ≤ c ∧ c < b ∧ ∃ n : ℤ, L c = w * n) := by
    intro a b h1 h2 h3 h4
    rw [hf a h1 (h2.le.trans h3), hf b (h1.trans h2.le) h3, hF.ne_iff]
    constructor
    · intro hne
      have hm : ⌊L b / w⌋ ≤ ⌊L a / w⌋ := Int.floor_le_floor (by
        have := hle' a b h1 h2.le h3
        gcongr)
      have hlt : ⌊L b / w⌋ < ⌊L a / w⌋ := lt_of_le_of_ne hm fun e => hne (by rw [e])
      have e1 : L b < w * ⌊L a / w⌋ := by
        rw [← not_le, ← floor_between hw]
        exact not_le.2 hlt
      have e2 : w * ⌊L a / w⌋ ≤ L a := (floor_between hw _).1 le_rfl
      obtain ⟨c, hc1, hc2, hc3⟩ := exists_at (y := -(w * ⌊L a / w⌋)) hL h1 h2.le h3 (neg_le_neg e2) (neg_le_neg e1.le)
      have hc4 := neg_injective hc3
      refine ⟨c, hc1, lt_of_le_of_ne hc2 ?_, _, hc4⟩
      rintro rfl
      linarith
    · rintro ⟨c, hc1, hc2, n, hn⟩ he
      have e1 := hlt' c b (h1.trans hc1) hc2 h3
      have e2 := hle' a c h1 hc1 (hc2.le.trans h3)
      have hlt : ⌊L b / w⌋ < ⌊L a / w⌋ := by
        have a1 : n ≤ ⌊L a / w⌋ := (floor_between hw n).2 (by rw [← hn]; exact e2)
        have a2 : ¬ n ≤ ⌊L b / w⌋ := fun hc => by
          rw [floor_between hw, ← hn] at hc
          linarith
        omega
      have := gain_of_same hw hlt he.symm
      have := hgain a b h1 h2.le h3 h4
      linarith
  have hapart : ∀ c c', (jd0 ≤ c ∧ c < jd1 ∧ ∃ n : ℤ, L c = w * n) → (jd0 ≤ c' ∧ c' < jd1 ∧ ∃ n : ℤ, L c' = w * n) → c < c' →
      epsilon < c' - c := by
    rintro c c' ⟨h1, -, n, hn⟩ ⟨-, h2, n', hn'⟩ h3
    by_contra hc
    have e1 := hsmall c c' h1 h3.le h2.le (by linarith)
    have e2 := hlt' c c' h1 h3 h2.le
    beta_reduce at e1
    rw [hn, hn'] at e1 e2
    have a1 : (n' : ℝ) < n := lt_of_mul_lt_mul_left e2 hw.le
    have a2 : n' + 1 ≤ n := by exact_mod_cast a1
    have a3 : (n' : ℝ) + 1 ≤ n := by exact_mod_cast a2
    have a4 := mul_le_mul_of_nonneg_left a3 hw.le
    linarith
  obtain ⟨hr, hv⟩ := C115_search hB hnum hstep hpos hchange hapart h
  refine ⟨hr, ?_⟩
  intro e he c n h1 h2 hn h3 h4
  obtain ⟨s, hs, -, -, -, h5, h6⟩ := hv e he c ⟨h1, h2, n, hn⟩ h3 h4
  rw [← h6, hf e.1 (h1.trans h3) h5]
  congr 2
  have e1 := hlt' c e.1 h1 hs.2.1 h5
  have e2 := hsmall c e.1 h1 h3 h5 (by linarith)
  beta_reduce at e2
  rw [hn] at e1 e2
  refine floor_eq' hw ?_ ?_ <;> push_cast <;> linarith

/-- **C115.** A search of whether an angle is in the upper half turn, ends excluded, reports each passage of a half turn. -/
theorem C115_upper_half {jd0 jd1 epsilon step d : ℝ} {u : ℝ → ℝ} (hu : Growing jd0 jd1 u) (hgain : GainsLess jd0 jd1 step π u)
    (hsmall : GainsLess jd0 jd1 d π u) (hd : epsilon < d) {f : Searchable ℝ V} {num fuel : ℕ} {events : List (ℝ × V)} (hnum : 2 ≤ num)
    (hstep : f.stepDays = some step) (hpos : 0 < step) {up down : V} (hne : up ≠ down)
    (hf : ∀ t, jd0 ≤ t → t ≤ jd1 → (0 < sin (u t) → f.call t = up) ∧ (sin (u t) ≤ 0 → f.call t = down))
    (h : findDiscrete jd0 jd1 f epsilon num fuel = .ok (some events)) :
    Reports (fun c => (jd0 ≤ c ∧ c < jd1 ∧ ∃ n : ℤ, u c = 2 * π * n) ∨ (jd0 < c ∧ c ≤ jd1 ∧ ∃ n : ℤ, u c = 2 * π * n + π)) epsilon events ∧
      ∀ e ∈ events, ∀ c, ∀ n : ℤ, c ≤ e.1 → e.1 ≤ c + epsilon →
        (jd0 ≤ c → c < jd1 → u c = 2 * π * n → e.2 = up) ∧ (jd0 < c → c ≤ jd1 → u c = 2 * π * n + π → e.2 = down) := by
  have hp := pi_pos
  have hsinpos : ∀ x, ∀ n : ℤ, 2 * π * n < x → x < 2 * π * n + π → 0 < sin x := by
    intro x n h1 h2
    rw [show x = (x - 2 * π * n) + n * (2 * π) by ring, sin_add_int_mul_two_pi]
    exact sin_pos_of_pos_of_lt_pi (by linarith) (by linarith)
  have hsinneg : ∀ x, ∀ n : ℤ, 2 * π * n + π ≤ x → x ≤ 2 * π * n + 2 * π → sin x ≤ 0 := by
    intro x n h1 h2
    rw [show x = (x - 2 * π * n - 2 * π) + (n + 1 : ℤ) * (2 * π) by push_cast; ring, sin_add_int_mul_two_pi]
    exact sin_nonpos_of_nonpos_of_neg_pi_le (by linarith) (by linarith)
  have hcases : ∀ x, ∃ n : ℤ, (2 * π * n < x ∧ x < 2 * π * n + π) ∨ (2 * π * n + π ≤ x ∧ x ≤ 2 * π * n + 2 * π) := by
    intro x
    have h1 := Int.ceil_lt_add_one (x / (2 * π))
    have h2 := Int.le_ceil (x / (2 * π))
    rw [div_le_iff₀ (by positivity)] at h2
    have h3 : (⌈x / (2 * π)⌉ - 1 : ℝ) < x / (2 * π) := by linarith
    rw [lt_div_iff₀ (by positivity)] at h3
    refine ⟨⌈x / (2 * π)⌉ - 1, ?_⟩
    generalize ⌈x / (2 * π)⌉ = m at *
    push_cast
    rcases lt_or_ge x (2 * π * (m - 1) + π) with e | e
    · exact Or.inl ⟨by linarith, e⟩
    · exact Or.inr ⟨e, by linarith⟩
  set H : ℝ → ℝ → ℝ → Prop := fun a c b => (a ≤ c ∧ c < b ∧ ∃ n : ℤ, u c = 2 * π * n) ∨ (a < c ∧ c ≤ b ∧ ∃ n : ℤ, u c = 2 * π * n + π) with hHdef
  have hodd : ∀ c, (∃ n : ℤ, u c = 2 * π * n) → (∃ n : ℤ, u c = 2 * π * n + π) → False := by
    rintro c ⟨n, hn⟩ ⟨m, hm⟩
    rw [hn] at hm
    have e : 2 * (n : ℝ) = 2 * m + 1 := by
      apply mul_left_cancel₀ hp.ne'
      linarith
    have e' : 2 * n = 2 * m + 1 := by exact_mod_cast e
    omega
  have hB : Between H := by
    refine ⟨?_, ?_, ?_, ?_, ?_⟩
    · rintro a c b (h | h)
      · exact h.1.trans_lt h.2.1
      · exact h.1.trans_le h.2.1
    · rintro a c b (h | h)
      · exact ⟨h.1, h.2.1.le⟩
      · exact ⟨h.1.le, h.2.1⟩
    · rintro a c b x (⟨h1, h2, h3⟩ | ⟨h1, h2, h3⟩) - -
      · rcases lt_or_ge c x with e | e
        · exact Or.inl (Or.inl ⟨h1, e, h3⟩)
        · exact Or.inr (Or.inl ⟨e, h2, h3⟩)
      · rcases le_or_gt c x with e | e
        · exact Or.inl (Or.inr ⟨h1, e, h3⟩)
        · exact Or.inr (Or.inr ⟨e, h2, h3⟩)
    · rintro a a' c b b' h1 h2 (⟨h3, h4, h5⟩ | ⟨h3, h4, h5⟩)
      · exact Or.inl ⟨h1.trans h3, h4.trans_le h2, h5⟩
      · exact Or.inr ⟨h1.trans_lt h3, h4.trans h2, h5⟩
    · rintro a c b b' (⟨-, h1, h5⟩ | ⟨-, h1, h5⟩) (⟨h2, -, h6⟩ | ⟨h2, -, h6⟩)
      · linarith
      · exact hodd c h5 h6
      · exact hodd c h6 h5
      · linarith
  have hup : ∀ t, jd0 ≤ t → t ≤ jd1 → (f.call t = up ↔ 0 < sin (u t)) := by
    intro t h1 h2
    refine ⟨fun e => ?_, (hf t h1 h2).1⟩
    by_contra hc
    exact hne (e.symm.trans ((hf t h1 h2).2 (not_lt.1 hc)))
  have hdown : ∀ t, jd0 ≤ t → t ≤ jd1 → (f.call t = down ↔ sin (u t) ≤ 0) := by
    intro t h1 h2
    refine ⟨fun e => ?_, (hf t h1 h2).2⟩
    by_contra hc
    exact hne (((hf t h1 h2).1 (not_le.1 hc)).symm.trans e)
  have hafter : ∀ a b c, jd0 ≤ a → a < b → b ≤ jd1 → u b - u a < π → H a c b →
      (∀ n : ℤ, u c = 2 * π * n → f.call a = down ∧ f.call b = up) ∧ (∀ n : ℤ, u c = 2 * π * n + π → f.call a = up ∧ f.call b = down) := by
    intro a b c h1 h2 h3 h4 hc
    have hac := growing_le hu h1 (hB.le _ _ _ hc).1 ((hB.le _ _ _ hc).2.trans h3)
    have hcb := growing_le hu (h1.trans (hB.le _ _ _ hc).1) (hB.le _ _ _ hc).2 h3
    constructor
    · intro n hn
      rcases hc with ⟨c1, c2, -⟩ | ⟨-, -, m⟩
      · have e1 := hu.increasing c b (h1.trans c1) c2 h3
        constructor
        · refine (hdown a h1 (h2.le.trans h3)).2 (hsinneg _ (n - 1) ?_ ?_) <;> push_cast <;> linarith
        · exact (hup b (h1.trans h2.le) h3).2 (hsinpos _ n (by linarith) (by linarith))
      · exact (hodd c ⟨n, hn⟩ m).elim
    · intro n hn
      rcases hc with ⟨-, -, m⟩ | ⟨c1, c2, -⟩
      · exact (hodd c m ⟨n, hn⟩).elim
      · have e1 := hu.increasing a c h1 c1 (c2.trans h3)
        constructor
        · exact (hup a h1 (h2.le.trans h3)).2 (hsinpos _ n (by linarith) (by linarith))
        · exact (hdown b (h1.trans h2.le) h3).2 (hsinneg _ n (by linarith) (by linarith))
  have hkind : ∀ a c b, H a c b → ∃ n : ℤ, u c = 2 * π * n ∨ u c = 2 * π * n + π := by
    rintro a c b (⟨-, -, n, hn⟩ | ⟨-, -, n, hn⟩)
    · exact ⟨n, Or.inl hn⟩
    · exact ⟨n, Or.inr hn⟩
  have hchange : ∀ a b, jd0 ≤ a → a < b → b ≤ jd1 → b - a < step → (f.call a ≠ f.call b ↔ ∃ c, H a c b) := by
    intro a b h1 h2 h3 h4
    have hg := hgain a b h1 h2.le h3 h4
    have hinc := hu.increasing a b h1 h2 h3
    constructor
    · intro hn
      rcases lt_or_ge 0 (sin (u a)) with ea | ea <;> rcases lt_or_ge 0 (sin (u b)) with eb | eb
      · exact absurd (((hf a h1 (h2.le.trans h3)).1 ea).trans ((hf b (h1.trans h2.le) h3).1 eb).symm) hn
      · obtain ⟨n, ⟨a1, a2⟩ | ⟨a1, a2⟩⟩ := hcases (u a)
        · have hb : 2 * π * n + π ≤ u b := by
            by_contra hc
            exact absurd (hsinpos (u b) n (by linarith) (not_le.1 hc)) (not_lt.2 eb)
          obtain ⟨c, c1, c2, c3⟩ := exists_at hu h1 h2.le h3 a2.le hb
          refine ⟨c, Or.inr ⟨lt_of_le_of_ne c1 ?_, c2, n, c3⟩⟩
          rintro rfl
          linarith
        · exact absurd (hsinneg _ n a1 a2) (not_le.2 ea)
      · obtain ⟨n, ⟨a1, a2⟩ | ⟨a1, a2⟩⟩ := hcases (u b)
        · have ha : u a ≤ 2 * π * n := by
            by_contra hc
            exact absurd (hsinpos (u a) n (not_le.1 hc) (by linarith)) (not_lt.2 ea)
          obtain ⟨c, c1, c2, c3⟩ := exists_at hu h1 h2.le h3 ha a1.le
          refine ⟨c, Or.inl ⟨c1, lt_of_le_of_ne c2 ?_, n, c3⟩⟩
          rintro rfl
          linarith
        · exact absurd (hsinneg _ n a1 a2) (not_le.2 eb)
      · exact absurd (((hf a h1 (h2.le.trans h3)).2 ea).trans ((hf b (h1.trans h2.le) h3).2 eb).symm) hn
    · rintro ⟨c, hc⟩
      obtain ⟨k1, k2⟩ := hafter a b c h1 h2 h3 hg hc
      obtain ⟨n, e | e⟩ := hkind a c b hc
      · rw [(k1 n e).1, (k1 n e).2]; exact hne.symm
      · rw [(k2 n e).1, (k2 n e).2]; exact hne
  have hapart : ∀ c c', H jd0 c jd1 → H jd0 c' jd1 → c < c' → epsilon < c' - c := by
    intro c c' hc hc' h3
    by_contra hcon
    have r := hB.le _ _ _ hc
    have r' := hB.le _ _ _ hc'
    have e1 := hsmall c c' r.1 h3.le r'.2 (by linarith)
    have e2 := hu.increasing c c' r.1 h3 r'.2
    have hn : ∃ i : ℤ, u c = π * i := by
      obtain ⟨n, e | e⟩ := hkind _ _ _ hc
      · exact ⟨2 * n, by rw [e]; push_cast; ring⟩
      · exact ⟨2 * n + 1, by rw [e]; push_cast; ring⟩
    have hn' : ∃ i : ℤ, u c' = π * i := by
      obtain ⟨n, e | e⟩ := hkind _ _ _ hc'
      · exact ⟨2 * n, by rw [e]; push_cast; ring⟩
      · exact ⟨2 * n + 1, by rw [e]; push_cast; ring⟩
    obtain ⟨i, hi⟩ := hn
    obtain ⟨j, hj⟩ := hn'
    rw [hi, hj] at e1 e2
    have a1 : (i : ℝ) < j := lt_of_mul_lt_mul_left e2 hp.le
    have a2 : i + 1 ≤ j := by exact_mod_cast a1
    have a3 : (i : ℝ) + 1 ≤ j := by exact_mod_cast a2
    have a4 := mul_le_mul_of_nonneg_left a3 hp.le
    linarith
  obtain ⟨hr, hv⟩ := C115_search hB hnum hstep hpos hchange hapart h
  refine ⟨hr, ?_⟩
  intro e he c n h3 h4
  have key : H jd0 c jd1 → (u c = 2 * π * n → e.2 = up) ∧ (u c = 2 * π * n + π → e.2 = down) := by
    intro hc
    obtain ⟨s, hs, s1, s2, s3, h5, h6⟩ := hv e he c hc h3 h4
    obtain ⟨k1, k2⟩ := hafter s e.1 c s1 (hB.lt _ _ _ hs) h5 (hgain s e.1 s1 (hB.lt _ _ _ hs).le h5 s3) hs
    exact ⟨fun q => h6.symm.trans (k1 n q).2, fun q => h6.symm.trans (k2 n q).2⟩
  exact ⟨fun a b q => (key (Or.inl ⟨a, b, n, q⟩)).1 q, fun a b q => (key (Or.inr ⟨a, b, n, q⟩)).2 q⟩

/-- An angle that grows by a radian a day, in quarters of the turn, from day 0 to day 20, with a step of two days: what `C115_search`,
`C115_spells` and `C115_sectors` ask for, and what they say of the first quarter turn. -/
example : ∃ (fuel : ℕ) (events : List (ℝ × ℤ)),
    findDiscrete 0 20 ⟨fun t => ⌊t / (2 * π / (4 : ℕ))⌋ % (4 : ℕ), some 2, none⟩ (0.01 : ℝ) 12 fuel = .ok (some events) ∧
    ∃ t, (t, (1 : ℤ)) ∈ events ∧ π / 2 ≤ t ∧ t ≤ π / 2 + 0.01 := by
  have hp := pi_gt_three
  have hp' := pi_lt_four
  obtain ⟨fuel, events, h⟩ := exists_search 0 20 (by norm_num) (⟨fun t => ⌊t / (2 * π / (4 : ℕ))⌋ % (4 : ℕ), some 2, none⟩ : Searchable ℝ ℤ)
    (step := 2) (epsilon := 0.01) rfl (by norm_num) (by norm_num) 12 (by norm_num)
  obtain ⟨hr, hv⟩ := C115_sectors (k := 4) (by norm_num) (jd0 := 0) (jd1 := 20) (epsilon := 0.01) (step := 2) (d := 1) (L := fun t => t)
    ⟨continuousOn_id, fun s t _ hst _ => hst⟩ (fun s t _ _ _ h => by push_cast; linarith) (fun s t _ _ _ h => by push_cast; linarith) (by norm_num)
    (f := ⟨fun t => ⌊t / (2 * π / (4 : ℕ))⌋ % (4 : ℕ), some 2, none⟩) (by norm_num) rfl (by norm_num) (F := id) Function.injective_id
    (fun t _ _ => rfl) h
  obtain ⟨e, ⟨he, h1, h2⟩, -⟩ := hr.each (π / 2) ⟨by linarith, by linarith, 1, by push_cast; ring⟩
  have hv' := hv e he (π / 2) 1 (by linarith) (by linarith) (by push_cast; ring) h1 h2
  refine ⟨fuel, events, h, e.1, ?_, h1, h2⟩
  rw [show (e.1, (1 : ℤ)) = e from Prod.ext rfl (by rw [hv']; rfl)]
  exact he

/-- In the first day and a half of it, the search sees no change; nor is there one at its ends in a spell that is over by then. -/
example : findDiscrete 0 1.5 ⟨fun t : ℝ => decide (1 ≤ t ∧ t ≤ 1.2), some 2, none⟩ (0.01 : ℝ) 12 5 = .ok (some []) :=
  C115_short_spell_missed (step := 2) rfl (by norm_num) (by norm_num)
    (show decide ((1 : ℝ) ≤ 0 ∧ (0 : ℝ) ≤ 1.2) = decide ((1 : ℝ) ≤ 1.5 ∧ (1.5 : ℝ) ≤ 1.2) by norm_num) _ _ _

end Skyfield
