import Verif.Lemmas.SatelliteEvents
import Verif.Spec.Settles
import Mathlib.Data.Real.Archimedean

/-
C117, first part: a search of a condition that comes and goes in long spells tells when it holds.
-/
namespace Skyfield
open _root_.Spec
set_option linter.unusedSectionVars false

section
variable {V : Type*} [DecidableEq V] {f : ℝ → V}

/-! ### Brackets between two samples -/

private theorem good_between {lo A B : ℝ} (hAB : A ≤ B) : ∀ {p m : List (ℝ × ℝ)} {lo : ℝ}, Good f lo A p → Good f lo B (p ++ m) →
    (∀ b ∈ m, A ≤ b.1) → Good f A B m := by
  intro p
  induction p with
  | nil =>
    intro m lo h1 h2 h3
    cases m with
    | nil => exact ⟨hAB, h1.2.symm.trans h2.2⟩
    | cons b m => exact ⟨h3 b (by simp), h1.2.symm.trans h2.2.1, h2.2.2⟩
  | cons a p ih =>
    intro m lo h1 h2 h3
    exact ih h1.2.2.2.2 h2.2.2.2.2 h3

/-- The brackets between two moments that the brackets respect. -/
private theorem split {lo hi A B : ℝ} (hAB : A < B) {bs : List (ℝ × ℝ)} (hA : Through f lo hi A bs) (hB : Through f lo hi B bs) :
    ∃ p m q, bs = p ++ (m ++ q) ∧ Good f lo A p ∧ Good f A B m ∧ Good f B hi q := by
  obtain ⟨p1, p2, e1, g1, g2⟩ := hA
  obtain ⟨q1, q2, e2, g3, g4⟩ := hB
  have e : p1 ++ p2 = q1 ++ q2 := e1.symm.trans e2
  rcases List.append_eq_append_iff.1 e with ⟨m, h1, h2⟩ | ⟨m, h1, h2⟩
  · refine ⟨p1, m, q2, by rw [e1, h2], g1, ?_, g4⟩
    rw [h1] at g3
    exact good_between hAB.le (lo := lo) g1 g3 fun b hb => (g2.mem (by rw [h2]; simp [hb])).1
  · have hm : m = [] := by
      rw [List.eq_nil_iff_forall_not_mem]
      intro b hb
      have h3 := (g1.mem (b := b) (by rw [h1]; simp [hb]))
      have h4 := (g4.mem (b := b) (by rw [h2]; simp [hb]))
      linarith [h3.2.2.1, h4.1, h3.2.1]
    subst hm
    rw [List.append_nil] at h1
    rw [List.nil_append] at h2
    subst h1 h2
    refine ⟨p1, [], q2, by rw [e1]; simp, g1, ?_, g4⟩
    exact good_between (lo := lo) hAB.le g1 (by simpa using g3) (by simp)

private theorem latest_prefix {A u : ℝ} (hu : A ≤ u) : ∀ {p : List (ℝ × ℝ)} {lo : ℝ} {r : List (ℝ × V)}, Good f lo A p →
    latest (f lo) (p.map (fun b => (b.2, f b.2)) ++ r) u = latest (f A) r u := by
  intro p
  induction p with
  | nil => intro lo r h; rw [h.2]; rfl
  | cons b p ih =>
    intro lo r h
    have hm := h.mem (b := b) (by simp)
    rw [List.map_cons, List.cons_append, latest, if_pos (by show b.2 ≤ u; linarith [hm.2.2.1])]
    exact ih h.2.2.2.2

private theorem latest_late {v : V} {u : ℝ} : ∀ {q : List (ℝ × V)}, (∀ e ∈ q, u < e.1) → latest v q u = v := by
  intro q h
  cases q with
  | nil => rfl
  | cons e q => rw [latest, if_neg (not_le.2 (h e (by simp)))]

/-- What the latest event says at a moment between two samples. -/
private theorem latest_between {lo hi A B u : ℝ} {p m q : List (ℝ × ℝ)} (hA : Good f lo A p) (hB : Good f B hi q) (h0 : A ≤ u) (h1 : u ≤ B) :
    latest (f lo) ((p ++ (m ++ q)).map fun b => (b.2, f b.2)) u = latest (f A) (m.map fun b => (b.2, f b.2)) u := by
  rw [List.map_append, latest_prefix h0 hA, List.map_append]
  generalize f A = v
  induction m generalizing v with
  | nil =>
    rw [List.map_nil, List.nil_append, latest, latest_late]
    intro e he
    obtain ⟨b, hb, rfl⟩ := List.mem_map.1 he
    have := hB.mem hb
    exact lt_of_le_of_lt (h1.trans this.1) this.2.1
  | cons b m ih =>
    rw [List.map_cons, List.cons_append, latest, latest, ih]

/-! ### What the brackets of a search are like -/

/-- The brackets `bs` of a search from `lo` to `hi` whose samples were `w` apart. -/
private structure Found (f : ℝ → V) (lo hi w least most : ℝ) (m : ℕ) (bs : List (ℝ × ℝ)) : Prop where
  last : lo + (m + 1) * w = hi
  good : Good f lo hi bs
  wide : ∀ b ∈ bs, least ≤ b.2 - b.1 ∧ b.2 - b.1 ≤ most
  through : ∀ i : ℕ, i ≤ m + 1 → Through f lo hi (lo + i * w) bs

private theorem loop_found (epsilon lo hi w : ℝ) (n : ℕ) (fuel : ℕ) (jd : List ℝ) (events : List (ℝ × V))
    (hg : Good f lo hi (changes f jd)) (hw : ∀ b ∈ changes f jd, b.2 - b.1 = w) (hwe : epsilon / (n + 1) ≤ w)
    (h : discreteLoop f epsilon (n + 2) fuel jd = some events) :
    ∃ bs, Good f lo hi bs ∧ events = bs.map (fun b => (b.2, f b.2)) ∧
      (∀ b ∈ bs, epsilon / (n + 1) ≤ b.2 - b.1 ∧ b.2 - b.1 ≤ epsilon) ∧ (∀ x, Through f lo hi x (changes f jd) → Through f lo hi x bs) := by
  induction fuel generalizing jd w with
  | zero => simp [discreteLoop] at h
  | succ fuel ih =>
    unfold discreteLoop discreteRound at h
    by_cases h0 : changes f jd = []
    · simp only [h0, if_true] at h
      rw [h0] at hg
      simp only [Option.some.injEq] at h
      subst h
      exact ⟨[], hg, rfl, by simp, by simp [h0]⟩
    · by_cases h1 : (changes f jd).all fun b => b.2 - b.1 ≤ epsilon
      · simp only [if_neg h0, if_pos h1, Option.some.injEq] at h
        refine ⟨changes f jd, hg, h.symm, ?_, fun x hx => hx⟩
        intro b hb
        exact ⟨by rw [hw b hb]; exact hwe, by simpa using List.all_eq_true.1 h1 b hb⟩
      · simp only [if_neg h0, if_neg h1] at h
        have hlt : epsilon < w := by
          by_contra hc
          push Not at hc
          refine h1 (List.all_eq_true.2 fun b hb => ?_)
          simpa [hw b hb] using hc
        obtain ⟨bs, a1, a2, a3, a4⟩ := ih (w / (n + 1)) _ (good_refine n hg h0) (refine_width n hg hw) (by gcongr) h
        exact ⟨bs, a1, a2, a3, fun x hx => a4 x (through_refine n hx)⟩

private theorem found {lo hi epsilon step : ℝ} {f : Searchable ℝ V} {num fuel : ℕ} {events : List (ℝ × V)} (hnum : 2 ≤ num)
    (hstep : f.stepDays = some step) (heps : 0 < epsilon) (heps' : 2 * epsilon ≤ step) (hlong : lo + epsilon ≤ hi)
    (h : findDiscrete lo hi f epsilon num fuel = .ok (some events)) :
    ∃ w m bs, Found f.call lo hi w (epsilon / (num - 1)) epsilon m bs ∧ events = bs.map (fun b => (b.2, f.call b.2)) ∧ epsilon ≤ w ∧ w < step := by
  have hpos : 0 < step := by linarith
  unfold findDiscrete at h
  cases hs : discreteSamples lo hi f num with
  | error e => rw [hs] at h; simp at h
  | ok jd =>
    rw [hs] at h
    simp only [Except.ok.injEq] at h
    obtain ⟨n, rfl⟩ : ∃ n, num = n + 2 := ⟨num - 2, by omega⟩
    have e : ((n + 2 : ℕ) : ℝ) - 1 = n + 1 := by push_cast; ring
    rw [e]
    have h0 : 0 ≤ (hi - lo) / step := div_nonneg (by linarith) hpos.le
    have hn : 0 ≤ ⌊(hi - lo) / step⌋ := Int.floor_nonneg.2 h0
    obtain ⟨m, hm⟩ := Int.eq_ofNat_of_zero_le hn
    have ej : jd = npLinspace lo hi (m + 2) := by
      unfold discreteSamples at hs
      rw [if_neg (by push Not; linarith)] at hs
      have ha : astypeInt ((hi - lo) / step) = m := by unfold astypeInt; rw [if_pos h0, hm]
      simp only [hstep, ha] at hs
      rw [if_neg (by omega), Except.ok.injEq] at hs
      rw [← hs]
      rfl
    subst ej
    have hm0 : (0 : ℝ) ≤ m := Nat.cast_nonneg m
    have hw1 : epsilon ≤ (hi - lo) / (m + 1) := by
      rw [le_div_iff₀ (by positivity)]
      rcases Nat.eq_zero_or_pos m with hz | hz
      · rw [hz]; push_cast; linarith
      · have h2 := Int.floor_le ((hi - lo) / step)
        rw [hm, le_div_iff₀ hpos] at h2
        push_cast at h2
        have h3 : (1 : ℝ) ≤ m := by exact_mod_cast hz
        nlinarith
    have hw2 : (hi - lo) / (m + 1) < step := by
      rw [div_lt_iff₀ (by positivity)]
      have h2 := Int.lt_floor_add_one ((hi - lo) / step)
      rw [hm, div_lt_iff₀ hpos] at h2
      push_cast at h2
      linarith
    have hadj : ∀ b ∈ changes f.call (npLinspace lo hi (m + 2)), b.2 - b.1 = (hi - lo) / (m + 1) := by
      intro b hb
      rw [npLinspace_adjacent lo hi (m + 2) b (List.mem_of_mem_filter hb)]
      push_cast
      congr 1
      ring
    have h1 : epsilon / (n + 1) ≤ (hi - lo) / (m + 1) :=
      (div_le_self heps.le (by linarith [(Nat.cast_nonneg n : (0 : ℝ) ≤ n)])).trans hw1
    obtain ⟨bs, b1, b2, b3, b4⟩ := loop_found epsilon lo hi _ n fuel _ events (samples_good f.call lo hi m (by linarith)) hadj h1 h
    refine ⟨(hi - lo) / (m + 1), m, bs, ⟨?_, b1, b3, ?_⟩, b2, hw1, hw2⟩
    · field_simp
      ring
    · intro i hi'
      refine b4 _ (through_samples _ _ (npLinspace_sorted _ _ _ (by linarith)) _ _ (npLinspace_head _ _ _) (npLinspace_last _ _ _) _ ?_)
      unfold npLinspace
      refine List.mem_map.2 ⟨i, List.mem_range.2 (by omega), ?_⟩
      push_cast
      congr 2
      congr 1
      ring

/-! ### The story they tell -/

/-- What the story needs. -/
private structure Calm (f : ℝ → V) (lo hi w least most long tiny : ℝ) (m : ℕ) (bs : List (ℝ × ℝ)) : Prop extends Found f lo hi w least most m bs where
  settles : Settles long tiny lo hi f
  pos : 0 < tiny
  fine : 8 * tiny < least
  order : least ≤ most
  steps : most ≤ w
  long : w + 4 * tiny < long

section
variable {lo hi w least most long tiny : ℝ} {m : ℕ} {bs : List (ℝ × ℝ)}

private theorem Calm.inside (c : Calm f lo hi w least most long tiny m bs) (i : ℕ) (hi' : i ≤ m) :
    lo ≤ lo + i * w ∧ lo + (i + 1 : ℕ) * w ≤ hi ∧ lo + (i + 1 : ℕ) * w = lo + i * w + w := by
  have h1 := c.last
  have hw : 0 ≤ w := by linarith [c.pos, c.fine, c.order, c.steps]
  have h2 : (i : ℝ) ≤ m := by exact_mod_cast hi'
  have h3 : (0 : ℝ) ≤ i := Nat.cast_nonneg i
  refine ⟨by nlinarith, ?_, by push_cast; ring⟩
  push_cast
  nlinarith

/-- The brackets between two samples. -/
private theorem Calm.cell (c : Calm f lo hi w least most long tiny m bs) (i : ℕ) (hi' : i ≤ m) :
    ∃ p mid q, bs = p ++ (mid ++ q) ∧ Good f lo (lo + i * w) p ∧ Good f (lo + i * w) (lo + (i + 1 : ℕ) * w) mid ∧ Good f (lo + (i + 1 : ℕ) * w) hi q := by
  obtain ⟨h1, h2, h3⟩ := c.inside i hi'
  have hw : 0 < w := by linarith [c.pos, c.fine, c.order, c.steps]
  exact split (by rw [h3]; linarith) (c.through i (by omega)) (c.through (i + 1) (by omega))

/-- The stretch between brackets around a moment. -/
private theorem around {B u : ℝ} (h1 : u ≤ B) : ∀ {mid : List (ℝ × ℝ)} {A : ℝ}, A ≤ u → Good f A B mid → (∀ b ∈ mid, u ≤ b.1 ∨ b.2 ≤ u) →
    ∃ L R, A ≤ L ∧ L ≤ u ∧ u ≤ R ∧ R ≤ B ∧ f L = f R ∧ latest (f A) (mid.map fun b => (b.2, f b.2)) u = f L ∧
      (L = A ∨ ∃ b ∈ mid, b.2 = L) ∧ (R = B ∨ ∃ b ∈ mid, b.1 = R) := by
  intro mid
  induction mid with
  | nil => intro A h0 g _; exact ⟨A, B, le_rfl, h0, h1, le_rfl, g.2, rfl, Or.inl rfl, Or.inl rfl⟩
  | cons b mid ih =>
    intro A h0 g hout
    have hb := g.mem (b := b) (by simp)
    rcases hout b (by simp) with h | h
    · refine ⟨A, b.1, le_rfl, h0, h, by linarith, g.2.1, ?_, Or.inl rfl, Or.inr ⟨b, by simp, rfl⟩⟩
      rw [List.map_cons, latest, if_neg (by push Not; show u < b.2; linarith)]
    · obtain ⟨L, R, a1, a2, a3, a4, a5, a6, a7, a8⟩ := ih h g.2.2.2.2 fun b' hb' => hout b' (List.mem_cons_of_mem _ hb')
      refine ⟨L, R, by linarith, a2, a3, a4, a5, ?_, ?_, ?_⟩
      · rw [List.map_cons, latest, if_pos h]
        exact a6
      · rcases a7 with a7 | ⟨b', k1, k2⟩
        · exact Or.inr ⟨b, by simp, a7.symm⟩
        · exact Or.inr ⟨b', List.mem_cons_of_mem _ k1, k2⟩
      · rcases a8 with a8 | ⟨b', k1, k2⟩
        · exact Or.inl a8
        · exact Or.inr ⟨b', List.mem_cons_of_mem _ k1, k2⟩

/-- A moment is in a bracket or out of them all. -/
private theorem in_or_out (u : ℝ) (mid : List (ℝ × ℝ)) : (∃ b ∈ mid, b.1 < u ∧ u < b.2) ∨ ∀ b ∈ mid, u ≤ b.1 ∨ b.2 ≤ u := by
  by_cases h : ∃ b ∈ mid, b.1 < u ∧ u < b.2
  · exact Or.inl h
  · right
    push Not at h
    intro b hb
    rcases le_or_gt u b.1 with h1 | h1
    · exact Or.inl h1
    · exact Or.inr (h b hb h1)

/-- A flicker just after a sample belongs to an event just before it. -/
private theorem Calm.back (c : Calm f lo hi w least most long tiny m bs) {i : ℕ} (hi' : i ≤ m) {u R : ℝ} (h0 : lo + 4 * tiny ≤ u)
    (h1 : lo + i * w < u) (h2 : u - (lo + i * w) ≤ tiny) (h3 : u + tiny < R) (h4 : R ≤ lo + (i + 1 : ℕ) * w) (h5 : f (lo + i * w) = f R)
    (h6 : f u ≠ f (lo + i * w)) : ∃ b ∈ bs, b.2 ≤ u ∧ u ≤ b.2 + 4 * tiny := by
  have hpos := c.pos
  have hfine := c.fine
  have horder := c.order
  have hsteps := c.steps
  have hlong := c.long
  obtain ⟨j, rfl⟩ : ∃ j, i = j + 1 := by
    refine ⟨i - 1, ?_⟩
    rcases Nat.eq_zero_or_pos i with hz | hz
    · exfalso
      rw [hz] at h2
      push_cast at h2
      linarith
    · omega
  obtain ⟨-, i2, i3⟩ := c.inside (j + 1) hi'
  obtain ⟨j1, j2, j3⟩ := c.inside j (by omega)
  obtain ⟨p, mid, q, e, -, g, -⟩ := c.cell j (by omega)
  have hmem : ∀ b ∈ mid, b ∈ bs := fun b hb => by rw [e]; simp [hb]
  generalize lo + ((j + 1 + 1 : ℕ) : ℝ) * w = C at *
  generalize hA : lo + ((j + 1 : ℕ) : ℝ) * w = A at *
  generalize lo + (j : ℝ) * w = Z at *
  have hx : f (u - 3 * tiny) ≠ f A := by
    intro he
    rcases c.settles (u - 3 * tiny) u R (by linarith) (by linarith) (by linarith) (by linarith) (by linarith) (he.trans h5) with h | h | h
    · exact h6 (h.trans he)
    · linarith
    · linarith
  rcases in_or_out (u - 3 * tiny) mid with ⟨b, hb, k1, k2⟩ | hout
  · have := g.mem hb
    exact ⟨b, hmem b hb, by linarith [this.2.2.1], by linarith⟩
  obtain ⟨L, R', a1, a2, a3, a4, a5, -, a7, a8⟩ := around (by linarith) (by linarith : Z ≤ u - 3 * tiny) g hout
  rcases a8 with a8 | ⟨b, hb, k⟩
  · rw [a8] at a5
    rcases a7 with a7 | ⟨b, hb, k⟩
    · exfalso
      rw [a7] at a5
      rcases c.settles Z (u - 3 * tiny) A j1 (by linarith) (by linarith) (by linarith) (by linarith) a5 with h | h | h
      · exact hx (h.trans a5)
      · linarith
      · linarith
    · have hg := g.mem hb
      refine ⟨b, hmem b hb, by linarith, ?_⟩
      by_contra hcon
      push Not at hcon
      rcases c.settles L (u - 3 * tiny) A (by linarith) (by linarith) (by linarith) (by linarith) (by linarith) a5 with h | h | h
      · exact hx (h.trans a5)
      · linarith
      · linarith
  · have hg := g.mem hb
    exact ⟨b, hmem b hb, by linarith [hg.2.2.1], by linarith [hg.2.1]⟩

/-- A flicker just before a sample belongs to an event just after it. -/
private theorem Calm.ahead (c : Calm f lo hi w least most long tiny m bs) {i : ℕ} (hi' : i ≤ m) {u L : ℝ} (h0 : u ≤ hi - 4 * tiny)
    (h1 : u < lo + (i + 1 : ℕ) * w) (h2 : lo + (i + 1 : ℕ) * w - u ≤ tiny) (h3 : L + tiny < u) (h4 : lo + i * w ≤ L) (h5 : f L = f (lo + (i + 1 : ℕ) * w))
    (h6 : f u ≠ f (lo + (i + 1 : ℕ) * w)) : ∃ b ∈ bs, u ≤ b.2 ∧ b.2 ≤ u + most + 4 * tiny := by
  have hpos := c.pos
  have hfine := c.fine
  have horder := c.order
  have hsteps := c.steps
  have hlong := c.long
  have hlt : i + 1 ≤ m := by
    by_contra hc
    have : i = m := by omega
    subst this
    have := c.last
    push_cast at h2
    linarith
  obtain ⟨i1, i2, i3⟩ := c.inside i hi'
  obtain ⟨j1, j2, j3⟩ := c.inside (i + 1) hlt
  obtain ⟨p, mid, q, e, -, g, -⟩ := c.cell (i + 1) hlt
  have hmem : ∀ b ∈ mid, b ∈ bs := fun b hb => by rw [e]; simp [hb]
  generalize lo + ((i + 1 + 1 : ℕ) : ℝ) * w = C at *
  generalize lo + ((i + 1 : ℕ) : ℝ) * w = B at *
  generalize lo + (i : ℝ) * w = A at *
  have hx : f (u + 3 * tiny) ≠ f B := by
    intro he
    rcases c.settles L u (u + 3 * tiny) (by linarith) (by linarith) (by linarith) (by linarith) (by linarith) (h5.trans he.symm) with h | h | h
    · exact h6 (h.trans h5)
    · linarith
    · linarith
  rcases in_or_out (u + 3 * tiny) mid with ⟨b, hb, k1, k2⟩ | hout
  · have := g.mem hb
    exact ⟨b, hmem b hb, by linarith, by linarith [(c.wide b (hmem b hb)).2]⟩
  obtain ⟨L', R, a1, a2, a3, a4, a5, -, a7, a8⟩ := around (by linarith) (by linarith : B ≤ u + 3 * tiny) g hout
  rcases a7 with a7 | ⟨b, hb, k⟩
  · rw [a7] at a5
    rcases a8 with a8 | ⟨b, hb, k⟩
    · exfalso
      rcases c.settles B (u + 3 * tiny) R (by linarith) (by linarith) (by linarith) (by linarith) (by linarith) a5 with h | h | h
      · exact hx h
      · linarith
      · linarith
    · have hg := g.mem hb
      have hwide := c.wide b (hmem b hb)
      refine ⟨b, hmem b hb, by linarith, ?_⟩
      by_contra hcon
      push Not at hcon
      rcases c.settles B (u + 3 * tiny) R (by linarith) (by linarith) (by linarith) (by linarith) (by linarith) a5 with h | h | h
      · exact hx h
      · linarith
      · linarith
  · have hg := g.mem hb
    exact ⟨b, hmem b hb, by linarith, by linarith⟩

/-- Every moment lies between two samples. -/
private theorem Calm.between (c : Calm f lo hi w least most long tiny m bs) {u : ℝ} (h0 : lo ≤ u) (h1 : u ≤ hi) :
    ∃ i : ℕ, i ≤ m ∧ lo + i * w ≤ u ∧ u ≤ lo + (i + 1 : ℕ) * w := by
  have hw : 0 < w := by linarith [c.pos, c.fine, c.order, c.steps]
  by_cases hl : u < hi
  · have hq : 0 ≤ (u - lo) / w := div_nonneg (by linarith) hw.le
    refine ⟨⌊(u - lo) / w⌋₊, ?_, ?_, ?_⟩
    · have h2 : (u - lo) / w < (m + 1 : ℕ) := by
        rw [div_lt_iff₀ hw]
        push_cast
        linarith [c.last]
      have := (Nat.floor_lt hq).2 h2
      omega
    · have := Nat.floor_le hq
      rw [le_div_iff₀ hw] at this
      linarith
    · have := (Nat.lt_floor_add_one ((u - lo) / w)).le
      rw [div_le_iff₀ hw] at this
      push_cast
      linarith
  · have e : u = hi := le_antisymm h1 (not_lt.1 hl)
    refine ⟨m, le_rfl, ?_, ?_⟩
    · have := (c.inside m le_rfl).2
      rw [e]
      linarith
    · rw [e, ← c.last]
      push_cast
      linarith

private theorem Calm.tells (c : Calm f lo hi w least most long tiny m bs) :
    Tells (most + 4 * tiny) (4 * tiny) lo hi f (bs.map fun b => (b.2, f b.2)) := by
  intro u h0 h1 hfar
  have hpos := c.pos
  have hfine := c.fine
  have horder := c.order
  have hsteps := c.steps
  have hlong := c.long
  have far : ∀ b ∈ bs, u < b.2 - (most + 4 * tiny) ∨ b.2 + 4 * tiny < u := fun b hb => hfar (b.2, f b.2) (List.mem_map.2 ⟨b, hb, rfl⟩)
  obtain ⟨i, i0, i1, i2⟩ := c.between (by linarith) (by linarith : u ≤ hi)
  obtain ⟨p, mid, q, e, g1, g, g2⟩ := c.cell i i0
  have hmem : ∀ b ∈ mid, b ∈ bs := fun b hb => by rw [e]; simp [hb]
  obtain ⟨j1, j2, j3⟩ := c.inside i i0
  have hlat := latest_between (m := mid) g1 g2 i1 i2
  rw [← e] at hlat
  rw [hlat]
  have hout : ∀ b ∈ mid, u ≤ b.1 ∨ b.2 ≤ u := by
    rcases in_or_out u mid with ⟨b, hb, k1, k2⟩ | h
    · have := (c.wide b (hmem b hb)).2
      rcases far b (hmem b hb) with h | h <;> linarith
    · exact h
  obtain ⟨L, R, a1, a2, a3, a4, a5, a6, a7, a8⟩ := around i2 i1 g hout
  rw [a6]
  have ends : (L = lo + i * w ∨ L + tiny < u) ∧ (R = lo + (i + 1 : ℕ) * w ∨ u + tiny < R) := by
    refine ⟨a7.imp id ?_, a8.imp id ?_⟩
    · rintro ⟨b, hb, rfl⟩
      rcases far b (hmem b hb) with h | h <;> linarith
    · rintro ⟨b, hb, rfl⟩
      have := c.wide b (hmem b hb)
      have := g.mem hb
      rcases far b (hmem b hb) with h | h <;> linarith
  rcases eq_or_lt_of_le a2 with hL | hL
  · rw [hL]
  rcases eq_or_lt_of_le a3 with hR | hR
  · rw [hR, a5]
  rcases c.settles L u R (by linarith) hL hR (by linarith) (by linarith) a5 with h | h | h
  · exact h
  · have e1 : L = lo + i * w := by
      rcases ends.1 with h' | h'
      · exact h'
      · linarith
    have e2 : u + tiny < R := by
      rcases ends.2 with h' | h' <;> linarith
    by_contra hne
    rw [e1] at hne h hL a5
    obtain ⟨b, hb, b1, b2⟩ := c.back i0 h0 hL h e2 a4 a5 hne
    rcases far b hb with h | h <;> linarith
  · have e1 : R = lo + (i + 1 : ℕ) * w := by
      rcases ends.2 with h' | h'
      · exact h'
      · linarith
    have e2 : L + tiny < u := by
      rcases ends.1 with h' | h' <;> linarith
    by_contra hne
    rw [a5] at hne
    rw [e1] at hne h hR a5
    obtain ⟨b, hb, b1, b2⟩ := c.ahead i0 h1 hR h e2 a1 a5 hne
    rcases far b hb with h | h <;> linarith

private theorem good_differ {v : ℝ} : ∀ {l : List (ℝ × ℝ)}, Good f v hi l → (∀ b ∈ l, least ≤ b.2 - b.1 ∧ b.2 - b.1 ≤ most) →
    ∀ x ∈ (l.map fun b => (b.2, f b.2)).zip (l.map fun b => (b.2, f b.2)).tail, x.1.2 ≠ x.2.2 ∧ x.1.1 < x.2.1 ∧
      ∃ s, x.1.1 ≤ s ∧ s < x.2.1 ∧ least ≤ x.2.1 - s ∧ x.2.1 - s ≤ most ∧ f s = x.1.2 := by
  intro l
  induction l generalizing v with
  | nil => intro _ _ x hx; simp at hx
  | cons b l ih =>
    intro hg hw x hx
    cases l with
    | nil => simp at hx
    | cons d l =>
      obtain ⟨k1, k2, k3, k4, k5⟩ := hg
      have hd := k5.mem (b := d) (by simp)
      have hwd := hw d (by simp)
      simp only [List.map_cons, List.tail_cons, List.zip_cons_cons, List.mem_cons] at hx
      rcases hx with rfl | hx
      · exact ⟨by rw [k5.2.1]; exact k5.2.2.2.1, by show b.2 < d.2; linarith, d.1, k5.1, hd.2.1, hwd.1, hwd.2, k5.2.1.symm⟩
      · exact ih k5 (fun b' hb' => hw b' (List.mem_cons_of_mem _ hb')) x hx

end

/-- **C117.** A search with `find_discrete` of a function with any values, that keeps to each for a while: within less than `long` it does not leave a value and come back, but
for flickering for `tiny` when it changes, where `long` is more than the step and `tiny` is small against `epsilon`.  What the search returns tells the values: each event is a change,
made no more than `epsilon` before; between the events the value is what the latest event says, except from `epsilon` and `4 tiny` ahead of an event to `4 tiny` behind it; and
what each event changes is what the event before it says. -/
theorem C117_search_values {f : Searchable ℝ V} {lo hi step epsilon long tiny : ℝ} {num fuel : ℕ} {events : List (ℝ × V)}
    (hsettles : Settles long tiny lo hi f.call) (hnum : 2 ≤ num) (hstep : f.stepDays = some step) (heps : 0 < epsilon) (heps' : 2 * epsilon ≤ step)
    (hspan : lo + epsilon ≤ hi) (htiny : 0 < tiny) (hfine : 8 * tiny * (num - 1) < epsilon) (hlong : step + 4 * tiny ≤ long)
    (h : findDiscrete lo hi f epsilon num fuel = .ok (some events)) :
    (∀ e ∈ events, lo < e.1 ∧ e.1 ≤ hi ∧ f.call e.1 = e.2 ∧ ∃ s, lo ≤ s ∧ epsilon / (num - 1) ≤ e.1 - s ∧ e.1 - s ≤ epsilon ∧ f.call s ≠ e.2) ∧
    Tells (epsilon + 4 * tiny) (4 * tiny) lo hi f.call events ∧
    ∀ x ∈ events.zip events.tail, x.1.2 ≠ x.2.2 ∧ x.1.1 < x.2.1 ∧
      ∃ s, x.1.1 ≤ s ∧ s < x.2.1 ∧ epsilon / (num - 1) ≤ x.2.1 - s ∧ x.2.1 - s ≤ epsilon ∧ f.call s = x.1.2 := by
  obtain ⟨w, m, bs, hf, rfl, hw1, hw2⟩ := found hnum hstep heps heps' hspan h
  have hnum' : (2 : ℝ) ≤ num := by exact_mod_cast hnum
  have c : Calm f.call lo hi w (epsilon / (num - 1)) epsilon long tiny m bs :=
    { hf with
      settles := hsettles
      pos := htiny
      fine := by rw [lt_div_iff₀ (by linarith)]; exact hfine
      order := div_le_self heps.le (by linarith)
      steps := hw1
      long := by linarith }
  refine ⟨?_, c.tells, good_differ c.good c.wide⟩
  intro e he
  obtain ⟨b, hb, rfl⟩ := List.mem_map.1 he
  obtain ⟨h1, h2, h3, h4⟩ := c.good.mem hb
  exact ⟨by show lo < b.2; linarith, h3, rfl, b.1, h1, (c.wide b hb).1, (c.wide b hb).2, h4⟩

end

private theorem bool_eq {a b d : Bool} (h1 : a ≠ b) (h2 : d ≠ b) : a = d := by
  cases a <;> cases b <;> cases d <;> simp_all

section
variable {f : ℝ → Bool} {lo hi w least most long tiny : ℝ} {m : ℕ} {bs : List (ℝ × ℝ)}

private theorem Calm.gaps (c : Calm f lo hi w least most long tiny m bs) {v : ℝ} (hv : lo ≤ v) : ∀ {l : List (ℝ × ℝ)}, Good f v hi l → (∀ b ∈ l, b ∈ bs) →
    ∀ x ∈ (l.map fun b => (b.2, f b.2)).zip (l.map fun b => (b.2, f b.2)).tail, x.1.2 ≠ x.2.2 ∧ long - most ≤ x.2.1 - x.1.1 := by
  intro l
  induction l generalizing v with
  | nil => intro _ _ x hx; simp at hx
  | cons b l ih =>
    intro hg hmem x hx
    cases l with
    | nil => simp at hx
    | cons d l =>
      have hb := c.wide b (hmem b (by simp))
      have hd := c.wide d (hmem d (by simp))
      obtain ⟨k1, k2, k3, k4, k5⟩ := hg
      have k10 := k5.mem (b := d) (by simp)
      have k6 := k5.2.1
      simp only [List.map_cons, List.tail_cons, List.zip_cons_cons, List.mem_cons] at hx
      rcases hx with rfl | hx
      · simp only
        refine ⟨by rw [k6]; exact k5.2.2.2.1, ?_⟩
        by_contra hcon
        push Not at hcon
        have hfine := c.fine
        have hpos := c.pos
        have hne : f b.1 = f d.2 := by
          have k8 := k5.2.2.2.1
          rw [k6] at k4
          exact bool_eq k4 k8.symm
        rcases c.settles b.1 b.2 d.2 (hv.trans k1) k3 (by linarith) k10.2.2.1 (by linarith) hne with h | h | h
        · exact k4 h.symm
        · linarith
        · linarith
      · exact ih (by linarith) k5 (fun b' hb' => hmem b' (List.mem_cons_of_mem _ hb')) x hx

end

/-- **C117.** A search with `find_discrete` of a condition that comes and goes in spells longer than the step, but for flickering for `tiny` when it changes, where `tiny` is
small against `epsilon`: what it returns tells when the condition holds.  Each event is a change, made no more than `epsilon` before; between the events the condition is what
the latest event says, except from `epsilon` and `4 tiny` ahead of an event to `4 tiny` behind it; the events alternate, and are about `long` apart or more. -/
theorem C117_search {f : Searchable ℝ Bool} {lo hi step epsilon long tiny : ℝ} {num fuel : ℕ} {events : List (ℝ × Bool)}
    (hsettles : Settles long tiny lo hi f.call) (hnum : 2 ≤ num) (hstep : f.stepDays = some step) (heps : 0 < epsilon) (heps' : 2 * epsilon ≤ step)
    (hspan : lo + epsilon ≤ hi) (htiny : 0 < tiny) (hfine : 8 * tiny * (num - 1) < epsilon) (hlong : step + 4 * tiny ≤ long)
    (h : findDiscrete lo hi f epsilon num fuel = .ok (some events)) :
    (∀ e ∈ events, lo < e.1 ∧ e.1 ≤ hi ∧ f.call e.1 = e.2 ∧ ∃ s, lo ≤ s ∧ s < e.1 ∧ e.1 - s ≤ epsilon ∧ f.call s = !e.2) ∧
    Tells (epsilon + 4 * tiny) (4 * tiny) lo hi f.call events ∧
    ∀ x ∈ events.zip events.tail, x.1.2 ≠ x.2.2 ∧ long - epsilon ≤ x.2.1 - x.1.1 := by
  obtain ⟨w, m, bs, hf, rfl, hw1, hw2⟩ := found hnum hstep heps heps' hspan h
  have hnum' : (2 : ℝ) ≤ num := by exact_mod_cast hnum
  have c : Calm f.call lo hi w (epsilon / (num - 1)) epsilon long tiny m bs :=
    { hf with
      settles := hsettles
      pos := htiny
      fine := by rw [lt_div_iff₀ (by linarith)]; exact hfine
      order := div_le_self heps.le (by linarith)
      steps := hw1
      long := by linarith }
  refine ⟨?_, c.tells, c.gaps le_rfl c.good fun b hb => hb⟩
  intro e he
  obtain ⟨b, hb, rfl⟩ := List.mem_map.1 he
  obtain ⟨h1, h2, h3, h4⟩ := c.good.mem hb
  refine ⟨by show lo < b.2; linarith, h3, rfl, b.1, h1, h2, (c.wide b hb).2, ?_⟩
  show f.call b.1 = !f.call b.2
  cases h5 : f.call b.1 <;> cases h6 : f.call b.2 <;> simp_all

/-- A condition that holds from day 3 until day 7 and again from day 12, searched from day 0 to day 20 with a step of two days. -/
example : ∃ (fuel : ℕ) (events : List (ℝ × Bool)),
    findDiscrete 0 20 ⟨fun t : ℝ => decide ((3 ≤ t ∧ t < 7) ∨ 12 ≤ t), some 2, none⟩ (0.01 : ℝ) 12 fuel = .ok (some events) ∧
    Settles 4 0.0001 0 20 (fun t : ℝ => decide ((3 ≤ t ∧ t < 7) ∨ 12 ≤ t)) ∧
    Tells (0.01 + 4 * 0.0001) (4 * 0.0001) 0 20 (fun t : ℝ => decide ((3 ≤ t ∧ t < 7) ∨ 12 ≤ t)) events := by
  obtain ⟨fuel, events, h⟩ := exists_search 0 20 (by norm_num) (⟨fun t : ℝ => decide ((3 ≤ t ∧ t < 7) ∨ 12 ≤ t), some 2, none⟩ : Searchable ℝ Bool)
    (step := 2) (epsilon := 0.01) rfl (by norm_num) (by norm_num) 12 (by norm_num)
  have hs : Settles 4 0.0001 0 20 (fun t : ℝ => decide ((3 ≤ t ∧ t < 7) ∨ 12 ≤ t)) := by
    intro s u w h0 h1 h2 h3 h4 h5
    left
    rw [decide_eq_decide] at h5 ⊢
    constructor
    · rintro (⟨a, b⟩ | a)
      · by_contra hc
        push Not at hc
        have : s < 3 := by
          by_contra h'
          have := hc.1 (by linarith)
          linarith
        have hw : ¬ ((3 ≤ w ∧ w < 7) ∨ 12 ≤ w) := by
          rw [← h5]
          rintro (⟨c, d⟩ | c) <;> linarith
        push Not at hw
        have := hw.1 (by linarith)
        linarith
      · by_contra hc
        push Not at hc
        have hw : (3 ≤ w ∧ w < 7) ∨ 12 ≤ w := Or.inr (by linarith)
        rw [← h5] at hw
        rcases hw with ⟨c, d⟩ | c
        · linarith
        · linarith [hc.2]
    · rintro (⟨a, b⟩ | a)
      · have hw := h5.1 (Or.inl ⟨a, b⟩)
        rcases hw with ⟨c, d⟩ | c
        · exact Or.inl ⟨by linarith, by linarith⟩
        · linarith
      · exact Or.inr (by linarith)
  exact ⟨fuel, events, h, hs, (C117_search hs (by norm_num) rfl (by norm_num) (by norm_num) (by norm_num) (by norm_num) (by norm_num) (by norm_num) h).2.1⟩

end Skyfield
