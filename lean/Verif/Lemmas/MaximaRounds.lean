import Verif.Lemmas.Maxima

/-
Lemmas on a round of `find_maxima` whatever way the brackets are subdivided, for C105.
-/
namespace Skyfield
set_option linter.unusedSectionVars false
variable {K : Type*} [Field K] [LinearOrder K] [IsStrictOrderedRing K] [FloorRing K]

/-- The samples of the next round when a bracket is subdivided by `pts`. -/
def nextSamplesWith (pts : K × K → List K) (f : K → K) (jd : List K) : List K :=
  removeAdjacentDuplicates ((roundBrackets f jd).flatMap pts)

/-- `pts` subdivides the interval from `a` to `b`. -/
structure Subdivides (pts : K × K → List K) (a b : K) : Prop where
  sorted : (pts (a, b)).Pairwise (· < ·)
  head : (pts (a, b)).head? = some a
  last : (pts (a, b)).getLast? = some b

theorem Subdivides.mem {pts : K × K → List K} {a b : K} (h : Subdivides pts a b) {x : K} (hx : x ∈ pts (a, b)) : a ≤ x ∧ x ≤ b := by
  obtain ⟨h1, h2, h3⟩ := h
  constructor
  · cases hp : pts (a, b) with
    | nil => rw [hp] at hx; simp at hx
    | cons c l =>
      rw [hp] at h1 h2 hx
      simp only [List.head?_cons, Option.some.injEq] at h2
      subst h2
      rcases List.mem_cons.1 hx with rfl | hx
      · exact le_refl _
      · exact ((List.pairwise_cons.1 h1).1 x hx).le
  · rcases List.eq_nil_or_concat (pts (a, b)) with hp | ⟨l, c, hp⟩
    · rw [hp] at hx; simp at hx
    · rw [hp] at h1 h3 hx
      rw [List.concat_eq_append, List.getLast?_append] at h3
      simp only [List.getLast?_singleton, Option.some_or, Option.some.injEq] at h3
      subst h3
      rw [List.concat_eq_append, List.mem_append] at hx
      rw [List.concat_eq_append, List.pairwise_append] at h1
      rcases hx with hx | hx
      · exact (h1.2.2 x hx _ (by simp)).le
      · simp at hx; exact hx.le

/-- Every chosen interval is subdivided. -/
def SubdividesAll (pts : K × K → List K) (jd : List K) : Prop :=
  ∀ k, k + 1 < jd.length → Subdivides pts (seq jd k) (seq jd (k + 1))

variable {pts : K × K → List K} {jd : List K}

theorem flatWith_sorted (hp : SubdividesAll pts jd) (hs : jd.Pairwise (· < ·)) (l : List ℕ)
    (hl : l.Pairwise (· < ·)) (hlen : ∀ k ∈ l, k + 1 < jd.length) (k0 : ℕ) (hk0 : ∀ k ∈ l, k0 ≤ k) :
    ((l.map fun k => (seq jd k, seq jd (k + 1))).flatMap pts).Pairwise (· ≤ ·) ∧
    ∀ x ∈ (l.map fun k => (seq jd k, seq jd (k + 1))).flatMap pts, seq jd k0 ≤ x := by
  induction l generalizing k0 with
  | nil => simp
  | cons a l ih =>
    obtain ⟨ha, hl'⟩ := List.pairwise_cons.1 hl
    have hal := hlen a List.mem_cons_self
    obtain ⟨h1, h2⟩ := ih hl' (fun k hk => hlen k (List.mem_cons_of_mem _ hk)) (a + 1)
      (fun k hk => ha k hk)
    have hlt : seq jd a < seq jd (a + 1) := seq_lt hs (by omega) hal
    have hsub := hp a hal
    rw [List.map_cons, List.flatMap_cons]
    have hk := hk0 a List.mem_cons_self
    have hka : seq jd k0 ≤ seq jd a := (seq_le_iff hs (by omega) (by omega)).2 hk
    constructor
    · rw [List.pairwise_append]
      refine ⟨hsub.sorted.imp fun h => h.le, h1, ?_⟩
      intro x hx y hy
      exact le_trans (hsub.mem hx).2 (h2 y hy)
    · intro x hx
      rw [List.mem_append] at hx
      rcases hx with hx | hx
      · exact le_trans hka (hsub.mem hx).1
      · exact le_trans hka (le_trans hlt.le (h2 x hx))

theorem nextWith_sorted (f : K → K) (hp : SubdividesAll pts jd) (hs : jd.Pairwise (· < ·)) :
    (nextSamplesWith pts f jd).Pairwise (· < ·) := by
  unfold nextSamplesWith
  apply rad_sorted
  rw [roundBrackets_eq]
  exact (flatWith_sorted hp hs _ (chooseBrackets_sorted _) (mem_choose f jd) 0 (by simp)).1

theorem nextWith_mem (f : K → K) (hp : SubdividesAll pts jd) (k : ℕ) (hk : k ∈ chooseBrackets (jd.map f)) :
    seq jd k ∈ nextSamplesWith pts f jd ∧ seq jd (k + 1) ∈ nextSamplesWith pts f jd := by
  have hsub := hp k (mem_choose f jd k hk)
  unfold nextSamplesWith
  rw [mem_rad, mem_rad, roundBrackets_eq]
  constructor
  · rw [List.mem_flatMap]
    exact ⟨_, List.mem_map.2 ⟨k, hk, rfl⟩, List.mem_of_mem_head? hsub.head⟩
  · rw [List.mem_flatMap]
    exact ⟨_, List.mem_map.2 ⟨k, hk, rfl⟩, List.mem_of_getLast? hsub.last⟩

/-- Every sample of the next round is in some chosen bracket. -/
theorem nextWith_inside (f : K → K) (hp : SubdividesAll pts jd) (x : K) (hx : x ∈ nextSamplesWith pts f jd) :
    ∃ k, k + 1 < jd.length ∧ x ∈ pts (seq jd k, seq jd (k + 1)) ∧ seq jd k ≤ x ∧ x ≤ seq jd (k + 1) := by
  unfold nextSamplesWith at hx
  rw [mem_rad, roundBrackets_eq, List.mem_flatMap] at hx
  obtain ⟨b, hb, hx⟩ := hx
  obtain ⟨k, hk, rfl⟩ := List.mem_map.1 hb
  have hk' := mem_choose f jd k hk
  exact ⟨k, hk', hx, (hp k hk').mem hx⟩

/-- A visible hill survives a round of refinement. -/
theorem hillWith_survives (f : K → K) (hp : SubdividesAll pts jd) (hs : jd.Pairwise (· < ·)) (u v w : K)
    (hu : u ∈ jd) (hv : v ∈ jd) (hw : w ∈ jd) (huv : u < v) (hvw : v < w) (h1 : f u < f v)
    (h2 : f w < f v) :
    chooseBrackets (jd.map f) ≠ [] ∧ ∃ u' v' w', u' ∈ nextSamplesWith pts f jd ∧
      v' ∈ nextSamplesWith pts f jd ∧ w' ∈ nextSamplesWith pts f jd ∧ u ≤ u' ∧ u' < v' ∧ v' < w' ∧
      w' ≤ w ∧ f u' < f v' ∧ f w' < f v' ∧ f v ≤ f v' := by
  obtain ⟨p, hpp⟩ := List.mem_iff_getElem?.1 hu
  obtain ⟨q, hq⟩ := List.mem_iff_getElem?.1 hv
  obtain ⟨r, hr⟩ := List.mem_iff_getElem?.1 hw
  obtain ⟨lp, rfl⟩ := seq_of_get hpp
  obtain ⟨lq, rfl⟩ := seq_of_get hq
  obtain ⟨lr, rfl⟩ := seq_of_get hr
  rw [seq_lt_iff hs lp lq] at huv
  rw [seq_lt_iff hs lq lr] at hvw
  obtain ⟨i, j, m, i1, i2, i3, i4, i5, i6, i7⟩ := exists_hill (fun k => f (seq jd k)) p q r huv hvw h1 h2
  obtain ⟨s1, s2, s3⟩ := hill_slopes (fun k => f (seq jd k)) i j m i2 i4 i5 i6
  have hi : i ∈ flatnonzero (diffSignDiff (jd.map f)) (· < 0) := by
    rw [mem_drop_indices]
    refine ⟨by omega, ?_⟩
    rw [s1]
    by_cases hj : i + 1 = j - 1
    · rw [hj, s2]; omega
    · rw [s3 (i + 1) (by omega) (by omega)]; omega
  have hj : j - 2 ∈ flatnonzero (diffSignDiff (jd.map f)) (· < 0) := by
    rw [mem_drop_indices]
    refine ⟨by omega, ?_⟩
    rw [show j - 2 + 1 = j - 1 by omega, s2]
    by_cases hj : j - 2 = i
    · rw [hj, s1]; omega
    · rw [s3 (j - 2) (by omega) (by omega)]; omega
  have ci : i ∈ chooseBrackets (jd.map f) := (mem_chooseBrackets _ _).2 ⟨i, hi, Or.inl rfl⟩
  have cj : j - 1 ∈ chooseBrackets (jd.map f) :=
    (mem_chooseBrackets _ _).2 ⟨j - 2, hj, Or.inr (by omega)⟩
  refine ⟨List.ne_nil_of_mem ci, seq jd i, seq jd (i + 1), seq jd j, (nextWith_mem f hp i ci).1,
    (nextWith_mem f hp i ci).2, ?_, ?_, ?_, ?_, ?_, ?_, ?_, ?_⟩
  · have := (nextWith_mem f hp (j - 1) cj).2
    rwa [show j - 1 + 1 = j by omega] at this
  · exact (seq_le_iff hs lp (by omega)).2 i1
  · exact seq_lt hs (by omega) (by omega)
  · exact seq_lt hs (by omega) (by omega)
  · exact (seq_le_iff hs (by omega) lr).2 i3
  · have := i6 (i + 1) (by omega) (by omega)
    exact lt_of_lt_of_eq i4 this.symm
  · have := i6 (i + 1) (by omega) (by omega)
    exact lt_of_lt_of_eq i5 this.symm
  · have := i6 (i + 1) (by omega) (by omega)
    exact le_of_le_of_eq i7 this.symm

/-- Inside the first two brackets, neighbours in the next round come from subdividing these. -/
theorem nextWith_width (f : K → K) (hp : SubdividesAll pts jd) (hs : jd.Pairwise (· < ·)) (i : ℕ)
    (hi : FirstDrop f jd i) (p : K × K)
    (hpm : p ∈ adjacent (nextSamplesWith pts f jd)) (hle : p.2 ≤ seq jd (i + 2)) :
    p ∈ adjacent (pts (seq jd i, seq jd (i + 1))) ∨ p ∈ adjacent (pts (seq jd (i + 1), seq jd (i + 2))) := by
  obtain ⟨l, hl⟩ := choose_firstDrop f jd i hi
  have hlen := (mem_drop_indices f jd i).1 hi.1
  unfold nextSamplesWith at hpm
  rw [adjacent_rad, List.mem_filter, roundBrackets_eq, hl, List.map_cons, List.map_cons,
    List.flatMap_cons, List.flatMap_cons, mem_adjacent_append] at hpm
  obtain ⟨hpm, hne⟩ := hpm
  have hne : p.1 ≠ p.2 := by simpa using hne
  have hsorted := chooseBrackets_sorted (jd.map f)
  have hmem := mem_choose f jd
  rw [hl] at hsorted hmem
  obtain ⟨g1, g2⟩ := List.pairwise_cons.1 hsorted
  obtain ⟨g3, g4⟩ := List.pairwise_cons.1 g2
  obtain ⟨r1, r2⟩ := flatWith_sorted hp hs l g4
    (fun k hk => hmem k (List.mem_cons_of_mem _ (List.mem_cons_of_mem _ hk))) (i + 2)
    (fun k hk => g3 k hk)
  have s1 := hp i (by omega)
  have s2 := hp (i + 1) (by omega)
  rcases hpm with hpm | hpm | ⟨e1, e2⟩
  · exact Or.inl hpm
  · rw [mem_adjacent_append] at hpm
    rcases hpm with hpm | hpm | ⟨e1, e2⟩
    · exact Or.inr hpm
    · exfalso
      have h1 := r2 _ (adjacent_mem hpm).1
      have h2 := adjacent_le r1 hpm
      exact hne (le_antisymm h2 (le_trans hle h1))
    · exfalso
      rw [s2.last, Option.some.injEq] at e1
      have h1 := r2 p.2 (List.mem_of_mem_head? e2)
      apply hne
      rw [← e1]
      exact le_antisymm h1 hle
  · exfalso
    rw [s1.last, Option.some.injEq] at e1
    rw [List.head?_append, s2.head, Option.some_or, Option.some.injEq] at e2
    exact hne (by rw [← e1, ← e2])

/-- Neighbours in the next round come from subdividing a bracket, or are the end of one bracket and the start of a later one. -/
theorem nextWith_gap (f : K → K) (hp : SubdividesAll pts jd) (p : K × K)
    (hpm : p ∈ adjacent (nextSamplesWith pts f jd)) :
    (∃ k, k + 1 < jd.length ∧ p ∈ adjacent (pts (seq jd k, seq jd (k + 1)))) ∨
      ∃ k k', k < k' ∧ k' < jd.length ∧ p = (seq jd k, seq jd k') := by
  unfold nextSamplesWith at hpm
  rw [adjacent_rad, List.mem_filter, roundBrackets_eq] at hpm
  obtain ⟨hpm, hne⟩ := hpm
  have hne : p.1 ≠ p.2 := by simpa using hne
  have key : ∀ l : List ℕ, l.Pairwise (· < ·) → (∀ k ∈ l, k + 1 < jd.length) →
      p ∈ adjacent ((l.map fun k => (seq jd k, seq jd (k + 1))).flatMap pts) →
      (∃ k, k + 1 < jd.length ∧ p ∈ adjacent (pts (seq jd k, seq jd (k + 1)))) ∨
        ∃ k k', k < k' ∧ k' < jd.length ∧ p = (seq jd k, seq jd k') := by
    intro l
    induction l with
    | nil => intro _ _ h; simp [adjacent_nil] at h
    | cons a l ih =>
      intro hl hlen h
      obtain ⟨ha, hl'⟩ := List.pairwise_cons.1 hl
      have hal := hlen a List.mem_cons_self
      have sa := hp a hal
      rw [List.map_cons, List.flatMap_cons, mem_adjacent_append] at h
      rcases h with h | h | ⟨e1, e2⟩
      · exact Or.inl ⟨a, hal, h⟩
      · exact ih hl' (fun k hk => hlen k (List.mem_cons_of_mem _ hk)) h
      · right
        rw [sa.last, Option.some.injEq] at e1
        cases l with
        | nil => simp at e2
        | cons b l =>
          have hb := hlen b (by simp)
          have hab := ha b (by simp)
          rw [List.map_cons, List.flatMap_cons, List.head?_append, (hp b hb).head, Option.some_or, Option.some.injEq] at e2
          have : a + 1 ≠ b := by
            rintro rfl
            exact hne (e1.symm.trans e2)
          exact ⟨a + 1, b, by omega, by omega, Prod.ext e1.symm e2.symm⟩
  exact key _ (chooseBrackets_sorted _) (mem_choose f jd) hpm

/-- The first drop of the next round is inside the first two brackets of this one. -/
theorem nextWith_firstDrop (f : K → K) (hp : SubdividesAll pts jd) (hs : jd.Pairwise (· < ·)) (i : ℕ)
    (hi : FirstDrop f jd i) (B : K)
    (hB : ∀ p, p ∈ adjacent (pts (seq jd i, seq jd (i + 1))) ∨ p ∈ adjacent (pts (seq jd (i + 1), seq jd (i + 2))) → p.2 - p.1 ≤ B) :
    2 ≤ (nextSamplesWith pts f jd).length ∧
    seq (nextSamplesWith pts f jd) 1 - seq (nextSamplesWith pts f jd) 0 ≤ B ∧
    ∃ k, FirstDrop f (nextSamplesWith pts f jd) k ∧
      seq (nextSamplesWith pts f jd) (k + 1) - seq (nextSamplesWith pts f jd) k ≤ B ∧
      seq (nextSamplesWith pts f jd) (k + 2) - seq (nextSamplesWith pts f jd) (k + 1) ≤ B := by
  obtain ⟨l, hl⟩ := choose_firstDrop f jd i hi
  have hlen := (mem_drop_indices f jd i).1 hi.1
  have hwid := nextWith_width f hp hs i hi
  have hs' := nextWith_sorted f hp hs
  obtain ⟨m0, m1⟩ := nextWith_mem f hp i (by rw [hl]; simp)
  obtain ⟨-, m2⟩ := nextWith_mem f hp (i + 1) (by rw [hl]; simp)
  rw [show i + 1 + 1 = i + 2 by omega] at m2
  generalize nextSamplesWith pts f jd = N at *
  obtain ⟨p, hpp⟩ := List.mem_iff_getElem?.1 m0
  obtain ⟨q, hq⟩ := List.mem_iff_getElem?.1 m1
  obtain ⟨r, hr⟩ := List.mem_iff_getElem?.1 m2
  obtain ⟨lp, ep⟩ := seq_of_get hpp
  obtain ⟨lq, eq⟩ := seq_of_get hq
  obtain ⟨lr, er⟩ := seq_of_get hr
  have hpq : p < q := by
    rw [← seq_lt_iff hs' lp lq, ep, eq]; exact seq_lt hs (by omega) (by omega)
  have hqr : q < r := by
    rw [← seq_lt_iff hs' lq lr, eq, er]; exact seq_lt hs (by omega) (by omega)
  have gap : ∀ k, k + 1 ≤ r → seq N (k + 1) - seq N k ≤ B := by
    intro k hk
    apply hB (seq N k, seq N (k + 1))
    apply hwid
    · rw [mem_adjacent_iff]
      exact ⟨k, seq_get (by omega), seq_get (by omega)⟩
    · rw [← er]
      exact (seq_le_iff hs' (by omega) lr).2 hk
  refine ⟨by omega, gap 0 (by omega), ?_⟩
  obtain ⟨k, k1, k2, k3⟩ := exists_drop3 (fun k => f (seq N k)) p q r hpq hqr (by
    simp only [ep, eq, er]; exact hlen.2)
  have hkm : k ∈ flatnonzero (diffSignDiff (N.map f)) (· < 0) :=
    (mem_drop_indices f N k).2 ⟨by omega, k3⟩
  obtain ⟨k', hk'⟩ := exists_firstDrop f N
    (List.ne_nil_of_mem ((mem_chooseBrackets _ k).2 ⟨k, hkm, Or.inl rfl⟩))
  have := hk'.2 k hkm
  exact ⟨k', hk', gap k' (by omega), gap (k' + 1) (by omega)⟩

end Skyfield
