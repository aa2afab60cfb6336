import Verif.Lemmas.Maxima
import Mathlib.Algebra.Order.Archimedean.Basic
import Mathlib.Data.Rat.Floor

/-
C18, C19, C56: `find_maxima` and `find_minima`.

`findMaxima jd0 jd1 f epsilon num fuel = .ok (some (some found))` says: the search returned `found`
(dates and values) within `fuel` rounds.
-/
namespace Skyfield
set_option linter.unusedSectionVars false
variable {K : Type*} [Field K] [LinearOrder K] [IsStrictOrderedRing K] [FloorRing K]

theorem maximaRound_eq (f : K → K) (jd0 jd1 epsilon : K) (num : ℕ) (a b : K) (l : List K) :
    maximaRound f jd0 jd1 epsilon num (a :: b :: l) =
      if b - a ≤ epsilon then
        some (.inl (dropClose epsilon ((identifyMaxima ((a :: b :: l).map fun x => (x, f x))).filter
          fun p => jd0 ≤ p.1 ∧ p.1 ≤ jd1)))
      else if chooseBrackets ((a :: b :: l).map f) = [] then some (.inl [])
      else some (.inr (nextSamples f num (a :: b :: l))) := rfl

/-- What the loop guarantees. -/
theorem maximaLoop_spec (f : K → K) (jd0 jd1 epsilon : K) (n fuel : ℕ) (jd : List K)
    (hs : jd.Pairwise (· < ·)) (found : List (K × K))
    (h : maximaLoop f jd0 jd1 epsilon (n + 2) fuel jd = some (some found)) :
    ∃ samples : List K, samples.Pairwise (· < ·) ∧
      (found = [] ∨ found = dropClose epsilon ((identifyMaxima (samples.map fun x => (x, f x))).filter
          fun p => jd0 ≤ p.1 ∧ p.1 ≤ jd1)) ∧
      ∀ u v w, u ∈ jd → v ∈ jd → w ∈ jd → u < v → v < w → f u < f v → f w < f v →
        found = dropClose epsilon ((identifyMaxima (samples.map fun x => (x, f x))).filter
          fun p => jd0 ≤ p.1 ∧ p.1 ≤ jd1) ∧
        ∃ u' v' w', u' ∈ samples ∧ v' ∈ samples ∧ w' ∈ samples ∧ u ≤ u' ∧ u' < v' ∧ v' < w' ∧ w' ≤ w ∧
          f u' < f v' ∧ f w' < f v' ∧ f v ≤ f v' := by
  induction fuel generalizing jd with
  | zero => simp [maximaLoop] at h
  | succ fuel ih =>
    unfold maximaLoop at h
    match jd, hs with
    | [], _ => simp [maximaRound] at h
    | [_], _ => simp [maximaRound] at h
    | a :: b :: l, hs =>
      rw [maximaRound_eq] at h
      by_cases h1 : b - a ≤ epsilon
      · rw [if_pos h1] at h
        simp only [Option.some.injEq] at h
        refine ⟨a :: b :: l, hs, Or.inr h.symm, ?_⟩
        intro u v w hu hv hw huv hvw e1 e2
        exact ⟨h.symm, u, v, w, hu, hv, hw, le_refl _, huv, hvw, le_refl _, e1, e2, le_refl _⟩
      · rw [if_neg h1] at h
        by_cases h2 : chooseBrackets ((a :: b :: l).map f) = []
        · rw [if_pos h2] at h
          simp only [Option.some.injEq] at h
          refine ⟨a :: b :: l, hs, Or.inl h.symm, ?_⟩
          intro u v w hu hv hw huv hvw e1 e2
          exact absurd h2 (hill_survives f n _ hs u v w hu hv hw huv hvw e1 e2).1
        · rw [if_neg h2] at h
          simp only at h
          obtain ⟨samples, s1, s2, s3⟩ := ih _ (nextSamples_sorted f n _ hs) h
          refine ⟨samples, s1, s2, ?_⟩
          intro u v w hu hv hw huv hvw e1 e2
          obtain ⟨-, u', v', w', m1, m2, m3, q1, q2, q3, q4, q5, q6, q7⟩ :=
            hill_survives f n _ hs u v w hu hv hw huv hvw e1 e2
          obtain ⟨t1, u2, v2, w2, k1, k2, k3, k4, k5, k6, k7, k8, k9, k10⟩ := s3 u' v' w' m1 m2 m3 q2 q3 q5 q6
          exact ⟨t1, u2, v2, w2, k1, k2, k3, le_trans q1 k4, k5, k6, le_trans k7 q4, k8, k9, le_trans q7 k10⟩

theorem npLinspace_strict (a b : K) (n : ℕ) (h : a < b) : (npLinspace a b (n + 2)).Pairwise (· < ·) := by
  unfold npLinspace
  have hn : (0 : K) < ((n + 2 : ℕ) : K) - 1 := by push_cast; have : (0 : K) ≤ n := Nat.cast_nonneg n; linarith
  have hd : 0 < (b - a) / (((n + 2 : ℕ) : K) - 1) := div_pos (by linarith) hn
  rw [List.pairwise_map]
  refine List.Pairwise.imp ?_ List.pairwise_lt_range
  intro i j hij
  have : (i : K) < j := by exact_mod_cast hij
  have := mul_lt_mul_of_pos_right this hd
  linarith

/-- The initial samples: at least three of them, evenly spaced, in order, and reaching beyond both
ends of the search. -/
theorem maximaSamples_ok (jd0 jd1 : K) (f : Searchable K K) (num : ℕ) (hnum : 0 < num) (jd : List K)
    (hstep : ∀ s, f.stepDays = some s → 0 < s) (hrough : ∀ s, f.roughPeriod = some s → 0 < s)
    (h : maximaSamples jd0 jd1 f num = .ok jd) :
    jd0 < jd1 ∧ ∃ a b n, jd = npLinspace a b (n + 3) ∧ a < jd0 ∧ jd1 < b := by
  unfold maximaSamples at h
  by_cases h0 : jd0 ≥ jd1
  · simp [h0] at h
  · rw [if_neg h0] at h
    have hlt : jd0 < jd1 := not_le.1 h0
    refine ⟨hlt, ?_⟩
    have hint : ∀ s : K, 0 < s → 0 ≤ astypeInt ((jd1 - jd0) / s) := by
      intro s hs
      unfold astypeInt
      have : 0 ≤ (jd1 - jd0) / s := div_nonneg (by linarith) hs.le
      rw [if_pos this]
      exact Int.floor_nonneg.2 this
    cases hs : f.stepDays with
    | some s =>
      have hs0 := hint s (hstep s hs)
      simp only [hs] at h
      rw [if_neg (by omega)] at h
      simp only [Except.ok.injEq] at h
      have hk : (0 : K) < ((astypeInt ((jd1 - jd0) / s) + 3 : ℤ) : K) := by
        have : (0 : ℤ) < astypeInt ((jd1 - jd0) / s) + 3 := by omega
        exact_mod_cast this
      have hpos := div_pos (show 0 < jd1 - jd0 by linarith) hk
      have e : (astypeInt ((jd1 - jd0) / s) + 3 + 2).toNat = (astypeInt ((jd1 - jd0) / s) + 2).toNat + 3 := by
        omega
      rw [e] at h
      refine ⟨_, _, _, h.symm, ?_, ?_⟩
      · linarith
      · linarith
    | none =>
      cases hr : f.roughPeriod with
      | none => simp [hs, hr] at h
      | some r =>
        have hb : 0 < r / (num : K) := div_pos (hrough r hr) (by exact_mod_cast hnum)
        have hs0 := hint _ hb
        simp only [hs, hr] at h
        rw [if_neg (by omega)] at h
        simp only [Except.ok.injEq] at h
        have e : ∀ z : ℤ, 0 ≤ z → (z + 3).toNat = z.toNat + 3 := by intro z hz; omega
        rw [e _ hs0] at h
        refine ⟨_, _, _, h.symm, ?_, ?_⟩
        · linarith
        · linarith

theorem findMaxima_spec (jd0 jd1 : K) (f : Searchable K K) (epsilon : K) (num fuel : ℕ)
    (found : List (K × K)) (hnum : 2 ≤ num) (hstep : ∀ s, f.stepDays = some s → 0 < s)
    (hrough : ∀ s, f.roughPeriod = some s → 0 < s)
    (h : findMaxima jd0 jd1 f epsilon num fuel = .ok (some (some found))) :
    ∃ jd n, maximaSamples jd0 jd1 f num = .ok jd ∧ num = n + 2 ∧ jd.Pairwise (· < ·) ∧
      maximaLoop f.call jd0 jd1 epsilon (n + 2) fuel jd = some (some found) := by
  unfold findMaxima at h
  cases hs : maximaSamples jd0 jd1 f num with
  | error e => rw [hs] at h; simp at h
  | ok jd =>
    rw [hs] at h
    simp only [Except.ok.injEq] at h
    obtain ⟨hlt, a, b, m, rfl, ha, hb⟩ := maximaSamples_ok jd0 jd1 f num (by omega) jd hstep hrough hs
    obtain ⟨n, rfl⟩ : ∃ n, num = n + 2 := ⟨num - 2, by omega⟩
    exact ⟨_, n, rfl, rfl, npLinspace_strict a b (m + 1) (by linarith), h⟩

/-- **C18.** The maxima reported lie between the start and the end, are in increasing order with any two
more than `epsilon` apart, and each is a maximum as far as the final samples show (see
`LooksLikeMaximum`). -/
theorem C18_maxima (jd0 jd1 : K) (f : Searchable K K) (epsilon : K) (num fuel : ℕ)
    (found : List (K × K)) (hnum : 2 ≤ num) (hstep : ∀ s, f.stepDays = some s → 0 < s)
    (hrough : ∀ s, f.roughPeriod = some s → 0 < s)
    (h : findMaxima jd0 jd1 f epsilon num fuel = .ok (some (some found))) :
    (∀ e ∈ found, jd0 ≤ e.1 ∧ e.1 ≤ jd1) ∧ found.Pairwise (fun a b => epsilon < b.1 - a.1) ∧
      ∃ samples : List K, samples.Pairwise (· < ·) ∧
        ∀ e ∈ found, LooksLikeMaximum f.call samples e.1 e.2 := by
  obtain ⟨jd, n, -, rfl, hs, hl⟩ := findMaxima_spec jd0 jd1 f epsilon num fuel found hnum hstep hrough h
  obtain ⟨samples, s1, s2, -⟩ := maximaLoop_spec f.call jd0 jd1 epsilon n fuel jd hs found hl
  have hmem : ∀ e ∈ found, (jd0 ≤ e.1 ∧ e.1 ≤ jd1) ∧ LooksLikeMaximum f.call samples e.1 e.2 := by
    intro e he
    rcases s2 with rfl | rfl
    · simp at he
    · have := mem_dropClose _ _ _ he
      rw [List.mem_filter] at this
      refine ⟨by simpa using this.2, ?_⟩
      rw [← mem_identifyMaxima]
      exact this.1
  refine ⟨fun e he => (hmem e he).1, ?_, samples, s1, fun e he => (hmem e he).2⟩
  rcases s2 with rfl | rfl
  · exact List.Pairwise.nil
  · exact dropClose_apart _ _ (List.Pairwise.filter _ (identifyMaxima_sorted _))

/-- **C18.** In particular each reported maximum is strictly between two moments at which the function is
strictly lower than the reported value, and the reported value is the function's value at a moment
between these two — at the reported time itself unless that is the middle of a level stretch. -/
theorem C18_between_lower (jd0 jd1 : K) (f : Searchable K K) (epsilon : K) (num fuel : ℕ)
    (found : List (K × K)) (hnum : 2 ≤ num) (hstep : ∀ s, f.stepDays = some s → 0 < s)
    (hrough : ∀ s, f.roughPeriod = some s → 0 < s)
    (h : findMaxima jd0 jd1 f epsilon num fuel = .ok (some (some found))) (t v : K)
    (ht : (t, v) ∈ found) :
    ∃ a b m, a < t ∧ t < b ∧ f.call a < v ∧ f.call b < v ∧ a < m ∧ m < b ∧ f.call m = v ∧
      (t = m ∨ t = (a + b) / 2) := by
  obtain ⟨-, -, samples, hs, hl⟩ := C18_maxima jd0 jd1 f epsilon num fuel found hnum hstep hrough h
  obtain ⟨i, j, a, b, ha, hb, hij, h1, h2, h3, h4⟩ := hl _ ht
  obtain ⟨li, rfl⟩ := seq_of_get ha
  obtain ⟨lj, rfl⟩ := seq_of_get hb
  have hab : seq samples i < seq samples j := seq_lt hs (by omega) lj
  have hm := seq_get (show i + 1 < samples.length by omega)
  have m1 : seq samples i < seq samples (i + 1) := seq_lt hs (by omega) (by omega)
  have m2 : seq samples (i + 1) < seq samples j := seq_lt hs (by omega) lj
  have m3 := h3 (i + 1) _ (by omega) (by omega) hm
  rcases h4 with ⟨rfl, hti⟩ | ⟨-, e⟩
  · simp only at hti
    obtain ⟨-, rfl⟩ := seq_of_get hti
    exact ⟨_, _, _, m1, m2, h1, h2, m1, m2, m3, Or.inl rfl⟩
  · simp only at e
    refine ⟨_, _, _, ?_, ?_, h1, h2, m1, m2, m3, Or.inr e⟩
    · rw [e]; linarith
    · rw [e]; linarith

/-- **C18.** No maximum visible in the initial samples is lost: if three of them inside the search
interval go up and then down, a maximum at least as high as the middle one is found strictly between
the outer two; it is reported,
unless another one was found not more than `epsilon` before it, also inside the interval. -/
theorem C18_no_maximum_missed (jd0 jd1 : K) (f : Searchable K K) (epsilon : K) (num fuel : ℕ)
    (found : List (K × K)) (samples : List K) (hnum : 2 ≤ num)
    (hstep : ∀ s, f.stepDays = some s → 0 < s) (hrough : ∀ s, f.roughPeriod = some s → 0 < s)
    (hsamples : maximaSamples jd0 jd1 f num = .ok samples)
    (h : findMaxima jd0 jd1 f epsilon num fuel = .ok (some (some found)))
    (u v w : K) (hu : u ∈ samples) (hv : v ∈ samples) (hw : w ∈ samples) (huv : u < v) (hvw : v < w)
    (h1 : f.call u < f.call v) (h2 : f.call w < f.call v) (hin : jd0 ≤ u ∧ w ≤ jd1) :
    found ≠ [] ∧ ∃ last t val, LooksLikeMaximum f.call last t val ∧ u < t ∧ t < w ∧ f.call v ≤ val ∧
      ((t, val) ∈ found ∨ ∃ t' val', LooksLikeMaximum f.call last t' val' ∧ jd0 ≤ t' ∧ t' ≤ t ∧
        t - t' ≤ epsilon) := by
  obtain ⟨jd, n, hjd, rfl, hs, hl⟩ := findMaxima_spec jd0 jd1 f epsilon num fuel found hnum hstep hrough h
  rw [hsamples, Except.ok.injEq] at hjd
  subst hjd
  obtain ⟨last, s1, -, s3⟩ := maximaLoop_spec f.call jd0 jd1 epsilon n fuel _ hs found hl
  obtain ⟨e, u', v', w', k1, k2, k3, k4, k5, k6, k7, k8, k9, k10⟩ := s3 u v w hu hv hw huv hvw h1 h2
  obtain ⟨p, hp⟩ := List.mem_iff_getElem?.1 k1
  obtain ⟨q, hq⟩ := List.mem_iff_getElem?.1 k2
  obtain ⟨r, hr⟩ := List.mem_iff_getElem?.1 k3
  obtain ⟨lp, rfl⟩ := seq_of_get hp
  obtain ⟨lq, rfl⟩ := seq_of_get hq
  obtain ⟨lr, rfl⟩ := seq_of_get hr
  rw [seq_lt_iff s1 lp lq] at k5
  rw [seq_lt_iff s1 lq lr] at k6
  obtain ⟨i, j, m, i1, i2, i3, i4, i5, i6, i7⟩ := exists_hill (fun k => f.call (seq last k)) p q r k5 k6 k8 k9
  have a1 : seq last p ≤ seq last i := (seq_le_iff s1 lp (by omega)).2 i1
  have a2 : seq last j ≤ seq last r := (seq_le_iff s1 (by omega) lr).2 i3
  have a3 : seq last i < seq last (i + 1) := seq_lt s1 (by omega) (by omega)
  have a4 : seq last (i + 1) < seq last j := seq_lt s1 (by omega) (by omega)
  have cand : ∃ t, LooksLikeMaximum f.call last t m ∧ seq last i < t ∧ t < seq last j := by
    have hflat : ∀ k x, i < k → k < j → last[k]? = some x → f.call x = m := by
      intro k x hk1 hk2 hx
      rw [← (seq_of_get hx).2]
      exact i6 k hk1 hk2
    by_cases hj : j = i + 2
    · exact ⟨seq last (i + 1), ⟨i, j, _, _, seq_get (by omega), seq_get (by omega), i2, i4, i5, hflat,
        Or.inl ⟨hj, seq_get (by omega)⟩⟩, a3, a4⟩
    · exact ⟨(seq last i + seq last j) / 2, ⟨i, j, _, _, seq_get (by omega), seq_get (by omega), i2, i4,
        i5, hflat, Or.inr ⟨by omega, rfl⟩⟩, by linarith, by linarith⟩
  obtain ⟨t, ht, t1, t2⟩ := cand
  have hmem : (t, m) ∈ (identifyMaxima (last.map fun x => (x, f.call x))).filter
      fun p => jd0 ≤ p.1 ∧ p.1 ≤ jd1 := by
    rw [List.mem_filter]
    refine ⟨(mem_identifyMaxima _ _ _ _).2 ht, ?_⟩
    simp only [decide_eq_true_eq]
    exact ⟨by linarith [hin.1], by linarith [hin.2]⟩
  refine ⟨?_, last, t, m, ht, by linarith, by linarith, le_trans k10 i7, ?_⟩
  · rw [e]
    cases hc : (identifyMaxima (last.map fun x => (x, f.call x))).filter
        fun p => jd0 ≤ p.1 ∧ p.1 ≤ jd1 with
    | nil => rw [hc] at hmem; simp at hmem
    | cons x l => simp [dropClose]
  · rcases dropClose_or epsilon _ _ hmem with hd | ⟨⟨t', m'⟩, hq, hadj, hle⟩
    · left; rw [e]; exact hd
    · right
      rw [List.mem_filter] at hq
      have hso := List.Pairwise.filter (fun p => decide (jd0 ≤ p.1 ∧ p.1 ≤ jd1))
        (identifyMaxima_sorted (last.map fun x => (x, f.call x)))
      have hle2 : t' ≤ t := by
        have h5 : ∀ l : List (K × K), l.Pairwise (fun a b => a.1 ≤ b.1) → ∀ p ∈ adjacent l, p.1.1 ≤ p.2.1 := by
          intro l hl p hp
          induction l with
          | nil => simp [adjacent_nil] at hp
          | cons a l ih =>
            cases l with
            | nil => simp [adjacent_singleton] at hp
            | cons b l =>
              obtain ⟨ha, hl'⟩ := List.pairwise_cons.1 hl
              rw [adjacent_cons_cons, List.mem_cons] at hp
              rcases hp with rfl | hp
              · exact ha b List.mem_cons_self
              · exact ih hl' hp
        exact h5 _ hso _ hadj
      have hq2 : jd0 ≤ t' ∧ t' ≤ jd1 := by simpa using hq.2
      exact ⟨t', m', (mem_identifyMaxima _ _ _ _).1 hq.1, hq2.1, hle2, hle⟩

/-- **C18.** With a `step_days` attribute the initial samples begin before the start, end after the end, and are less
than `step_days` apart. -/
theorem C18_sample_spacing (jd0 jd1 : K) (f : Searchable K K) (num : ℕ) (step : K) (hlt : jd0 < jd1)
    (hs : f.stepDays = some step) (hpos : 0 < step) :
    ∃ samples, maximaSamples jd0 jd1 f num = .ok samples ∧ (∃ a ∈ samples.head?, a < jd0) ∧
      (∃ b ∈ samples.getLast?, jd1 < b) ∧ ∀ p ∈ samples.zip samples.tail, 0 < p.2 - p.1 ∧ p.2 - p.1 < step := by
  have h0 : 0 ≤ (jd1 - jd0) / step := div_nonneg (by linarith) hpos.le
  have ha : astypeInt ((jd1 - jd0) / step) = ⌊(jd1 - jd0) / step⌋ := by
    unfold astypeInt; rw [if_pos h0]
  have hn : 0 ≤ ⌊(jd1 - jd0) / step⌋ := Int.floor_nonneg.2 h0
  obtain ⟨m, hm⟩ := Int.eq_ofNat_of_zero_le hn
  have hfl : (jd1 - jd0) / step < m + 1 := by
    have := Int.lt_floor_add_one ((jd1 - jd0) / step)
    rw [hm] at this
    exact_mod_cast this
  rw [div_lt_iff₀ hpos] at hfl
  have hm0 : (0 : K) ≤ m := Nat.cast_nonneg m
  set rs := (jd1 - jd0) / ((m : K) + 3) with hrs
  have h3 : (0 : K) < m + 3 := by linarith
  have hr0 : 0 < rs := div_pos (by linarith) h3
  have hrm : rs * (m + 3) = jd1 - jd0 := by rw [hrs]; field_simp
  have e : maximaSamples jd0 jd1 f num = .ok (npLinspace (jd0 - rs) (jd1 + rs) (m + 3 + 2)) := by
    unfold maximaSamples
    rw [if_neg (not_le.2 hlt)]
    simp only [hs, ha, hm]
    rw [if_neg (by omega), show (((m : ℕ) : ℤ) + 3 + 2).toNat = m + 3 + 2 by omega]
    congr 2
    all_goals (rw [hrs]; push_cast; rfl)
  refine ⟨_, e, ⟨_, npLinspace_head _ _ _, by linarith⟩, ⟨_, npLinspace_last _ _ _, by linarith⟩, ?_⟩
  intro p hp
  have hg := npLinspace_adjacent _ _ _ p hp
  have e2 : (((m + 3 + 2 : ℕ) : K) - 1) = m + 4 := by push_cast; ring
  rw [e2] at hg
  have h4 : (0 : K) < m + 4 := by linarith
  rw [hg]
  constructor
  · apply div_pos _ h4
    linarith
  · rw [div_lt_iff₀ h4]
    have h5 : rs * (m + 3) < (m + 1) * step := by rw [hrm]; exact hfl
    have h6 : rs * (m + 5) * (m + 3) < step * (m + 4) * (m + 3) := by nlinarith
    have h7 := lt_of_mul_lt_mul_right h6 h3.le
    linarith

/-- **C19.** `find_minima(f)` returns the times `find_maxima(-f)` returns, with the signs of the values
turned back; each is between two moments at which the function is strictly higher than the reported
value. -/
theorem C19_minima (jd0 jd1 : K) (f : Searchable K K) (epsilon : K) (num fuel : ℕ)
    (found : List (K × K)) (hnum : 2 ≤ num) (hstep : ∀ s, f.stepDays = some s → 0 < s)
    (hrough : ∀ s, f.roughPeriod = some s → 0 < s)
    (h : findMinima jd0 jd1 f epsilon num fuel = .ok (some (some found))) :
    findMaxima jd0 jd1 ⟨fun t => -f.call t, f.stepDays, f.roughPeriod⟩ epsilon num fuel =
      .ok (some (some (found.map fun p => (p.1, -p.2)))) ∧
    (∀ e ∈ found, jd0 ≤ e.1 ∧ e.1 ≤ jd1) ∧ found.Pairwise (fun a b => epsilon < b.1 - a.1) ∧
    ∀ t v, (t, v) ∈ found → ∃ a b m, a < t ∧ t < b ∧ v < f.call a ∧ v < f.call b ∧ a < m ∧ m < b ∧
      f.call m = v ∧ (t = m ∨ t = (a + b) / 2) := by
  unfold findMinima at h
  simp only at h
  cases hm : findMaxima jd0 jd1 ⟨fun t => -f.call t, f.stepDays, f.roughPeriod⟩ epsilon num fuel with
  | error e => rw [hm] at h; simp at h
  | ok r =>
    rw [hm] at h
    simp only [Except.ok.injEq] at h
    match r, h with
    | none, h => simp at h
    | some none, h => simp at h
    | some (some l), h =>
      simp only [Option.map_some, Option.some.injEq] at h
      subst h
      have e : l = (l.map fun p => (p.1, -p.2)).map fun p : K × K => (p.1, -p.2) := by
        rw [List.map_map]
        conv_lhs => rw [← List.map_id l]
        apply List.map_congr_left
        intro p _
        simp
      obtain ⟨c1, c2, -⟩ := C18_maxima jd0 jd1 ⟨fun t => -f.call t, f.stepDays, f.roughPeriod⟩ epsilon num fuel l hnum
        hstep hrough hm
      refine ⟨by rw [← e], ?_, ?_, ?_⟩
      · intro p hp
        rw [List.mem_map] at hp
        obtain ⟨q, hq, rfl⟩ := hp
        exact c1 q hq
      · rw [List.pairwise_map]; exact c2
      · intro t v htv
        rw [List.mem_map] at htv
        obtain ⟨⟨t', v'⟩, hq, e2⟩ := htv
        rw [Prod.mk.injEq] at e2
        obtain ⟨rfl, rfl⟩ := e2
        obtain ⟨a, b, m, d1, d2, d3, d4, d5, d6, d7, d8⟩ :=
          C18_between_lower jd0 jd1 ⟨fun t => -f.call t, f.stepDays, f.roughPeriod⟩ epsilon num fuel l hnum
            hstep hrough hm t' v' hq
        simp only at d3 d4 d7
        exact ⟨a, b, m, d1, d2, by linarith, by linarith, d5, d6, by linarith, d8⟩

/-- The loop stops. -/
theorem maximaLoop_stops (f : K → K) (jd0 jd1 epsilon : K) (n k : ℕ) (jd : List K) (w : K)
    (hs : jd.Pairwise (· < ·)) (hlen : 2 ≤ jd.length)
    (hw : ∀ i, FirstDrop f jd i → seq jd (i + 1) - seq jd i ≤ w ∧ seq jd (i + 2) - seq jd (i + 1) ≤ w)
    (hk : w ≤ epsilon * (n + 1) ^ (k + 1)) :
    ∃ found, maximaLoop f jd0 jd1 epsilon (n + 2) (k + 2) jd = some (some found) := by
  induction k generalizing jd w with
  | zero =>
    unfold maximaLoop
    match jd, hs, hlen, hw with
    | a :: b :: l, hs, _, hw =>
      rw [maximaRound_eq]
      by_cases h1 : b - a ≤ epsilon
      · rw [if_pos h1]; exact ⟨_, rfl⟩
      · rw [if_neg h1]
        by_cases h2 : chooseBrackets ((a :: b :: l).map f) = []
        · rw [if_pos h2]; exact ⟨_, rfl⟩
        · rw [if_neg h2]
          simp only
          obtain ⟨i, hi⟩ := exists_firstDrop f _ h2
          obtain ⟨w1, w2⟩ := hw i hi
          obtain ⟨g1, g2, -⟩ := next_firstDrop f n _ hs i hi w w1 w2
          generalize nextSamples f (n + 2) (a :: b :: l) = N at *
          match N, g1, g2 with
          | c :: d :: l', _, g2 =>
            unfold maximaLoop
            rw [maximaRound_eq]
            have hn : (0 : K) < n + 1 := by positivity
            have : d - c ≤ epsilon := by
              have h3 : w / (n + 1) ≤ epsilon := by
                rw [div_le_iff₀ hn]; simpa using hk
              exact le_trans g2 h3
            rw [if_pos this]
            exact ⟨_, rfl⟩
  | succ k ih =>
    unfold maximaLoop
    match jd, hs, hlen, hw with
    | a :: b :: l, hs, _, hw =>
      rw [maximaRound_eq]
      by_cases h1 : b - a ≤ epsilon
      · rw [if_pos h1]; exact ⟨_, rfl⟩
      · rw [if_neg h1]
        by_cases h2 : chooseBrackets ((a :: b :: l).map f) = []
        · rw [if_pos h2]; exact ⟨_, rfl⟩
        · rw [if_neg h2]
          simp only
          obtain ⟨i, hi⟩ := exists_firstDrop f _ h2
          obtain ⟨w1, w2⟩ := hw i hi
          obtain ⟨g1, -, j, g3, g4, g5⟩ := next_firstDrop f n _ hs i hi w w1 w2
          have hn : (0 : K) < n + 1 := by positivity
          refine ih _ (w / (n + 1)) (nextSamples_sorted f n _ hs) g1 ?_ ?_
          · intro i' hi'
            have : i' = j := le_antisymm (hi'.2 j g3.1) (g3.2 i' hi'.1)
            rw [this]; exact ⟨g4, g5⟩
          · rw [div_le_iff₀ hn]
            calc w ≤ _ := hk
              _ = _ := by rw [pow_succ]; ring

/-- **C56.** With at least three subdivisions and a positive `epsilon` the search for maxima of every
function stops with a result, after a number of rounds that does not depend on the function. -/
theorem C56_maxima_terminate [Archimedean K] (jd0 jd1 epsilon : K) (num : ℕ) (hnum : 3 ≤ num)
    (heps : 0 < epsilon) (hlt : jd0 < jd1) (step : K) (hstep : 0 < step) :
    ∃ rounds, ∀ f : Searchable K K, f.stepDays = some step →
      ∃ found, findMaxima jd0 jd1 f epsilon num rounds = .ok (some (some found)) := by
  obtain ⟨n, rfl⟩ : ∃ n, num = n + 2 := ⟨num - 2, by omega⟩
  have hn : 1 ≤ n := by omega
  have h1 : (1 : K) < n + 1 := by
    have : (1 : K) ≤ n := by exact_mod_cast hn
    linarith
  have hsame : ∀ f g : Searchable K K, f.stepDays = g.stepDays → f.roughPeriod = g.roughPeriod →
      maximaSamples jd0 jd1 f (n + 2) = maximaSamples jd0 jd1 g (n + 2) := by
    intro f g e1 e2
    unfold maximaSamples
    rw [e1, e2]
  have h0 : 0 ≤ astypeInt ((jd1 - jd0) / step) := by
    unfold astypeInt
    have : 0 ≤ (jd1 - jd0) / step := div_nonneg (by linarith) hstep.le
    rw [if_pos this]
    exact Int.floor_nonneg.2 this
  obtain ⟨m, hm⟩ := Int.eq_ofNat_of_zero_le h0
  set rs : K := (jd1 - jd0) / ((m : ℤ) + 3 : ℤ) with hrs
  have hrs0 : 0 < rs := by
    apply div_pos (by linarith)
    have : (0 : ℤ) < (m : ℤ) + 3 := by omega
    exact_mod_cast this
  have hsam : ∀ f : Searchable K K, f.stepDays = some step →
      maximaSamples jd0 jd1 f (n + 2) = .ok (npLinspace (jd0 - rs) (jd1 + rs) (m + 5)) := by
    intro f hf
    unfold maximaSamples
    rw [if_neg (not_le.2 hlt)]
    simp only [hf, hm]
    rw [if_neg (by omega)]
    congr 2
  set w : K := (jd1 + rs - (jd0 - rs)) / (((m + 5 : ℕ) : K) - 1) with hw
  obtain ⟨k, hk⟩ := pow_unbounded_of_one_lt (w / epsilon) h1
  rw [div_lt_iff₀ heps] at hk
  have hk2 : w ≤ epsilon * (n + 1) ^ (k + 1) := by
    have h3 : (n + 1 : K) ^ k ≤ (n + 1) ^ (k + 1) := pow_le_pow_right₀ h1.le (by omega)
    have := mul_le_mul_of_nonneg_left h3 heps.le
    linarith
  refine ⟨k + 2, ?_⟩
  intro f hf
  unfold findMaxima
  rw [hsam f hf]
  simp only
  have hlen : (npLinspace (jd0 - rs) (jd1 + rs) (m + 5)).length = m + 5 := by simp [npLinspace]
  obtain ⟨found, hfound⟩ := maximaLoop_stops f.call jd0 jd1 epsilon n k
    (npLinspace (jd0 - rs) (jd1 + rs) (m + 5)) w
    (npLinspace_strict (jd0 - rs) (jd1 + rs) (m + 3) (by linarith)) (by omega) (by
      intro i hi
      have hl := ((mem_drop_indices _ _ _).1 hi.1).1
      constructor
      · refine le_of_eq (npLinspace_adjacent (jd0 - rs) (jd1 + rs) (m + 5) (_, _) ?_)
        rw [mem_adjacent_iff]
        exact ⟨i, seq_get (by omega), seq_get (by omega)⟩
      · refine le_of_eq (npLinspace_adjacent (jd0 - rs) (jd1 + rs) (m + 5) (_, _) ?_)
        rw [mem_adjacent_iff]
        exact ⟨i + 1, seq_get (by omega), seq_get (by omega)⟩) hk2
  exact ⟨found, by rw [hfound]⟩

/-! ### Examples and findings -/

/-- Straight lines through (1/5,6), (3/10,3), (19/10,5), (2,0), (37/10,6), (26/5,5), continued with slope 1
on the left and -1 on the right. -/
def zigzag (x : ℚ) : ℚ :=
  if x ≤ 1/5 then 6 + (x - 1/5)
  else if x ≤ 3/10 then 6 - 30 * (x - 1/5)
  else if x ≤ 19/10 then 3 + 5/4 * (x - 3/10)
  else if x ≤ 2 then 5 - 50 * (x - 19/10)
  else if x ≤ 37/10 then 60/17 * (x - 2)
  else if x ≤ 26/5 then 6 - 2/3 * (x - 37/10)
  else 5 - (x - 26/5)

/-- **C18 (finding).** Only the first pair of samples is compared with `epsilon`, and a maximum noticed in
a late round is still coarsely sampled then: with `epsilon = 1/10` a maximum is reported at 8/5 although
the function is strictly increasing from 3/10 to 19/10, three times `epsilon` to either side. -/
theorem C18_epsilon_not_honoured :
    findMaxima 0 6 ⟨zigzag, some 3, none⟩ (1/10) 5 4 =
      .ok (some (some [(1/5, 6), (8/5, 37/8), (37/10, 6)])) ∧
    ∀ x y : ℚ, 3/10 ≤ x → x < y → y ≤ 19/10 → zigzag x < zigzag y := by
  constructor
  · decide +kernel
  · intro x y hx hxy hy
    unfold zigzag
    rw [if_neg (by linarith : ¬ x ≤ 1/5), if_neg (by linarith : ¬ y ≤ 1/5),
      if_neg (by linarith : ¬ y ≤ 3/10), if_pos hy]
    by_cases h : x ≤ 3/10
    · rw [if_pos h]; linarith
    · rw [if_neg h, if_pos (by linarith : x ≤ 19/10)]; linarith

/-- **C18 (finding).** The value reported in the middle of a level stretch need not be the function's value
there: this function is 0 at 3/2, yet a maximum with value 1 is reported there. -/
theorem C18_plateau_value :
    findMaxima (0 : ℚ) 3 ⟨fun x => if x = 21/20 ∨ x = 39/20 then 1 else 0, some 3, none⟩ 1 12 1 =
      .ok (some (some [(3/2, 1)])) := by
  decide +kernel

/-- The hypotheses of C18-C19 are met by a search of a parabola's maximum and of a zigzag. -/
example : findMaxima (0 : ℚ) 6 ⟨fun x => -(x - 2) * (x - 2), some 2, none⟩ (1/2) 4 3 =
    .ok (some (some [(43/21, -1/441)])) := by decide +kernel
example : findMinima (0 : ℚ) 6 ⟨fun x => (x - 2) * (x - 2), some 2, none⟩ (1/2) 4 3 =
    .ok (some (some [(43/21, 1/441)])) := by decide +kernel

end Skyfield
