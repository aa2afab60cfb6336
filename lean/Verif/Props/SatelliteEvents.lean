import Verif.Lemmas.SatelliteEvents
import Verif.Props.Maxima

/-
C67: what `EarthSatellite.find_events` returns.

`findEvents t0 t1 altitude orbits limit fuel fuel' = .ok (some (some events))` says: the search between the TT dates
`t0` and `t1`, for a satellite standing at `altitude t` degrees and making `orbits` orbits per minute, returned `events`
(date and event code), its two loops taking at most `fuel` and `fuel'` rounds.  The codes: 0 — rose above `limit`
degrees, 1 — culminated, 2 — fell below `limit`.
-/
namespace Skyfield
set_option linter.unusedSectionVars false
variable {K : Type*} [Field K] [LinearOrder K] [IsStrictOrderedRing K] [FloorRing K]

theorem halfSecond_pos : (0 : K) < halfSecond := by unfold halfSecond; norm_num

theorem eventStep_pos (o : K) : 0 < eventStep o ∧ eventStep o ≤ 1 / 20 := by
  unfold eventStep
  have h1 : (1 : K) ≤ max (24 * 60 * o) 1 := le_max_right _ _
  have h0 : (0 : K) < max (24 * 60 * o) 1 := lt_of_lt_of_le one_pos h1
  have h2 : (1 / 20 : K) / max (24 * 60 * o) 1 ≤ 1 / 20 := div_le_self (by norm_num) h1
  have h3 : (0 : K) < (1 / 20 : K) / max (24 * 60 * o) 1 := by positivity
  simp only
  split
  · rename_i h; exfalso; linarith [show (1 / 20 : K) < 1 / 4 by norm_num]
  · exact ⟨h3, h2⟩

/-- The two halves of a search that returned. -/
theorem findEvents_parts (t0 t1 : K) (altitude : K → K) (orbits limit : K) (fuel fuel' : ℕ) (events : List (K × ℕ))
    (h : findEvents t0 t1 altitude orbits limit fuel fuel' = .ok (some (some events))) :
    ∃ found crossings,
      findMaxima t0 t1 ⟨altitude, some (eventStep orbits), none⟩ halfSecond 12 fuel = .ok (some (some found)) ∧
      discreteLoop (fun t => decide (altitude t < limit)) halfSecond 8 fuel'
        (crossingSamples t0 ((found.filter fun p => p.2 ≥ limit).map (·.1)) t1) = some crossings ∧
      events = mergeEvents ((found.filter fun p => p.2 ≥ limit).map (·.1)) crossings := by
  unfold findEvents at h
  cases hm : findMaxima t0 t1 ⟨altitude, some (eventStep orbits), none⟩ halfSecond 12 fuel with
  | error e => rw [hm] at h; simp at h
  | ok r =>
    rw [hm] at h
    match r, h with
    | none, h => simp at h
    | some none, h => simp at h
    | some (some found), h =>
      simp only [Except.ok.injEq] at h
      cases hc : discreteLoop (fun t => decide (altitude t < limit)) halfSecond 8 fuel'
        (crossingSamples t0 ((found.filter fun p => p.2 ≥ limit).map (·.1)) t1) with
      | none => unfold eventsFrom at h; simp only [hc] at h; simp at h
      | some crossings =>
        unfold eventsFrom at h
        simp only [hc] at h
        simp only [Option.map_some, Option.some.injEq] at h
        exact ⟨found, crossings, rfl, hc, h.symm⟩

/-- Everything about the moments searched and the crossings found. -/
theorem findEvents_spec (t0 t1 : K) (altitude : K → K) (orbits limit : K) (fuel fuel' : ℕ) (events : List (K × ℕ))
    (h : findEvents t0 t1 altitude orbits limit fuel fuel' = .ok (some (some events))) :
    ∃ (found : List (K × K)) (jdmax : List K) (bs : List (K × K)),
      findMaxima t0 t1 ⟨altitude, some (eventStep orbits), none⟩ halfSecond 12 fuel = .ok (some (some found)) ∧
      jdmax = (found.filter fun p => p.2 ≥ limit).map (·.1) ∧
      (t0 :: (jdmax ++ [t1])).Pairwise (· ≤ ·) ∧
      jdmax.Pairwise (fun a b => halfSecond < b - a) ∧
      Good (fun t => decide (altitude t < limit)) t0 t1 bs ∧
      (∀ b ∈ bs, b.2 - b.1 ≤ halfSecond) ∧
      (∀ x ∈ crossingSamples t0 jdmax t1, Through (fun t => decide (altitude t < limit)) t0 t1 x bs) ∧
      events = mergeEvents jdmax (bs.map fun b => (b.2, decide (altitude b.2 < limit))) := by
  obtain ⟨found, crossings, h1, h2, rfl⟩ := findEvents_parts t0 t1 altitude orbits limit fuel fuel' events h
  have hstep : ∀ s, (⟨altitude, some (eventStep orbits), none⟩ : Searchable K K).stepDays = some s → 0 < s := by
    intro s hs
    simp only [Option.some.injEq] at hs
    rw [← hs]; exact (eventStep_pos orbits).1
  have hrough : ∀ s, (⟨altitude, some (eventStep orbits), none⟩ : Searchable K K).roughPeriod = some s → 0 < s := by
    intro s hs; simp at hs
  obtain ⟨c1, c2, -⟩ := C18_maxima t0 t1 _ _ 12 fuel found (by norm_num) hstep hrough h1
  have hlt : t0 < t1 := by
    obtain ⟨jd, n, hjd, -⟩ := findMaxima_spec t0 t1 _ _ 12 fuel found (by norm_num) hstep hrough h1
    exact (maximaSamples_ok t0 t1 _ 12 (by norm_num) jd hstep hrough hjd).1
  set jdmax := (found.filter fun p => p.2 ≥ limit).map (·.1) with hj
  have hin : ∀ x ∈ jdmax, t0 ≤ x ∧ x ≤ t1 := by
    intro x hx
    rw [hj, List.mem_map] at hx
    obtain ⟨p, hp, rfl⟩ := hx
    exact c1 p (List.mem_of_mem_filter hp)
  have hap : jdmax.Pairwise (fun a b => halfSecond < b - a) := by
    rw [hj, List.pairwise_map]
    exact List.Pairwise.filter _ c2
  have hso : (t0 :: (jdmax ++ [t1])).Pairwise (· ≤ ·) := by
    refine List.Pairwise.cons ?_ ?_
    · intro x hx
      rcases List.mem_append.1 hx with hx | hx
      · exact (hin x hx).1
      · rw [List.mem_singleton] at hx; rw [hx]; exact hlt.le
    · rw [List.pairwise_append]
      refine ⟨hap.imp fun {a b} hab => ?_, List.pairwise_singleton _ _, ?_⟩
      · have := halfSecond_pos (K := K); linarith
      · intro x hx y hy
        rw [List.mem_singleton] at hy
        rw [hy]; exact (hin x hx).2
  obtain ⟨s1, s2⟩ := crossingSamples_sorted t0 t1 jdmax hso
  have hth := through_samples (fun t => decide (altitude t < limit)) _ s1 t0 t1 (crossingSamples_head t0 t1 jdmax)
    (crossingSamples_last t0 t1 jdmax)
  have hgood : Good (fun t => decide (altitude t < limit)) t0 t1
      (changes (fun t => decide (altitude t < limit)) (crossingSamples t0 jdmax t1)) := by
    obtain ⟨b1, b2, e, g1, g2⟩ := hth t0 (List.mem_of_mem_head? (crossingSamples_head t0 t1 jdmax))
    cases b1 with
    | nil => rw [e]; exact g2
    | cons b b1 =>
      have := g1.mem List.mem_cons_self
      exact absurd (lt_of_le_of_lt this.1 this.2.1) (not_lt.2 this.2.2.1)
  obtain ⟨bs, a1, a2, a3, a4⟩ := discreteLoop_through _ halfSecond t0 t1 6 fuel' _ crossings hgood h2
  exact ⟨found, jdmax, bs, h1, hj, hso, hap, a1, a3, fun x hx => a4 x (hth x hx), by rw [a2]⟩

theorem mem_mergeEvents (jdmax : List K) (crossings : List (K × Bool)) (e : K × ℕ) :
    e ∈ mergeEvents jdmax crossings ↔ (e.2 = 1 ∧ e.1 ∈ jdmax) ∨ (e.2 = 0 ∧ (e.1, false) ∈ crossings) ∨
      (e.2 = 2 ∧ (e.1, true) ∈ crossings) := by
  unfold mergeEvents
  rw [(List.perm_insertionSort _ _).mem_iff, List.mem_append, List.mem_map, List.mem_map]
  obtain ⟨t, c⟩ := e
  constructor
  · rintro (⟨x, hx, e⟩ | ⟨⟨x, v⟩, hx, e⟩)
    · rw [Prod.mk.injEq] at e
      obtain ⟨rfl, rfl⟩ := e
      exact Or.inl ⟨rfl, hx⟩
    · cases v
      · simp at e
        obtain ⟨rfl, rfl⟩ := e
        exact Or.inr (Or.inl ⟨rfl, hx⟩)
      · simp at e
        obtain ⟨rfl, rfl⟩ := e
        exact Or.inr (Or.inr ⟨rfl, hx⟩)
  · rintro (⟨e, hx⟩ | ⟨e, hx⟩ | ⟨e, hx⟩)
    · simp only at e; subst e
      exact Or.inl ⟨t, hx, rfl⟩
    · simp only at e; subst e
      exact Or.inr ⟨_, hx, by simp⟩
    · simp only at e; subst e
      exact Or.inr ⟨_, hx, by simp⟩

section
variable (t0 t1 : K) (altitude : K → K) (orbits limit : K) (fuel fuel' : ℕ) (events : List (K × ℕ))

/-- **C67.** The events come in time order, from the start to the end, with codes 0, 1 and 2 only. -/
theorem C67_in_order (h : findEvents t0 t1 altitude orbits limit fuel fuel' = .ok (some (some events))) :
    events.Pairwise (fun a b => a.1 ≤ b.1) ∧
    ∀ e ∈ events, t0 ≤ e.1 ∧ e.1 ≤ t1 ∧ (e.2 = 0 ∨ e.2 = 1 ∨ e.2 = 2) := by
  obtain ⟨found, jdmax, bs, h1, hj, hso, hap, hg, hw, hth, rfl⟩ := findEvents_spec t0 t1 altitude orbits limit fuel fuel' events h
  constructor
  · unfold mergeEvents
    haveI : Std.Total (fun a b : K × ℕ => a.1 ≤ b.1) := ⟨fun a b => le_total _ _⟩
    haveI : IsTrans (K × ℕ) (fun a b => a.1 ≤ b.1) := ⟨fun a b c h1 h2 => le_trans h1 h2⟩
    exact List.pairwise_insertionSort _ _
  · intro e he
    have hb : ∀ v, (e.1, v) ∈ bs.map (fun b => (b.2, decide (altitude b.2 < limit))) → t0 ≤ e.1 ∧ e.1 ≤ t1 := by
      intro v hv
      rw [List.mem_map] at hv
      obtain ⟨b, hb, e2⟩ := hv
      rw [Prod.mk.injEq] at e2
      have := hg.mem hb
      rw [← e2.1]
      exact ⟨le_trans this.1 this.2.1.le, this.2.2.1⟩
    rcases (mem_mergeEvents _ _ _).1 he with ⟨c, hm⟩ | ⟨c, hm⟩ | ⟨c, hm⟩
    · have hx := (List.pairwise_cons.1 hso).1 e.1 (List.mem_append_left _ hm)
      have hy := (List.pairwise_append.1 (List.pairwise_cons.1 hso).2).2.2 e.1 hm t1 (by simp)
      exact ⟨hx, hy, Or.inr (Or.inl c)⟩
    · exact ⟨(hb _ hm).1, (hb _ hm).2, Or.inl c⟩
    · exact ⟨(hb _ hm).1, (hb _ hm).2, Or.inr (Or.inr c)⟩

/-- **C67.** A rising is real: the satellite stands at or above the limit then, and below it at some moment of the
search no more than half a second earlier. -/
theorem C67_rising (h : findEvents t0 t1 altitude orbits limit fuel fuel' = .ok (some (some events))) (t : K)
    (ht : (t, 0) ∈ events) :
    limit ≤ altitude t ∧ ∃ s, t0 ≤ s ∧ s < t ∧ t - s ≤ 0.5 / 86400 ∧ altitude s < limit := by
  obtain ⟨found, jdmax, bs, h1, hj, hso, hap, hg, hw, hth, rfl⟩ := findEvents_spec t0 t1 altitude orbits limit fuel fuel' events h
  rcases (mem_mergeEvents _ _ _).1 ht with ⟨c, -⟩ | ⟨-, hm⟩ | ⟨c, -⟩
  · simp at c
  · rw [List.mem_map] at hm
    obtain ⟨b, hb, e⟩ := hm
    rw [Prod.mk.injEq, decide_eq_false_iff_not, not_lt] at e
    obtain ⟨rfl, hl⟩ := e
    obtain ⟨g1, g2, g3, g4⟩ := hg.mem hb
    refine ⟨hl, b.1, g1, g2, ?_, ?_⟩
    · have := hw b hb
      unfold halfSecond at this
      norm_num at this ⊢
      exact this
    · by_contra hc
      rw [decide_eq_false hc, decide_eq_false (not_lt.2 hl)] at g4
      exact g4 rfl
  · simp at c

/-- **C67.** A setting is real: the satellite stands below the limit then, and at or above it at some moment of the
search no more than half a second earlier. -/
theorem C67_setting (h : findEvents t0 t1 altitude orbits limit fuel fuel' = .ok (some (some events))) (t : K)
    (ht : (t, 2) ∈ events) :
    altitude t < limit ∧ ∃ s, t0 ≤ s ∧ s < t ∧ t - s ≤ 0.5 / 86400 ∧ limit ≤ altitude s := by
  obtain ⟨found, jdmax, bs, h1, hj, hso, hap, hg, hw, hth, rfl⟩ := findEvents_spec t0 t1 altitude orbits limit fuel fuel' events h
  rcases (mem_mergeEvents _ _ _).1 ht with ⟨c, -⟩ | ⟨c, -⟩ | ⟨-, hm⟩
  · simp at c
  · simp at c
  · rw [List.mem_map] at hm
    obtain ⟨b, hb, e⟩ := hm
    rw [Prod.mk.injEq, decide_eq_true_eq] at e
    obtain ⟨rfl, hl⟩ := e
    obtain ⟨g1, g2, g3, g4⟩ := hg.mem hb
    refine ⟨hl, b.1, g1, g2, ?_, ?_⟩
    · have := hw b hb
      unfold halfSecond at this
      norm_num at this ⊢
      exact this
    · by_contra hc
      rw [decide_eq_true (not_le.1 hc), decide_eq_true hl] at g4
      exact g4 rfl

/-- **C67.** A culmination is real: the satellite reaches at least the limit, at a height it does not keep — at some
earlier and some later moment around it stands strictly lower; and the height is the one it has at the moment reported,
unless that is the middle of a level stretch.  Culminations are more than half a second apart. -/
theorem C67_culmination (h : findEvents t0 t1 altitude orbits limit fuel fuel' = .ok (some (some events))) :
    (∀ t, (t, 1) ∈ events → ∃ height a b m, limit ≤ height ∧ a < t ∧ t < b ∧ altitude a < height ∧
      altitude b < height ∧ a < m ∧ m < b ∧ altitude m = height ∧ (t = m ∨ t = (a + b) / 2)) ∧
    ∀ t t', (t, 1) ∈ events → (t', 1) ∈ events → t < t' → 0.5 / 86400 < t' - t := by
  obtain ⟨found, jdmax, bs, h1, hj, hso, hap, hg, hw, hth, rfl⟩ := findEvents_spec t0 t1 altitude orbits limit fuel fuel' events h
  have hmem : ∀ t, (t, 1) ∈ mergeEvents jdmax (bs.map fun b => (b.2, decide (altitude b.2 < limit))) → t ∈ jdmax := by
    intro t ht
    rcases (mem_mergeEvents _ _ _).1 ht with ⟨-, hm⟩ | ⟨c, -⟩ | ⟨c, -⟩
    · exact hm
    · simp at c
    · simp at c
  constructor
  · intro t ht
    have hm := hmem t ht
    rw [hj, List.mem_map] at hm
    obtain ⟨⟨t', v⟩, hp, rfl⟩ := hm
    rw [List.mem_filter] at hp
    have hv : limit ≤ v := by simpa using hp.2
    obtain ⟨a, b, m, k1, k2, k3, k4, k5, k6, k7, k8⟩ := C18_between_lower t0 t1 _ _ 12 fuel found (by norm_num)
      (fun s hs => by simp only [Option.some.injEq] at hs; rw [← hs]; exact (eventStep_pos orbits).1)
      (fun s hs => by simp at hs) h1 t' v hp.1
    exact ⟨v, a, b, m, hv, k1, k2, k3, k4, k5, k6, k7, k8⟩
  · intro t t' ht ht' hlt
    have m1 := hmem t ht
    have m2 := hmem t' ht'
    have e : (0.5 / 86400 : K) = halfSecond := by unfold halfSecond; norm_num
    rw [e]
    clear hj hso h1 hg hw hth ht ht' hmem h
    induction jdmax with
    | nil => simp at m1
    | cons x l ih =>
      obtain ⟨p1, p2⟩ := List.pairwise_cons.1 hap
      have hpos := halfSecond_pos (K := K)
      rcases List.mem_cons.1 m1 with e1 | m1
      · rcases List.mem_cons.1 m2 with e2 | m2
        · rw [e1, e2] at hlt
          exact absurd hlt (lt_irrefl _)
        · rw [e1]
          exact p1 t' m2
      · rcases List.mem_cons.1 m2 with e2 | m2
        · have := p1 t m1
          rw [e2] at hlt
          linarith
        · exact ih p2 m1 m2

/-- **C67.** The culminations reported are the maxima that `find_maxima` finds at half-second precision and that reach
the limit. -/
theorem C67_all_culminations (h : findEvents t0 t1 altitude orbits limit fuel fuel' = .ok (some (some events))) :
    ∃ found, findMaxima t0 t1 ⟨altitude, some (eventStep orbits), none⟩ (0.5 / 86400) 12 fuel =
        .ok (some (some found)) ∧
      ∀ t, (t, 1) ∈ events ↔ ∃ height, (t, height) ∈ found ∧ limit ≤ height := by
  obtain ⟨found, jdmax, bs, h1, hj, hso, hap, hg, hw, hth, rfl⟩ := findEvents_spec t0 t1 altitude orbits limit fuel fuel' events h
  have e : (0.5 / 86400 : K) = halfSecond := by unfold halfSecond; norm_num
  refine ⟨found, by rw [e]; exact h1, ?_⟩
  intro t
  rw [mem_mergeEvents]
  simp only [true_and, OfNat.one_ne_ofNat, false_and, or_false, one_ne_zero]
  rw [hj, List.mem_map]
  constructor
  · rintro ⟨⟨t', v⟩, hp, rfl⟩
    rw [List.mem_filter] at hp
    exact ⟨v, hp.1, by simpa using hp.2⟩
  · rintro ⟨v, hv, hl⟩
    exact ⟨(t, v), List.mem_filter.2 ⟨hv, by simpa using hl⟩, rfl⟩

/-- The moments at which the search looks whether the satellite is up: the start, the end, the culminations, and the
middle between each two neighbours of these. -/
def LooksAt (t0 t1 : K) (culminations : List K) (x : K) : Prop :=
  x = t0 ∨ x = t1 ∨ x ∈ culminations ∨
    ∃ p ∈ (t0 :: (culminations ++ [t1])).zip (culminations ++ [t1]), x = (p.1 + p.2) / 2

/-- **C67.** The risings and settings tell the whole story at every moment the search looks at — the start, the end,
each culmination, and the middle between neighbours: the last of them up to that moment is a rising if the satellite is
up, a setting if it is down; if there is none, the satellite is as it was at the start; the next one is a setting if the
satellite is up, a rising if it is down; and if there is none the satellite stays so until the end. -/
theorem C67_story (h : findEvents t0 t1 altitude orbits limit fuel fuel' = .ok (some (some events))) (x : K)
    (hx : LooksAt t0 t1 ((events.filter fun e => e.2 = 1).map (·.1)) x) :
    (∀ e ∈ events, e.2 ≠ 1 → e.1 ≤ x → (∀ e' ∈ events, e'.2 ≠ 1 → e'.1 ≤ x → e'.1 ≤ e.1) →
      (e.2 = 0 ↔ limit ≤ altitude x)) ∧
    ((∀ e ∈ events, e.2 ≠ 1 → x < e.1) → (limit ≤ altitude t0 ↔ limit ≤ altitude x)) ∧
    (∀ e ∈ events, e.2 ≠ 1 → x < e.1 → (∀ e' ∈ events, e'.2 ≠ 1 → x < e'.1 → e.1 ≤ e'.1) →
      (e.2 = 2 ↔ limit ≤ altitude x)) ∧
    ((∀ e ∈ events, e.2 ≠ 1 → e.1 ≤ x) → (limit ≤ altitude t1 ↔ limit ≤ altitude x)) := by
  obtain ⟨found, jdmax, bs, h1, hj, hso, hap, hg, hw, hth, rfl⟩ := findEvents_spec t0 t1 altitude orbits limit fuel fuel' events h
  set f := fun t => decide (altitude t < limit) with hf
  set evs := mergeEvents jdmax (bs.map fun b => (b.2, decide (altitude b.2 < limit))) with hev
  have hcul : (evs.filter fun e => e.2 = 1).map (·.1) = jdmax := by
    have hp : ((evs.filter fun e => e.2 = 1).map (·.1)).Perm jdmax := by
      have h2 : evs.Perm (jdmax.map (fun t => (t, 1)) ++
          (bs.map fun b => (b.2, decide (altitude b.2 < limit))).map fun e : K × Bool => (e.1, if e.2 then 2 else 0)) := by
        rw [hev]; unfold mergeEvents; exact List.perm_insertionSort _ _
      have h3 := (h2.filter fun e => decide (e.2 = 1)).map (·.1)
      refine h3.trans ?_
      rw [List.filter_append, List.map_append]
      have e1 : (jdmax.map (fun t => ((t, 1) : K × ℕ))).filter (fun e => decide (e.2 = 1)) = jdmax.map fun t => (t, 1) := by
        rw [List.filter_eq_self]
        intro a ha
        rw [List.mem_map] at ha
        obtain ⟨x, -, rfl⟩ := ha
        simp
      have e2 : ((bs.map fun b => (b.2, decide (altitude b.2 < limit))).map
          fun e : K × Bool => (e.1, if e.2 then 2 else 0)).filter (fun e : K × ℕ => decide (e.2 = 1)) = [] := by
        rw [List.filter_eq_nil_iff]
        intro a ha
        rw [List.mem_map] at ha
        obtain ⟨⟨y, v⟩, -, rfl⟩ := ha
        cases v <;> simp
      rw [e1, e2, List.map_map, List.map_nil, List.append_nil]
      rw [show ((fun e : K × ℕ => e.1) ∘ fun t : K => (t, 1)) = id from rfl, List.map_id]
    have hs1 : ((evs.filter fun e => e.2 = 1).map (·.1)).Pairwise (· ≤ ·) := by
      rw [List.pairwise_map]
      exact List.Pairwise.filter _ (C67_in_order t0 t1 altitude orbits limit fuel fuel' _ h).1
    have hs2 : jdmax.Pairwise (· ≤ ·) := (List.pairwise_append.1 (List.pairwise_cons.1 hso).2).1
    exact hp.eq_of_pairwise (fun a b _ _ h1 h2 => le_antisymm h1 h2) hs1 hs2
  rw [hcul] at hx
  have hx' : x ∈ crossingSamples t0 jdmax t1 := by
    rcases hx with rfl | rfl | hx | ⟨p, hp, rfl⟩
    · exact List.mem_of_mem_head? (crossingSamples_head _ _ _)
    · exact List.mem_of_getLast? (crossingSamples_last _ _ _)
    · exact crossingSamples_mem _ _ _ _ hx
    · exact crossingSamples_middle _ _ _ p hp
  obtain ⟨bs1, bs2, rfl, g1, g2⟩ := hth x hx'
  have up : ∀ y, limit ≤ altitude y ↔ f y = false := by
    intro y; rw [hf]; simp
  have hto : ∀ b ∈ bs1 ++ bs2, (b.2, if f b.2 then 2 else 0) ∈ evs := by
    intro b hb
    rw [hev, mem_mergeEvents]
    cases hv : f b.2
    · exact Or.inr (Or.inl ⟨by simp, List.mem_map.2 ⟨b, hb, by rw [← hv]⟩⟩)
    · exact Or.inr (Or.inr ⟨by simp, List.mem_map.2 ⟨b, hb, by rw [← hv]⟩⟩)
  have hne : ∀ b : K × K, (if f b.2 then 2 else 0 : ℕ) ≠ 1 := by
    intro b; cases f b.2 <;> simp
  have hfrom : ∀ e ∈ evs, e.2 ≠ 1 → ∃ b ∈ bs1 ++ bs2, e = (b.2, if f b.2 then 2 else 0) := by
    intro e he hne
    rcases (mem_mergeEvents _ _ _).1 he with ⟨c, -⟩ | ⟨c, hm⟩ | ⟨c, hm⟩
    · exact absurd c hne
    · rw [List.mem_map] at hm
      obtain ⟨b, hb, e2⟩ := hm
      rw [Prod.mk.injEq] at e2
      refine ⟨b, hb, Prod.ext e2.1.symm ?_⟩
      rw [c, hf]; simp only [e2.2]; simp
    · rw [List.mem_map] at hm
      obtain ⟨b, hb, e2⟩ := hm
      rw [Prod.mk.injEq] at e2
      refine ⟨b, hb, Prod.ext e2.1.symm ?_⟩
      rw [c, hf]; simp only [e2.2]; simp
  have hb1 : ∀ b ∈ bs1, b.2 ≤ x := fun b hb => (g1.mem hb).2.2.1
  have hb2 : ∀ b ∈ bs2, x < b.2 := fun b hb => lt_of_le_of_lt (g2.mem hb).1 (g2.mem hb).2.1
  refine ⟨?_, ?_, ?_, ?_⟩
  · intro e he hn hle hmax
    obtain ⟨b, hb, rfl⟩ := hfrom e he hn
    have hbm : b ∈ bs1 := by
      rcases List.mem_append.1 hb with hb | hb
      · exact hb
      · exact absurd hle (not_le.2 (hb2 b hb))
    have := g1.last b hbm fun c hc => hmax _ (hto c (List.mem_append_left _ hc)) (hne c) (hb1 c hc)
    rw [up, ← this]
    cases f b.2 <;> simp
  · intro hall
    have : bs1 = [] := by
      rw [List.eq_nil_iff_forall_not_mem]
      intro b hb
      exact absurd (hall _ (hto b (List.mem_append_left _ hb)) (hne b)) (not_lt.2 (hb1 b hb))
    rw [up, up, g1.none_iff this]
  · intro e he hn hlt hmin
    obtain ⟨b, hb, rfl⟩ := hfrom e he hn
    have hbm : b ∈ bs2 := by
      rcases List.mem_append.1 hb with hb | hb
      · exact absurd hlt (not_lt.2 (hb1 b hb))
      · exact hb
    have h5 := g2.first b hbm fun c hc => hmin _ (hto c (List.mem_append_right _ hc)) (hne c) (hb2 c hc)
    have h6 : f b.1 ≠ f b.2 := (g2.mem hbm).2.2.2
    rw [up, h5]
    revert h6
    generalize f b.1 = p
    generalize f b.2 = q
    cases p <;> cases q <;> simp
  · intro hall
    have : bs2 = [] := by
      rw [List.eq_nil_iff_forall_not_mem]
      intro b hb
      exact absurd (hall _ (hto b (List.mem_append_right _ hb)) (hne b)) (not_le.2 (hb2 b hb))
    rw [up, up, g2.none_iff this]

/-- **C67.** Each culmination belongs to a pass: if the satellite stands at or above the limit at the moment reported
(which C67_culmination guarantees outside level stretches), then the last rising or setting up to that moment is a
rising, or there is none and the satellite was up at the start; and the next one is a setting, or there is none and the
satellite is up at the end. -/
theorem C67_culmination_in_pass (h : findEvents t0 t1 altitude orbits limit fuel fuel' = .ok (some (some events)))
    (t : K) (ht : (t, 1) ∈ events) (hup : limit ≤ altitude t) :
    (∀ e ∈ events, e.2 ≠ 1 → e.1 ≤ t → (∀ e' ∈ events, e'.2 ≠ 1 → e'.1 ≤ t → e'.1 ≤ e.1) → e.2 = 0) ∧
    ((∀ e ∈ events, e.2 ≠ 1 → t < e.1) → limit ≤ altitude t0) ∧
    (∀ e ∈ events, e.2 ≠ 1 → t < e.1 → (∀ e' ∈ events, e'.2 ≠ 1 → t < e'.1 → e.1 ≤ e'.1) → e.2 = 2) ∧
    ((∀ e ∈ events, e.2 ≠ 1 → e.1 ≤ t) → limit ≤ altitude t1) := by
  obtain ⟨a1, a2, a3, a4⟩ := C67_story t0 t1 altitude orbits limit fuel fuel' events h t
    (Or.inr (Or.inr (Or.inl (List.mem_map.2 ⟨(t, 1), List.mem_filter.2 ⟨ht, by simp⟩, rfl⟩))))
  exact ⟨fun e h1 h2 h3 h4 => (a1 e h1 h2 h3 h4).2 hup, fun h1 => (a2 h1).2 hup,
    fun e h1 h2 h3 h4 => (a3 e h1 h2 h3 h4).2 hup, fun h1 => (a4 h1).2 hup⟩

/-- **C67.** No crossing is missed between two of the moments the search looks at: if the satellite is up at one and
down at the other, there is a rising or setting between. -/
theorem C67_no_crossing_missed (h : findEvents t0 t1 altitude orbits limit fuel fuel' = .ok (some (some events)))
    (x y : K) (hx : LooksAt t0 t1 ((events.filter fun e => e.2 = 1).map (·.1)) x)
    (hy : LooksAt t0 t1 ((events.filter fun e => e.2 = 1).map (·.1)) y) (hxy : x < y)
    (hdiff : ¬(limit ≤ altitude x ↔ limit ≤ altitude y)) :
    ∃ e ∈ events, e.2 ≠ 1 ∧ x < e.1 ∧ e.1 ≤ y := by
  by_contra hno
  push Not at hno
  apply hdiff
  obtain ⟨x1, x2, -, -⟩ := C67_story t0 t1 altitude orbits limit fuel fuel' events h x hx
  obtain ⟨y1, y2, -, -⟩ := C67_story t0 t1 altitude orbits limit fuel fuel' events h y hy
  by_cases hex : ∃ e ∈ events, e.2 ≠ 1 ∧ e.1 ≤ y
  · obtain ⟨e, he, hmax⟩ := Finset.exists_max_image (events.toFinset.filter fun e => e.2 ≠ 1 ∧ e.1 ≤ y) (·.1)
      (by obtain ⟨e, h1, h2⟩ := hex; exact ⟨e, by simp [h1, h2]⟩)
    rw [Finset.mem_filter, List.mem_toFinset] at he
    obtain ⟨he, hn, hey⟩ := he
    have hex' : e.1 ≤ x := by
      by_contra hc
      exact absurd hey (not_le.2 (hno e he hn (not_le.1 hc)))
    have hm : ∀ e' ∈ events, e'.2 ≠ 1 → e'.1 ≤ y → e'.1 ≤ e.1 := by
      intro e' h1 h2 h3
      exact hmax e' (by simp [h1, h2, h3])
    rw [← x1 e he hn hex' fun e' h1 h2 h3 => hm e' h1 h2 (le_trans h3 hxy.le), ← y1 e he hn hey hm]
  · push Not at hex
    rw [← x2 fun e h1 h2 => lt_trans hxy (hex e h1 h2), ← y2 hex]

/-- **C67.** Risings and settings alternate: of two of them with none between, one is a rising and the other a
setting; and no two of them fall on the same moment. -/
theorem C67_alternate (h : findEvents t0 t1 altitude orbits limit fuel fuel' = .ok (some (some events))) :
    (∀ e ∈ events, ∀ e' ∈ events, e.2 ≠ 1 → e'.2 ≠ 1 → e.1 < e'.1 →
      (∀ d ∈ events, d.2 ≠ 1 → ¬(e.1 < d.1 ∧ d.1 < e'.1)) → (e.2 = 0 ∧ e'.2 = 2) ∨ (e.2 = 2 ∧ e'.2 = 0)) ∧
    (events.filter fun e => e.2 ≠ 1).Pairwise (fun a b => a.1 < b.1) := by
  have hord := (C67_in_order t0 t1 altitude orbits limit fuel fuel' events h).1
  obtain ⟨found, jdmax, bs, h1, hj, hso, hap, hg, hw, hth, rfl⟩ := findEvents_spec t0 t1 altitude orbits limit fuel fuel' events h
  set f := fun t => decide (altitude t < limit) with hf
  set evs := mergeEvents jdmax (bs.map fun b => (b.2, decide (altitude b.2 < limit))) with hev
  have hto : ∀ b ∈ bs, (b.2, if f b.2 then 2 else 0) ∈ evs := by
    intro b hb
    rw [hev, mem_mergeEvents]
    cases hv : f b.2
    · exact Or.inr (Or.inl ⟨by simp, List.mem_map.2 ⟨b, hb, by rw [← hv]⟩⟩)
    · exact Or.inr (Or.inr ⟨by simp, List.mem_map.2 ⟨b, hb, by rw [← hv]⟩⟩)
  have hne : ∀ b : K × K, (if f b.2 then 2 else 0 : ℕ) ≠ 1 := by
    intro b; cases f b.2 <;> simp
  have hfrom : ∀ e ∈ evs, e.2 ≠ 1 → ∃ b ∈ bs, e = (b.2, if f b.2 then 2 else 0) := by
    intro e he hne
    rcases (mem_mergeEvents _ _ _).1 he with ⟨c, -⟩ | ⟨c, hm⟩ | ⟨c, hm⟩
    · exact absurd c hne
    · rw [List.mem_map] at hm
      obtain ⟨b, hb, e2⟩ := hm
      rw [Prod.mk.injEq] at e2
      refine ⟨b, hb, Prod.ext e2.1.symm ?_⟩
      rw [c, hf]; simp only [e2.2]; simp
    · rw [List.mem_map] at hm
      obtain ⟨b, hb, e2⟩ := hm
      rw [Prod.mk.injEq] at e2
      refine ⟨b, hb, Prod.ext e2.1.symm ?_⟩
      rw [c, hf]; simp only [e2.2]; simp
  constructor
  · intro e he e' he' hn hn' hlt hbetween
    obtain ⟨b, hb, rfl⟩ := hfrom e he hn
    obtain ⟨c, hc, rfl⟩ := hfrom e' he' hn'
    have := hg.neighbours b hb c hc hlt fun d hd => hbetween _ (hto d hd) (hne d)
    revert this
    simp only
    generalize f b.2 = p
    generalize f c.2 = q
    cases p <;> cases q <;> simp
  · have hp : (evs.filter fun e => e.2 ≠ 1).Perm (bs.map fun b => (b.2, if f b.2 then 2 else 0)) := by
      have h2 : evs.Perm (jdmax.map (fun t => (t, 1)) ++
          (bs.map fun b => (b.2, decide (altitude b.2 < limit))).map fun e : K × Bool => (e.1, if e.2 then 2 else 0)) := by
        rw [hev]; unfold mergeEvents; exact List.perm_insertionSort _ _
      refine (h2.filter fun e => decide (e.2 ≠ 1)).trans ?_
      rw [List.filter_append]
      have e1 : (jdmax.map (fun t => ((t, 1) : K × ℕ))).filter (fun e => decide (e.2 ≠ 1)) = [] := by
        rw [List.filter_eq_nil_iff]
        intro a ha
        rw [List.mem_map] at ha
        obtain ⟨x, -, rfl⟩ := ha
        simp
      have e2 : ((bs.map fun b => (b.2, decide (altitude b.2 < limit))).map
          fun e : K × Bool => (e.1, if e.2 then 2 else 0)).filter (fun e : K × ℕ => decide (e.2 ≠ 1)) =
          bs.map fun b => (b.2, if f b.2 then 2 else 0) := by
        rw [List.filter_eq_self.2]
        · rw [List.map_map]; rfl
        · intro a ha
          rw [List.mem_map] at ha
          obtain ⟨⟨y, v⟩, -, rfl⟩ := ha
          cases v <;> simp
      rw [e1, e2, List.nil_append]
    have hs2 : (bs.map fun b => ((b.2, if f b.2 then 2 else 0) : K × ℕ)).Pairwise (fun a b => a.1 < b.1) := by
      rw [List.pairwise_map]
      exact hg.increasing
    have hk : ((evs.filter fun e => e.2 ≠ 1).map (·.1)).Nodup := by
      refine ((hp.map (·.1)).nodup_iff).2 ?_
      rw [List.Nodup, List.pairwise_map]
      exact hs2.imp fun {a b} hab => ne_of_lt hab
    rw [List.Nodup, List.pairwise_map] at hk
    exact (List.Pairwise.and (List.Pairwise.filter _ hord) hk).imp fun {a b} hab => lt_of_le_of_ne hab.1 hab.2

/-- **C67.** No visible pass is missed: if at three of the sampled moments inside the search the satellite stands
lower, then higher and not below the limit, then lower again, a culmination not below the limit is found between the
outer two; it is reported, unless another maximum was found no more than half a second before it. -/
theorem C67_no_pass_missed (h : findEvents t0 t1 altitude orbits limit fuel fuel' = .ok (some (some events)))
    (samples : List K)
    (hsamples : maximaSamples t0 t1 ⟨altitude, some (eventStep orbits), none⟩ 12 = .ok samples)
    (u v w : K) (hu : u ∈ samples) (hv : v ∈ samples) (hw : w ∈ samples) (huv : u < v) (hvw : v < w)
    (h1 : altitude u < altitude v) (h2 : altitude w < altitude v) (hup : limit ≤ altitude v)
    (hin : t0 ≤ u ∧ w ≤ t1) :
    ∃ last t val, LooksLikeMaximum altitude last t val ∧ u < t ∧ t < w ∧ limit ≤ val ∧
      ((t, 1) ∈ events ∨ ∃ t' val', LooksLikeMaximum altitude last t' val' ∧ t0 ≤ t' ∧ t' ≤ t ∧
        t - t' ≤ 0.5 / 86400) := by
  obtain ⟨found, hf, hall⟩ := C67_all_culminations t0 t1 altitude orbits limit fuel fuel' events h
  obtain ⟨-, last, t, val, k1, k2, k3, k4, k5⟩ := C18_no_maximum_missed t0 t1 _ _ 12 fuel found samples (by norm_num)
    (fun s hs => by simp only [Option.some.injEq] at hs; rw [← hs]; exact (eventStep_pos orbits).1)
    (fun s hs => by simp at hs) hsamples hf u v w hu hv hw huv hvw h1 h2 hin
  have hl : limit ≤ val := le_trans hup k4
  refine ⟨last, t, val, k1, k2, k3, hl, ?_⟩
  rcases k5 with k5 | k5
  · exact Or.inl ((hall t).2 ⟨val, k5, hl⟩)
  · exact Or.inr k5

end

/-- **C67.** The sampled moments are less than a twentieth of an orbit apart, and less than a twentieth of a day. -/
theorem C67_sampling (t0 t1 : K) (altitude : K → K) (orbits : K) (hlt : t0 < t1) :
    ∃ samples, maximaSamples t0 t1 ⟨altitude, some (eventStep orbits), none⟩ 12 = .ok samples ∧
      (∃ a ∈ samples.head?, a < t0) ∧ (∃ b ∈ samples.getLast?, t1 < b) ∧
      ∀ p ∈ samples.zip samples.tail, 0 < p.2 - p.1 ∧ p.2 - p.1 < 1 / 20 ∧ (p.2 - p.1) * (24 * 60 * orbits) < 1 / 20 := by
  obtain ⟨e1, e2⟩ := eventStep_pos orbits
  obtain ⟨samples, s1, s2, s3, s4⟩ := C18_sample_spacing t0 t1 ⟨altitude, some (eventStep orbits), none⟩ 12
    (eventStep orbits) hlt rfl e1
  refine ⟨samples, s1, s2, s3, ?_⟩
  intro p hp
  obtain ⟨p1, p2⟩ := s4 p hp
  refine ⟨p1, lt_of_lt_of_le p2 e2, ?_⟩
  have hm1 : (1 : K) ≤ max (24 * 60 * orbits) 1 := le_max_right _ _
  have hm2 : 24 * 60 * orbits ≤ max (24 * 60 * orbits) 1 := le_max_left _ _
  have hs : eventStep orbits ≤ (1 / 20) / max (24 * 60 * orbits) 1 := by
    unfold eventStep
    simp only
    split
    · rename_i hc; exact le_of_lt hc
    · exact le_refl _
  have hm0 : (0 : K) < max (24 * 60 * orbits) 1 := lt_of_lt_of_le one_pos hm1
  calc (p.2 - p.1) * (24 * 60 * orbits) ≤ (p.2 - p.1) * max (24 * 60 * orbits) 1 :=
        mul_le_mul_of_nonneg_left hm2 p1.le
    _ < (1 / 20) / max (24 * 60 * orbits) 1 * max (24 * 60 * orbits) 1 :=
        mul_lt_mul_of_pos_right (lt_of_lt_of_le p2 hs) hm0
    _ = 1 / 20 := by field_simp

/-- **C67.** The search ends, with a list of events, after a number of rounds that does not depend on the
satellite. -/
theorem C67_terminates [Archimedean K] (t0 t1 orbits : K) (hlt : t0 < t1) :
    ∃ fuel fuel', ∀ (altitude : K → K) (limit : K),
      ∃ events, findEvents t0 t1 altitude orbits limit fuel fuel' = .ok (some (some events)) := by
  obtain ⟨fuel, hfuel⟩ := C56_maxima_terminate t0 t1 (halfSecond : K) 12 (by norm_num) halfSecond_pos hlt
    (eventStep orbits) (eventStep_pos orbits).1
  obtain ⟨k, hk⟩ := pow_unbounded_of_one_lt ((t1 - t0) / halfSecond) (show (1 : K) < ((6 : ℕ) : K) + 1 by norm_num)
  rw [div_lt_iff₀ halfSecond_pos] at hk
  refine ⟨fuel, k + 1, ?_⟩
  intro altitude limit
  obtain ⟨found, hf⟩ := hfuel ⟨altitude, some (eventStep orbits), none⟩ rfl
  have hstep : ∀ s, (⟨altitude, some (eventStep orbits), none⟩ : Searchable K K).stepDays = some s → 0 < s := by
    intro s hs
    simp only [Option.some.injEq] at hs
    rw [← hs]; exact (eventStep_pos orbits).1
  have hrough : ∀ s, (⟨altitude, some (eventStep orbits), none⟩ : Searchable K K).roughPeriod = some s → 0 < s := by
    intro s hs; simp at hs
  obtain ⟨c1, c2, -⟩ := C18_maxima t0 t1 _ _ 12 fuel found (by norm_num) hstep hrough hf
  set jdmax := (found.filter fun p => p.2 ≥ limit).map (·.1) with hj
  have hso : (t0 :: (jdmax ++ [t1])).Pairwise (· ≤ ·) := by
    have hin : ∀ x ∈ jdmax, t0 ≤ x ∧ x ≤ t1 := by
      intro x hx
      rw [hj, List.mem_map] at hx
      obtain ⟨p, hp, rfl⟩ := hx
      exact c1 p (List.mem_of_mem_filter hp)
    refine List.Pairwise.cons ?_ ?_
    · intro x hx
      rcases List.mem_append.1 hx with hx | hx
      · exact (hin x hx).1
      · rw [List.mem_singleton] at hx; rw [hx]; exact hlt.le
    · rw [List.pairwise_append]
      refine ⟨?_, List.pairwise_singleton _ _, ?_⟩
      · rw [hj, List.pairwise_map]
        refine (List.Pairwise.filter _ c2).imp fun {a b} hab => ?_
        have := halfSecond_pos (K := K)
        linarith
      · intro x hx y hy
        rw [List.mem_singleton] at hy
        rw [hy]; exact (hin x hx).2
  obtain ⟨s1, s2⟩ := crossingSamples_sorted t0 t1 jdmax hso
  have hgood : Good (fun t => decide (altitude t < limit)) t0 t1
      (changes (fun t => decide (altitude t < limit)) (crossingSamples t0 jdmax t1)) := by
    have h0 := crossingSamples_head t0 t1 jdmax
    have h1 := crossingSamples_last t0 t1 jdmax
    cases hc : crossingSamples t0 jdmax t1 with
    | nil => rw [hc] at h0; simp at h0
    | cons a l =>
      rw [hc] at h0 h1 s1
      rw [List.head?_cons, Option.some.injEq] at h0
      rw [List.getLast?_eq_getLast_of_ne_nil (by simp), Option.some.injEq] at h1
      have := good_changes (fun t => decide (altitude t < limit)) a l s1
      rw [h1] at this
      subst h0
      exact this
  obtain ⟨crossings, hc⟩ := discreteLoop_stops_le (fun t => decide (altitude t < limit)) halfSecond t0 t1 (t1 - t0) 6 k
    (crossingSamples t0 jdmax t1) hgood (fun b hb => by
      have := hgood.mem hb
      linarith [this.1, this.2.2.1]) (by rw [mul_comm]; exact hk.le)
  refine ⟨mergeEvents jdmax crossings, ?_⟩
  unfold findEvents
  rw [hf]
  simp only
  unfold eventsFrom
  simp only [← hj]
  rw [show (8 : ℕ) = 6 + 2 from rfl, hc]
  rfl

/-- **C67.** A search that does not start before it ends is refused. -/
theorem C67_refused (t0 t1 : K) (altitude : K → K) (orbits limit : K) (fuel fuel' : ℕ) (hle : t1 ≤ t0) :
    findEvents t0 t1 altitude orbits limit fuel fuel' = .error .startNotBeforeEnd := by
  unfold findEvents findMaxima maximaSamples
  rw [if_pos hle]

/-- A satellite that stands at 1° at half a second after the start and loses a degree per second on both
sides. -/
def shortPass (t : ℚ) : ℚ := 1 - |t - 1 / 172800| * 86400

/-- The theorems apply: here is a search, over one second, that returns a rising, a culmination and a setting. -/
theorem shortPass_events : findEvents 0 (1 / 86400) shortPass (1 / 100) (9 / 10) 1 1 =
    .ok (some (some [(1 / 172800, 1), (1 / 172800, 0), (1 / 115200, 2)])) := by decide +kernel

/-- **C67 (finding).** The moments are only good to half a second, and a rising within half a second of the culmination
may be reported on the very moment of the culmination, and after it in the list: it is not true that the rising of a
pass always comes first. -/
theorem C67_rising_listed_after_culmination :
    ∃ (altitude : ℚ → ℚ) (limit : ℚ) (t : ℚ) (rest : List (ℚ × ℕ)),
      findEvents 0 (1 / 86400) altitude (1 / 100) limit 1 1 = .ok (some (some ((t, 1) :: (t, 0) :: rest))) :=
  ⟨shortPass, 9 / 10, 1 / 172800, _, shortPass_events⟩

example : ∃ events, findEvents 0 (1 / 86400) shortPass (1 / 100) (9 / 10) 1 1 = .ok (some (some events)) ∧
    (1 / 172800, 0) ∈ events ∧ (1 / 172800, 1) ∈ events ∧ (1 / 115200, 2) ∈ events ∧ 9 / 10 ≤ shortPass (1 / 172800) ∧
    LooksAt 0 (1 / 86400) ((events.filter fun e => e.2 = 1).map (·.1)) (1 / 172800) :=
  ⟨_, shortPass_events, by decide +kernel, by decide +kernel, by decide +kernel, by decide +kernel,
    Or.inr (Or.inr (Or.inl (by decide +kernel)))⟩

example : ∃ samples : List ℚ, maximaSamples 0 (1 / 86400) ⟨shortPass, some (eventStep (1 / 100)), none⟩ 12 = .ok samples ∧
    ∃ u ∈ samples, ∃ v ∈ samples, ∃ w ∈ samples, u < v ∧ v < w ∧ shortPass u < shortPass v ∧
      shortPass w < shortPass v ∧ 9 / 10 ≤ shortPass v ∧ 0 ≤ u ∧ w ≤ 1 / 86400 := by
  exact ⟨npLinspace (-1 / 259200) (4 / 259200) 5, by decide +kernel, 1 / 1036800, by decide +kernel, 1 / 172800,
    by decide +kernel, 11 / 1036800, by decide +kernel⟩

end Skyfield
