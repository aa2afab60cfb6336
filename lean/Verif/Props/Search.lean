import Verif.Lemmas.Search
import Mathlib.Algebra.Order.Archimedean.Basic

/-
C15-C17: what `find_discrete` returns, and that it stops.

`findDiscrete jd0 jd1 f epsilon num fuel = .ok (some events)` says: the search of `f` between the TT
dates `jd0` and `jd1` returned `events` (date and value) within `fuel` rounds.
-/
namespace Skyfield
set_option linter.unusedSectionVars false
variable {K : Type*} [Field K] [LinearOrder K] [IsStrictOrderedRing K] [FloorRing K]
variable {V : Type*} [DecidableEq V]

/-- Everything the loop guarantees, in terms of brackets. -/
theorem discreteLoop_spec (f : K → V) (epsilon lo hi : K) (n : ℕ) (fuel : ℕ) (jd : List K)
    (events : List (K × V)) (hg : Good f lo hi (changes f jd))
    (h : discreteLoop f epsilon (n + 2) fuel jd = some events) :
    ∃ bs, Good f lo hi bs ∧ events = bs.map (fun b => (b.2, f b.2)) ∧
      (∀ b ∈ bs, b.2 - b.1 ≤ epsilon) ∧
      (∀ c ∈ changes f jd, ∃ b ∈ bs, c.1 ≤ b.1 ∧ b.2 ≤ c.2) := by
  induction fuel generalizing jd with
  | zero => simp [discreteLoop] at h
  | succ fuel ih =>
    unfold discreteLoop discreteRound at h
    by_cases h0 : changes f jd = []
    · simp only [h0, if_true] at h
      rw [h0] at hg
      simp only [Option.some.injEq] at h
      subst h
      exact ⟨[], hg, rfl, by simp, by simp [h0]⟩
    · by_cases h1 : (changes f jd).all fun b => b.2 - b.1 ≤ epsilon
      · simp only [if_neg h0, if_pos h1, Option.some.injEq] at h
        refine ⟨changes f jd, hg, h.symm, ?_, fun c hc => ⟨c, hc, le_refl _, le_refl _⟩⟩
        intro b hb
        simpa using List.all_eq_true.1 h1 b hb
      · simp only [if_neg h0, if_neg h1] at h
        have hg' := good_refine n hg h0
        obtain ⟨bs, a1, a2, a3, a4⟩ := ih _ hg' h
        refine ⟨bs, a1, a2, a3, ?_⟩
        intro c hc
        have hm := hg.mem hc
        have hs := (refine_sorted n hg).1
        have m : ∀ x ∈ npLinspace c.1 c.2 (n + 2), x ∈ (changes f jd).flatMap (bracketPoints (n + 2)) := by
          intro x hx
          rw [List.mem_flatMap]
          exact ⟨c, hc, by rw [show c = (c.1, c.2) from rfl, bracketPoints_eq]; exact hx⟩
        have m0 := m c.1 (List.mem_of_mem_head? (npLinspace_head c.1 c.2 n))
        have m1 := m c.2 (List.mem_of_getLast? (npLinspace_last c.1 c.2 n))
        obtain ⟨d, hd, d1, d2⟩ := exists_change f _ hs _ _ m0 m1 hm.2.1.le hm.2.2.2
        obtain ⟨b, hb, b1, b2⟩ := a4 d hd
        exact ⟨b, hb, le_trans d1 b1, le_trans b2 d2⟩

theorem samples_good (f : K → V) (jd0 jd1 : K) (m : ℕ) (h : jd0 ≤ jd1) :
    Good f jd0 jd1 (changes f (npLinspace jd0 jd1 (m + 2))) := by
  have hs := npLinspace_sorted jd0 jd1 (m + 2) h
  have hl := npLinspace_last jd0 jd1 m
  rw [npLinspace_succ] at hs hl ⊢
  have := good_changes f _ _ hs
  rw [List.getLast?_eq_getLast_of_ne_nil (by simp), Option.some.injEq] at hl
  rwa [hl] at this

/-- The number of samples a search starts from, whichever attribute sets it, is at least two (for
positive steps and at least two subdivisions). -/
theorem discreteSamples_ok (jd0 jd1 : K) (f : Searchable K V) (num : ℕ) (jd : List K) (hnum : 2 ≤ num)
    (hstep : ∀ s, f.stepDays = some s → 0 < s) (h : discreteSamples jd0 jd1 f num = .ok jd) :
    jd0 < jd1 ∧ ∃ m, jd = npLinspace jd0 jd1 (m + 2) := by
  unfold discreteSamples at h
  by_cases h0 : jd0 ≥ jd1
  · simp [h0] at h
  · rw [if_neg h0] at h
    have hlt : jd0 < jd1 := not_le.1 h0
    refine ⟨hlt, ?_⟩
    cases hs : f.stepDays with
    | some s =>
      have hs0 := hstep s hs
      simp only [hs] at h
      have : 0 ≤ astypeInt ((jd1 - jd0) / s) := by
        unfold astypeInt
        have : 0 ≤ (jd1 - jd0) / s := div_nonneg (by linarith) hs0.le
        rw [if_pos this]
        exact Int.floor_nonneg.2 this
      rw [if_neg (by omega)] at h
      simp only [Except.ok.injEq] at h
      refine ⟨(astypeInt ((jd1 - jd0) / s)).toNat, ?_⟩
      rw [← h]
      congr 1
      omega
    | none =>
      cases hr : f.roughPeriod with
      | none => simp [hs, hr] at h
      | some r =>
        simp only [hs, hr] at h
        set p := (if (jd1 - jd0) / r < 1 then 1 else (jd1 - jd0) / r) with hp
        have hp1 : 1 ≤ p := by
          rw [hp]; split
          · exact le_refl _
          · rename_i h; exact not_lt.1 h
        have hn2 : (2 : K) ≤ num := by exact_mod_cast hnum
        have : (2 : ℤ) ≤ astypeInt (p * num) := by
          unfold astypeInt
          have h3 : (2 : K) ≤ p * num := by nlinarith
          rw [if_pos (by linarith), Int.le_floor]
          exact_mod_cast h3
        rw [if_neg (by omega)] at h
        simp only [Except.ok.injEq] at h
        refine ⟨(astypeInt (p * num)).toNat - 2, ?_⟩
        rw [← h]
        congr 1
        omega

theorem findDiscrete_spec (jd0 jd1 : K) (f : Searchable K V) (epsilon : K) (num fuel : ℕ)
    (events : List (K × V)) (hnum : 2 ≤ num) (hstep : ∀ s, f.stepDays = some s → 0 < s)
    (h : findDiscrete jd0 jd1 f epsilon num fuel = .ok (some events)) :
    jd0 < jd1 ∧ ∃ jd, discreteSamples jd0 jd1 f num = .ok jd ∧ ∃ bs, Good f.call jd0 jd1 bs ∧
      events = bs.map (fun b => (b.2, f.call b.2)) ∧ (∀ b ∈ bs, b.2 - b.1 ≤ epsilon) ∧
      (∀ c ∈ changes f.call jd, ∃ b ∈ bs, c.1 ≤ b.1 ∧ b.2 ≤ c.2) := by
  unfold findDiscrete at h
  cases hs : discreteSamples jd0 jd1 f num with
  | error e => rw [hs] at h; simp at h
  | ok jd =>
    rw [hs] at h
    simp only [Except.ok.injEq] at h
    obtain ⟨hlt, m, rfl⟩ := discreteSamples_ok jd0 jd1 f num jd hnum hstep hs
    obtain ⟨n, rfl⟩ : ∃ n, num = n + 2 := ⟨num - 2, by omega⟩
    exact ⟨hlt, _, rfl, discreteLoop_spec f.call epsilon jd0 jd1 n fuel _ events
      (samples_good f.call jd0 jd1 m hlt.le) h⟩

/-- **C15.** Every event found lies after the start and not after the end, the function has the reported
value there, and at some moment no more than `epsilon` earlier, still inside the search interval, it
has a different value. -/
theorem C15_events_are_real (jd0 jd1 : K) (f : Searchable K V) (epsilon : K) (num fuel : ℕ)
    (events : List (K × V)) (hnum : 2 ≤ num) (hstep : ∀ s, f.stepDays = some s → 0 < s)
    (h : findDiscrete jd0 jd1 f epsilon num fuel = .ok (some events)) (t : K) (v : V)
    (ht : (t, v) ∈ events) :
    jd0 < t ∧ t ≤ jd1 ∧ f.call t = v ∧
      ∃ s, jd0 ≤ s ∧ s < t ∧ t - s ≤ epsilon ∧ f.call s ≠ v := by
  obtain ⟨-, jd, -, bs, hg, rfl, hw, -⟩ := findDiscrete_spec jd0 jd1 f epsilon num fuel events hnum hstep h
  rw [List.mem_map] at ht
  obtain ⟨b, hb, e⟩ := ht
  rw [Prod.mk.injEq] at e
  obtain ⟨rfl, rfl⟩ := e
  obtain ⟨h1, h2, h3, h4⟩ := hg.mem hb
  exact ⟨lt_of_le_of_lt h1 h2, h3, rfl, b.1, h1, h2, hw b hb, h4⟩

/-- **C16.** The events are in strictly increasing time order. -/
theorem C16_increasing (jd0 jd1 : K) (f : Searchable K V) (epsilon : K) (num fuel : ℕ)
    (events : List (K × V)) (hnum : 2 ≤ num) (hstep : ∀ s, f.stepDays = some s → 0 < s)
    (h : findDiscrete jd0 jd1 f epsilon num fuel = .ok (some events)) :
    events.Pairwise (fun a b => a.1 < b.1) := by
  obtain ⟨-, jd, -, bs, hg, rfl, -, -⟩ := findDiscrete_spec jd0 jd1 f epsilon num fuel events hnum hstep h
  rw [List.pairwise_map]
  clear h
  generalize jd0 = lo at hg
  induction bs generalizing lo with
  | nil => exact List.Pairwise.nil
  | cons b bs ih =>
    refine List.Pairwise.cons ?_ (ih _ hg.2.2.2.2)
    intro c hc
    have := hg.2.2.2.2.mem hc
    exact lt_of_le_of_lt this.1 this.2.1

/-- A list of events tells the whole story of `f` from `a` to `b`: the value before each event is the
value the previous event announced, each event changes the value, and the last announced value is
the value at the end. -/
def Story (f : K → V) (v : V) (b : K) : List (K × V) → Prop
  | [] => v = f b
  | (_, w) :: rest => v ≠ w ∧ Story f w b rest

/-- **C16.** Replaying the events from the value at the start, each one changes the value, and the value
announced last is the value at the end. -/
theorem C16_story (jd0 jd1 : K) (f : Searchable K V) (epsilon : K) (num fuel : ℕ)
    (events : List (K × V)) (hnum : 2 ≤ num) (hstep : ∀ s, f.stepDays = some s → 0 < s)
    (h : findDiscrete jd0 jd1 f epsilon num fuel = .ok (some events)) :
    Story f.call (f.call jd0) jd1 events := by
  obtain ⟨-, jd, -, bs, hg, rfl, -, -⟩ := findDiscrete_spec jd0 jd1 f epsilon num fuel events hnum hstep h
  clear h
  generalize jd0 = lo at hg
  induction bs generalizing lo with
  | nil => exact hg.2
  | cons b bs ih =>
    refine ⟨?_, ih _ hg.2.2.2.2⟩
    rw [hg.2.1]
    exact hg.2.2.2.1

/-- **C16.** Whenever the function has different values at two of the initial samples there is an event
between them. -/
theorem C16_no_change_missed (jd0 jd1 : K) (f : Searchable K V) (epsilon : K) (num fuel : ℕ)
    (events : List (K × V)) (samples : List K) (hnum : 2 ≤ num)
    (hstep : ∀ s, f.stepDays = some s → 0 < s)
    (hsamples : discreteSamples jd0 jd1 f num = .ok samples)
    (h : findDiscrete jd0 jd1 f epsilon num fuel = .ok (some events)) (a b : K) (ha : a ∈ samples)
    (hb : b ∈ samples) (hab : a < b) (hf : f.call a ≠ f.call b) :
    ∃ e ∈ events, a < e.1 ∧ e.1 ≤ b := by
  obtain ⟨hlt, jd, hjd, bs, hg, rfl, -, hall⟩ :=
    findDiscrete_spec jd0 jd1 f epsilon num fuel events hnum hstep h
  rw [hsamples, Except.ok.injEq] at hjd
  subst hjd
  obtain ⟨-, m, rfl⟩ := discreteSamples_ok jd0 jd1 f num samples hnum hstep hsamples
  obtain ⟨c, hc, c1, c2⟩ := exists_change f.call _ (npLinspace_sorted jd0 jd1 _ hlt.le) a b ha hb hab.le hf
  obtain ⟨d, hd, d1, d2⟩ := hall c hc
  refine ⟨(d.2, f.call d.2), List.mem_map.2 ⟨d, hd, rfl⟩, ?_, le_trans d2 c2⟩
  exact lt_of_le_of_lt (le_trans c1 d1) (hg.mem hd).2.1

/-- **C16.** With a `step_days` attribute the initial samples start at the start, end at the end and are
at most `step_days` apart. -/
theorem C16_sample_spacing (jd0 jd1 : K) (f : Searchable K V) (num : ℕ) (step : K) (hlt : jd0 < jd1)
    (hs : f.stepDays = some step) (hpos : 0 < step) :
    ∃ samples, discreteSamples jd0 jd1 f num = .ok samples ∧ samples.head? = some jd0 ∧
      samples.getLast? = some jd1 ∧
      ∀ p ∈ samples.zip samples.tail, 0 < p.2 - p.1 ∧ p.2 - p.1 < step := by
  have h0 : 0 ≤ (jd1 - jd0) / step := div_nonneg (by linarith) hpos.le
  have ha : astypeInt ((jd1 - jd0) / step) = ⌊(jd1 - jd0) / step⌋ := by
    unfold astypeInt; rw [if_pos h0]
  have hn : 0 ≤ ⌊(jd1 - jd0) / step⌋ := Int.floor_nonneg.2 h0
  obtain ⟨m, hm⟩ := Int.eq_ofNat_of_zero_le hn
  have e : discreteSamples jd0 jd1 f num = .ok (npLinspace jd0 jd1 (m + 2)) := by
    unfold discreteSamples
    rw [if_neg (not_le.2 hlt)]
    simp only [hs, ha, hm]
    rw [if_neg (by omega)]
    rfl
  refine ⟨_, e, npLinspace_head _ _ _, npLinspace_last _ _ _, ?_⟩
  intro p hp
  rw [npLinspace_adjacent _ _ _ _ hp]
  push_cast
  have e2 : (m : K) + 2 - 1 = m + 1 := by ring
  rw [e2]
  have hm1 : (0 : K) < m + 1 := by positivity
  refine ⟨div_pos (by linarith) hm1, ?_⟩
  rw [div_lt_iff₀ hm1]
  have h2 : (jd1 - jd0) / step < (⌊(jd1 - jd0) / step⌋ : K) + 1 := Int.lt_floor_add_one _
  rw [hm, div_lt_iff₀ hpos] at h2
  push_cast at h2
  linarith

/-- The loop stops once the bracket width, divided by `num - 1` each round, is down to `epsilon`. -/
theorem discreteLoop_stops (f : K → V) (epsilon lo hi w : K) (n : ℕ) (k : ℕ) (jd : List K)
    (hg : Good f lo hi (changes f jd)) (hw : ∀ b ∈ changes f jd, b.2 - b.1 = w)
    (hk : w ≤ epsilon * (n + 1) ^ k) :
    ∃ events, discreteLoop f epsilon (n + 2) (k + 1) jd = some events := by
  induction k generalizing jd w with
  | zero =>
    unfold discreteLoop discreteRound
    by_cases h0 : changes f jd = []
    · simp [h0]
    · have : ((changes f jd).all fun b => b.2 - b.1 ≤ epsilon) = true := by
        rw [List.all_eq_true]
        intro b hb
        rw [pow_zero, mul_one] at hk
        simpa [hw b hb] using hk
      simp only [if_neg h0, if_pos this]
      exact ⟨_, rfl⟩
  | succ k ih =>
    unfold discreteLoop
    cases hr : discreteRound f epsilon (n + 2) jd with
    | inl events => exact ⟨events, rfl⟩
    | inr jd' =>
      simp only
      unfold discreteRound at hr
      by_cases h0 : changes f jd = []
      · simp [h0] at hr
      · by_cases h1 : (changes f jd).all fun b => b.2 - b.1 ≤ epsilon
        · simp only [if_neg h0, if_pos h1] at hr
          exact absurd hr (by simp)
        · simp only [if_neg h0, if_neg h1, Sum.inr.injEq] at hr
          subst hr
          refine ih (w / (n + 1)) _ (good_refine n hg h0) (refine_width n hg hw) ?_
          have hn : (0 : K) < n + 1 := by positivity
          rw [div_le_iff₀ hn]
          calc w ≤ _ := hk
            _ = _ := by rw [pow_succ]; ring

/-- **C17.** With at least three subdivisions and a positive `epsilon`, the search of every function stops,
after a number of rounds that does not depend on the function: once the sample spacing divided by
`(num - 1)` per round is down to `epsilon`. -/
theorem C17_terminates (jd0 jd1 : K) (f : Searchable K V) (epsilon : K) (num : ℕ) (hnum : 3 ≤ num)
    (heps : 0 < epsilon) [Archimedean K] (hstep : ∀ s, f.stepDays = some s → 0 < s)
    (samples : List K) (hs : discreteSamples jd0 jd1 f num = .ok samples) :
    (∃ rounds, (jd1 - jd0) / (samples.length - 1) ≤ epsilon * ((num : K) - 1) ^ rounds) ∧
    ∀ rounds, (jd1 - jd0) / (samples.length - 1) ≤ epsilon * ((num : K) - 1) ^ rounds →
      ∃ events, findDiscrete jd0 jd1 f epsilon num (rounds + 1) = .ok (some events) := by
  obtain ⟨hlt, m, rfl⟩ := discreteSamples_ok jd0 jd1 f num samples (by omega) hstep hs
  obtain ⟨n, rfl⟩ : ∃ n, num = n + 2 := ⟨num - 2, by omega⟩
  have hn : 1 ≤ n := by omega
  have e : ((n + 2 : ℕ) : K) - 1 = n + 1 := by push_cast; ring
  have hlen : (npLinspace jd0 jd1 (m + 2)).length = m + 2 := by simp [npLinspace]
  rw [e, hlen]
  constructor
  · have h1 : (1 : K) < n + 1 := by
      have : (1 : K) ≤ n := by exact_mod_cast hn
      linarith
    obtain ⟨k, hk⟩ := pow_unbounded_of_one_lt ((jd1 - jd0) / (((m + 2 : ℕ) : K) - 1) / epsilon) h1
    refine ⟨k, ?_⟩
    rw [div_lt_iff₀ heps] at hk
    linarith
  · intro rounds hr
    unfold findDiscrete
    rw [hs]
    simp only
    obtain ⟨ev, hev⟩ := discreteLoop_stops f.call epsilon jd0 jd1 _ n rounds _
      (samples_good f.call jd0 jd1 m hlt.le)
      (fun b hb => npLinspace_adjacent jd0 jd1 (m + 2) b (List.mem_of_mem_filter hb)) hr
    exact ⟨ev, by rw [hev]⟩

/-- **C17 (finding).** With `num = 2` the search never stops on a function that changes between two
samples more than `epsilon` apart. -/
theorem C17_two_subdivisions_never_stop (f : K → V) (epsilon : K) (jd : List K)
    (hs : jd.Pairwise (· ≤ ·)) (a b : K) (hab : (a, b) ∈ jd.zip jd.tail) (hf : f a ≠ f b)
    (hwide : epsilon < b - a) (fuel : ℕ) : discreteLoop f epsilon 2 fuel jd = none := by
  induction fuel generalizing jd with
  | zero => rfl
  | succ fuel ih =>
    have hc : (a, b) ∈ changes f jd := by
      unfold changes
      rw [List.mem_filter]
      exact ⟨hab, by simpa using hf⟩
    have h0 : changes f jd ≠ [] := List.ne_nil_of_mem hc
    have h1 : ¬ ((changes f jd).all fun b => b.2 - b.1 ≤ epsilon) = true := by
      intro h
      have := List.all_eq_true.1 h _ hc
      simp only [decide_eq_true_eq] at this
      linarith
    unfold discreteLoop discreteRound
    simp only [if_neg h0, if_neg h1]
    obtain ⟨x, l, rfl⟩ : ∃ x l, jd = x :: l := by
      cases jd with
      | nil => simp at hab
      | cons x l => exact ⟨x, l, rfl⟩
    have hg := good_changes f x l hs
    apply ih _ (refine_sorted 0 hg).1
    show (a, b) ∈ adjacent _
    have key : ∀ bs : List (K × K), (a, b) ∈ bs → (a, b) ∈ adjacent (bs.flatMap (bracketPoints 2)) := by
      intro bs
      induction bs with
      | nil => simp
      | cons c bs ih2 =>
        intro hm
        rw [List.flatMap_cons, mem_adjacent_append]
        rcases List.mem_cons.1 hm with rfl | hm
        · left
          rw [show (2 : ℕ) = 0 + 2 from rfl, bracketPoints_eq, npLinspace_succ]
          simp [adjacent]
        · right; left; exact ih2 hm
    exact key _ hc

/-- **C17 (finding).** With `num = 1` every event is silently lost: unless the first samples are already
within `epsilon`, the search returns no events. -/
theorem C17_one_subdivision_loses_events (f : K → V) (epsilon : K) (jd : List K) (a b : K)
    (hab : (a, b) ∈ jd.zip jd.tail) (hf : f a ≠ f b) (hwide : epsilon < b - a) (fuel : ℕ) :
    discreteLoop f epsilon 1 (fuel + 2) jd = some [] := by
  have hc : (a, b) ∈ changes f jd := by
    unfold changes
    rw [List.mem_filter]
    exact ⟨hab, by simpa using hf⟩
  have h0 : changes f jd ≠ [] := List.ne_nil_of_mem hc
  have h1 : ¬ ((changes f jd).all fun b => b.2 - b.1 ≤ epsilon) = true := by
    intro h
    have := List.all_eq_true.1 h _ hc
    simp only [decide_eq_true_eq] at this
    linarith
  unfold discreteLoop discreteRound
  simp only [if_neg h0, if_neg h1]
  have key : ∀ bs : List (K × K), changes f (bs.flatMap (bracketPoints 1)) = [] := by
    intro bs
    have e : bs.flatMap (bracketPoints 1) = List.replicate bs.length 0 := by
      induction bs with
      | nil => rfl
      | cons c bs ih =>
        rw [List.flatMap_cons, ih]
        simp [bracketPoints, npLinspace, List.replicate_succ]
    rw [e]
    unfold changes
    rw [List.filter_eq_nil_iff]
    intro p hp
    obtain ⟨m1, m2⟩ := adjacent_mem hp
    rw [List.mem_replicate] at m1 m2
    simp [m1.2, m2.2]
  unfold discreteLoop discreteRound
  simp [key]

/-- A search that samples often enough comes to an end: what the examples below search. -/
theorem exists_search [Archimedean K] (lo hi : K) (hlt : lo < hi) (f : Searchable K V) {step epsilon : K} (hs : f.stepDays = some step)
    (hpos : 0 < step) (heps : 0 < epsilon) (num : ℕ) (hnum : 3 ≤ num) : ∃ fuel events, findDiscrete lo hi f epsilon num fuel = .ok (some events) := by
  obtain ⟨samples, hsm, -, -⟩ := C16_sample_spacing lo hi f num step hlt hs hpos
  obtain ⟨⟨rounds, hr⟩, hall⟩ := C17_terminates lo hi f epsilon num hnum heps (by rintro s h; rw [hs] at h; cases h; exact hpos) samples hsm
  obtain ⟨events, he⟩ := hall rounds hr
  exact ⟨_, events, he⟩

/-- A function that changes at 3 and at 7, searched from 0 to 10 in steps of 4. -/
def exampleSearch : Searchable ℚ ℤ := ⟨fun t => if t < 3 then 0 else if t < 7 then 1 else 0, some 4, none⟩

/-- The search of the example meets the hypotheses of C15-C16 and finds both changes. -/
theorem exampleSearch_runs : findDiscrete 0 10 exampleSearch (1 / 10) 12 3 =
    .ok (some [(1090 / 363, 1), (2550 / 363, 0)]) := by
  decide +kernel

/-- Both findings apply to the example's first samples: two of them, four days apart, have different values. -/
example : (∃ a b, (a, b) ∈ [(0 : ℚ), 4, 8].zip [(0 : ℚ), 4, 8].tail ∧ exampleSearch.call a ≠ exampleSearch.call b ∧ 1 / 10 < b - a) ∧
    discreteLoop exampleSearch.call (1 / 10) 2 50 [0, 4, 8] = none ∧ discreteLoop exampleSearch.call (1 / 10) 1 50 [0, 4, 8] = some [] := by
  have h : ((0 : ℚ), (4 : ℚ)) ∈ [(0 : ℚ), 4, 8].zip [(0 : ℚ), 4, 8].tail := by simp
  have hf : exampleSearch.call 0 ≠ exampleSearch.call 4 := by decide +kernel
  have hw : (1 / 10 : ℚ) < 4 - 0 := by norm_num
  exact ⟨⟨0, 4, h, hf, hw⟩, C17_two_subdivisions_never_stop _ _ _ (by simp; norm_num) 0 4 h hf hw 50,
    C17_one_subdivision_loses_events _ _ _ 0 4 h hf hw 48⟩

/-- And the events that the search finds are real, as C15 says of them. -/
example : ∃ s : ℚ, 0 ≤ s ∧ s < 1090 / 363 ∧ 1090 / 363 - s ≤ 1 / 10 ∧ exampleSearch.call s ≠ 1 :=
  (C15_events_are_real 0 10 exampleSearch (1 / 10) 12 3 _ (by norm_num) (by rintro s ⟨⟩; norm_num) exampleSearch_runs (1090 / 363) 1 (by simp)).2.2.2

end Skyfield
