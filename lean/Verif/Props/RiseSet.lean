import Verif.Model.RiseSet
import Verif.Lemmas.Search
import Verif.Props.Almanac
import Verif.Props.Kepler
import Mathlib.Analysis.SpecialFunctions.Trigonometric.InverseDeriv

/-
C65: the direct searches report every passage of the target once.  C66: how exact the reported times are.
-/
namespace Skyfield
open Real

/-! ### Specification -/

/-- At time `t` the target stands at the hour angle that is wanted (up to whole turns). -/
def Reaches (sky : ℝ → SkyPlace) (want : SkyPlace → Option ℝ) (t : ℝ) : Prop :=
  ∃ d, want (sky t) = some d ∧ ∃ k : ℤ, (sky t).ha = d + 2 * π * k

/-- During the search the target's hour angle runs ahead of the wanted one steadily, in such a way that it gains less than a whole
turn in any 0.8 days: `D` is the angle still to go, followed through without jumps. -/
structure Sweeps (sky : ℝ → SkyPlace) (want : SkyPlace → Option ℝ) (D : ℝ → ℝ) (tt0 tt1 : ℝ) : Prop where
  follows : ∀ t, tt0 ≤ t → t ≤ tt1 → ∃ d, want (sky t) = some d ∧ ∃ k : ℤ, d - (sky t).ha = D t + 2 * π * k
  cont : ContinuousOn D (Set.Icc tt0 tt1)
  falls : ∀ s t, tt0 ≤ s → s < t → t ≤ tt1 → D t < D s
  slow : ∀ s t, tt0 ≤ s → s < t → t ≤ tt1 → t - s ≤ 0.8 → D s - D t < 2 * π

/-- `times` lists, in order and without repetition, the moments from `tt0` on and before `tt1` at which the target stands at the
wanted hour angle. -/
def ListsPassages (sky : ℝ → SkyPlace) (want : SkyPlace → Option ℝ) (tt0 tt1 : ℝ) (times : List ℝ) : Prop :=
  times.Pairwise (· < ·) ∧ ∀ t, t ∈ times ↔ tt0 ≤ t ∧ t < tt1 ∧ Reaches sky want t

/-! ### C65 -/

theorem pyMod_add_turns (x : ℝ) (k : ℤ) : pyMod (x + 2 * π * k) tau = pyMod x tau := by
  obtain ⟨n, hn⟩ := pyMod_eq_sub' x tau
  refine pyMod_unique' _ (n + k) tau_pos (pyMod_nonneg' x tau_pos) (pyMod_lt' x tau_pos) ?_
  rw [hn, show tau = 2 * π from rfl]; push_cast; ring

theorem risingCandidate_turns (d0 d1 a b : ℝ) (k0 k1 : ℤ) :
    risingCandidate (d0 + 2 * π * k0) (d1 + 2 * π * k1) a b = risingCandidate d0 d1 a b := by
  unfold risingCandidate
  simp only [pyMod_add_turns]

theorem reaches_iff {sky : ℝ → SkyPlace} {want : SkyPlace → Option ℝ} {D : ℝ → ℝ} {tt0 tt1 : ℝ} (h : Sweeps sky want D tt0 tt1)
    {t : ℝ} (h0 : tt0 ≤ t) (h1 : t ≤ tt1) : Reaches sky want t ↔ ∃ m : ℤ, D t = 2 * π * m := by
  obtain ⟨d, hd, k, hk⟩ := h.follows t h0 h1
  constructor
  · rintro ⟨d', hd', j, hj⟩
    rw [hd] at hd'
    injection hd' with hd'
    subst hd'
    refine ⟨-j - k, ?_⟩
    push_cast
    linarith
  · rintro ⟨m, hm⟩
    refine ⟨d, hd, -m - k, ?_⟩
    push_cast
    linarith

/-- One pair of samples. -/
theorem guess_of_pair {sky : ℝ → SkyPlace} {want : SkyPlace → Option ℝ} {D : ℝ → ℝ} {tt0 tt1 : ℝ}
    (h : Sweeps sky want D tt0 tt1) {a b : ℝ} (ha : tt0 ≤ a) (hab : a < b) (hb : b ≤ tt1) (hstep : b - a ≤ 0.8) :
    guessBetween sky want a b = (risingCandidate (D a) (D b) a b).map fun t => (a, t) := by
  obtain ⟨d, hd, k, hk⟩ := h.follows a ha (by linarith)
  obtain ⟨d', hd', k', hk'⟩ := h.follows b (by linarith) hb
  have e0 : haDifference sky want a = some (D a + 2 * π * k) := by
    unfold haDifference; rw [hd, ← hk]; rfl
  have e1 : haDifference sky want b = some (D b + 2 * π * k') := by
    unfold haDifference; rw [hd', ← hk']; rfl
  unfold guessBetween
  rw [e0, e1]
  simp only [risingCandidate_turns]

/-- Between two samples there is one passage if a guess is made, and none otherwise. -/
theorem passage_of_pair {sky : ℝ → SkyPlace} {want : SkyPlace → Option ℝ} {D : ℝ → ℝ} {tt0 tt1 : ℝ}
    (h : Sweeps sky want D tt0 tt1) {a b : ℝ} (ha : tt0 ≤ a) (hab : a < b) (hb : b ≤ tt1) (hstep : b - a ≤ 0.8) :
    (∃ g, risingCandidate (D a) (D b) a b = some g ∧ ∃ t, a ≤ t ∧ t < b ∧ Reaches sky want t ∧
      ∀ s, a ≤ s → s < b → Reaches sky want s → s = t) ∨
    (risingCandidate (D a) (D b) a b = none ∧ ∀ s, a ≤ s → s < b → ¬ Reaches sky want s) := by
  have hf := h.falls a b ha hab hb
  have hs := h.slow a b ha hab hb hstep
  obtain ⟨hsome, -⟩ := C59_candidates (D a) (D b) a b hf hs
  have hpi := pi_pos
  -- two passages in the pair are the same
  have huniq : ∀ s t, a ≤ s → s < b → a ≤ t → t < b → Reaches sky want s → Reaches sky want t → s = t := by
    intro s t hs0 hs1 ht0 ht1 hrs hrt
    rw [reaches_iff h (by linarith) (by linarith)] at hrs hrt
    obtain ⟨m, hm⟩ := hrs
    obtain ⟨n, hn⟩ := hrt
    have bound : ∀ x, a ≤ x → x < b → D b < D x ∧ D x ≤ D a := by
      intro x hx0 hx1
      refine ⟨h.falls x b (by linarith) hx1 hb, ?_⟩
      rcases hx0.eq_or_lt with e | e
      · rw [e]
      · exact (h.falls a x ha e (by linarith)).le
    obtain ⟨b1, b2⟩ := bound s hs0 hs1
    obtain ⟨b3, b4⟩ := bound t ht0 ht1
    have hmn : m = n := by
      have h1 : (m : ℝ) < n + 1 := by nlinarith
      have h2 : (n : ℝ) < m + 1 := by nlinarith
      have h1' : m < n + 1 := by exact_mod_cast h1
      have h2' : n < m + 1 := by exact_mod_cast h2
      omega
    rcases lt_trichotomy s t with hlt | heq | hlt
    · have := h.falls s t (by linarith) hlt (by linarith)
      rw [hm, hn, hmn] at this; exact absurd this (lt_irrefl _)
    · exact heq
    · have := h.falls t s (by linarith) hlt (by linarith)
      rw [hm, hn, hmn] at this; exact absurd this (lt_irrefl _)
  have hex : (∃ m : ℤ, D b < 2 * π * m ∧ 2 * π * m ≤ D a) ↔ ∃ t, a ≤ t ∧ t < b ∧ Reaches sky want t := by
    constructor
    · rintro ⟨m, hm1, hm2⟩
      have hc : ContinuousOn D (Set.Icc a b) := h.cont.mono (Set.Icc_subset_Icc ha hb)
      obtain ⟨t, ⟨ht0, ht1⟩, ht⟩ := intermediate_value_Icc' hab.le hc ⟨hm1.le, hm2⟩
      have htb : t < b := by
        rcases ht1.lt_or_eq with e | e
        · exact e
        · rw [e] at ht; linarith
      exact ⟨t, ht0, htb, (reaches_iff h (by linarith) (by linarith)).2 ⟨m, ht⟩⟩
    · rintro ⟨t, ht0, ht1, hr⟩
      obtain ⟨m, hm⟩ := (reaches_iff h (by linarith) (by linarith)).1 hr
      refine ⟨m, ?_, ?_⟩
      · rw [← hm]; exact h.falls t b (by linarith) ht1 hb
      · rw [← hm]
        rcases ht0.eq_or_lt with e | e
        · rw [e]
        · exact (h.falls a t ha e (by linarith)).le
  cases hc : risingCandidate (D a) (D b) a b with
  | none =>
    right
    refine ⟨rfl, fun s hs0 hs1 hr => ?_⟩
    have := hsome.2 (hex.2 ⟨s, hs0, hs1, hr⟩)
    rw [hc] at this; simp at this
  | some g =>
    left
    obtain ⟨t, ht0, ht1, hr⟩ := hex.1 (hsome.1 (by rw [hc]; rfl))
    exact ⟨g, rfl, t, ht0, ht1, hr, fun s hs0 hs1 hrs => huniq s t hs0 hs1 ht0 ht1 hrs hr⟩

/-- What ties a passage to the guess made for it. -/
def GuessFor (D : ℝ → ℝ) (t : ℝ) (g : ℝ × ℝ) : Prop :=
  ∃ b, g.1 < b ∧ b - g.1 ≤ 0.8 ∧ g.1 ≤ t ∧ t < b ∧ D b < D g.1 ∧ D g.1 - D b < 2 * π ∧
    risingCandidate (D g.1) (D b) g.1 b = some g.2

theorem guesses_of_samples {sky : ℝ → SkyPlace} {want : SkyPlace → Option ℝ} {D : ℝ → ℝ} {tt0 tt1 : ℝ}
    (h : Sweeps sky want D tt0 tt1) (l : List ℝ) : ∀ a, tt0 ≤ a → (a :: l).getLast? = some tt1 →
    (∀ p ∈ adjacent (a :: l), p.1 < p.2 ∧ p.2 - p.1 ≤ 0.8) →
    a ≤ tt1 ∧ ∃ times, ListsPassages sky want a tt1 times ∧
      List.Forall₂ (fun t g => GuessFor D t g ∧ tt0 ≤ g.1 ∧ g.1 ∈ a :: l) times (findGuesses sky want (a :: l)) := by
  induction l with
  | nil =>
    intro a ha hlast _
    simp only [List.getLast?_singleton, Option.some.injEq] at hlast
    subst hlast
    refine ⟨le_rfl, [], ⟨List.Pairwise.nil, fun t => ?_⟩, ?_⟩
    · simp only [List.not_mem_nil, false_iff]
      rintro ⟨h0, h1, -⟩
      linarith
    · simp [findGuesses, adjacent]
  | cons b l ih =>
    intro a ha hlast hadj
    have hpair := hadj (a, b) (by simp [adjacent])
    obtain ⟨hab, hstep⟩ := hpair
    simp only at hab hstep
    obtain ⟨hb1, times, ⟨hsort, hmem⟩, hall⟩ := ih b (by linarith) (by simpa using hlast) (fun p hp => hadj p (by
      simp only [adjacent, List.tail_cons] at hp ⊢
      simp only [List.zip_cons_cons, List.mem_cons]
      exact Or.inr hp))
    have hrest : findGuesses sky want (a :: b :: l) =
        (((risingCandidate (D a) (D b) a b).map fun t => (a, t)).toList) ++ findGuesses sky want (b :: l) := by
      unfold findGuesses
      simp only [adjacent, List.tail_cons, List.zip_cons_cons, List.filterMap_cons]
      rw [guess_of_pair h ha hab hb1 hstep]
      cases risingCandidate (D a) (D b) a b <;> simp
    have hall' : List.Forall₂ (fun t g => GuessFor D t g ∧ tt0 ≤ g.1 ∧ g.1 ∈ a :: b :: l) times (findGuesses sky want (b :: l)) :=
      hall.imp fun t g hg => ⟨hg.1, hg.2.1, List.mem_cons_of_mem _ hg.2.2⟩
    refine ⟨by linarith, ?_⟩
    rcases passage_of_pair h ha hab hb1 hstep with ⟨g, hg, t, ht0, ht1, hr, huniq⟩ | ⟨hg, hno⟩
    · refine ⟨t :: times, ⟨?_, fun s => ?_⟩, ?_⟩
      · rw [List.pairwise_cons]
        exact ⟨fun s hs => lt_of_lt_of_le ht1 ((hmem s).1 hs).1, hsort⟩
      · rw [List.mem_cons, hmem]
        constructor
        · rintro (rfl | ⟨h0, h1, h2⟩)
          · exact ⟨ht0, by linarith, hr⟩
          · exact ⟨by linarith, h1, h2⟩
        · rintro ⟨h0, h1, h2⟩
          by_cases hsb : s < b
          · exact Or.inl (huniq s h0 hsb h2)
          · exact Or.inr ⟨not_lt.1 hsb, h1, h2⟩
      · rw [hrest, hg]
        refine List.Forall₂.cons ⟨⟨b, hab, hstep, ht0, ht1, h.falls a b ha hab hb1, h.slow a b ha hab hb1 hstep, hg⟩, ha, by simp⟩ hall'
    · refine ⟨times, ⟨hsort, fun s => ?_⟩, ?_⟩
      · rw [hmem]
        constructor
        · rintro ⟨h0, h1, h2⟩
          exact ⟨by linarith, h1, h2⟩
        · rintro ⟨h0, h1, h2⟩
          refine ⟨?_, h1, h2⟩
          by_contra hsb
          exact hno s h0 (not_le.1 hsb) h2
      · rw [hrest, hg]
        exact hall'

/-- The samples: the first is the start, the last is the end, neighbours are at most 0.8 days apart. -/
theorem findSamples_spec (tt0 tt1 : ℝ) (h : tt0 ≤ tt1) : ∃ l, findSamples tt0 tt1 = some (tt0 :: l) ∧
    (tt0 :: l).getLast? = some tt1 ∧ ∀ p ∈ adjacent (tt0 :: l), p.1 < p.2 ∧ p.2 - p.1 ≤ 0.8 := by
  unfold findSamples
  simp only
  rcases h.eq_or_lt with rfl | hlt
  · refine ⟨[], ?_, rfl, by simp [adjacent]⟩
    simp [npLinspace]
  · have hq : 0 < (tt1 - tt0) / 0.8 := by apply div_pos <;> linarith
    obtain ⟨n, hn⟩ : ∃ n : ℕ, ⌈(tt1 - tt0) / 0.8⌉ = (n : ℤ) + 1 := by
      have : 0 < ⌈(tt1 - tt0) / 0.8⌉ := Int.ceil_pos.2 hq
      exact ⟨(⌈(tt1 - tt0) / 0.8⌉ - 1).toNat, by omega⟩
    rw [hn, if_neg (by omega), show ((n : ℤ) + 1 + 1).toNat = n + 2 by omega]
    have hle : (tt1 - tt0) / 0.8 ≤ (n : ℝ) + 1 := by
      have := Int.le_ceil ((tt1 - tt0) / 0.8)
      rw [hn] at this; exact_mod_cast this
    have hn0 : (0 : ℝ) < (n : ℝ) + 1 := by positivity
    refine ⟨_, congrArg some (npLinspace_succ tt0 tt1 n), ?_, ?_⟩
    · rw [← npLinspace_succ]; exact npLinspace_last tt0 tt1 n
    · intro p hp
      rw [← npLinspace_succ] at hp
      have := npLinspace_adjacent tt0 tt1 (n + 2) p hp
      push_cast at this
      rw [show (n : ℝ) + 2 - 1 = n + 1 by ring] at this
      have hpos : 0 < (tt1 - tt0) / ((n : ℝ) + 1) := div_pos (by linarith) hn0
      have hle2 : (tt1 - tt0) / ((n : ℝ) + 1) ≤ 0.8 := by
        rw [div_le_iff₀ hn0]
        rw [div_le_iff₀ (by norm_num)] at hle
        linarith
      exact ⟨by linarith, by linarith⟩

/-- The three searches start from one guess for every passage. -/
theorem findApproaches_spec {sky : ℝ → SkyPlace} {want : SkyPlace → Option ℝ} {D : ℝ → ℝ} {tt0 tt1 : ℝ}
    (h : Sweeps sky want D tt0 tt1) (h01 : tt0 ≤ tt1) : ∃ samples times guesses, findSamples tt0 tt1 = some samples ∧
    ListsPassages sky want tt0 tt1 times ∧
    findApproaches sky want tt0 tt1 = some (guesses.map fun g => refineEvent sky want g.1 g.2) ∧
      List.Forall₂ (fun t g => GuessFor D t g ∧ tt0 ≤ g.1 ∧ g.1 ∈ samples) times guesses := by
  obtain ⟨l, hl, hlast, hadj⟩ := findSamples_spec tt0 tt1 h01
  obtain ⟨-, times, hp, hall⟩ := guesses_of_samples h l tt0 le_rfl hlast hadj
  refine ⟨_, times, findGuesses sky want (tt0 :: l), hl, hp, ?_, hall⟩
  unfold findApproaches
  rw [hl]; rfl

/-- **C65.** `find_transits` reports one time for every passage of the target over the meridian from the start of the search on and
before its end, as long as the target's hour angle grows steadily and by less than a turn in 0.8 days. -/
theorem C65_transits_once {sky : ℝ → SkyPlace} {D : ℝ → ℝ} {tt0 tt1 : ℝ} (h : Sweeps sky wantTransit D tt0 tt1) (h01 : tt0 ≤ tt1) :
    ∃ times found, ListsPassages sky wantTransit tt0 tt1 times ∧ findTransits sky tt0 tt1 = some found ∧
      found.length = times.length := by
  obtain ⟨_, times, guesses, -, hp, hf, hall⟩ := findApproaches_spec h h01
  refine ⟨times, (guesses.map fun g => refineEvent sky wantTransit g.1 g.2).map fun r => r.map (·.2), hp, ?_, ?_⟩
  · unfold findTransits
    rw [hf]; rfl
  · simp [hall.length_eq]

/-- **C65.** `find_risings` reports one time for every passage of the target through the hour angle at which it meets the eastern
horizon, under the same condition. -/
theorem C65_risings_once {sky : ℝ → SkyPlace} {latitude : ℝ} {c : HorizonChoice} {D : ℝ → ℝ} {tt0 tt1 : ℝ}
    (h : Sweeps sky (wantRising latitude c) D tt0 tt1) (h01 : tt0 ≤ tt1) :
    ∃ times found, ListsPassages sky (wantRising latitude c) tt0 tt1 times ∧
      findRisings sky latitude c tt0 tt1 = some found ∧ found.length = times.length := by
  obtain ⟨_, times, guesses, -, hp, hf, hall⟩ := findApproaches_spec h h01
  refine ⟨times, (guesses.map fun g => refineEvent sky (wantRising latitude c) g.1 g.2).map fun r =>
    r.bind fun p => settleEvent sky (wantRising latitude c) c p.1 p.2, hp, ?_, ?_⟩
  · unfold findRisings
    rw [hf]; rfl
  · simp [hall.length_eq]

/-- **C65.** `find_settings` reports one time for every passage of the target through the hour angle at which it meets the western
horizon, under the same condition. -/
theorem C65_settings_once {sky : ℝ → SkyPlace} {latitude : ℝ} {c : HorizonChoice} {D : ℝ → ℝ} {tt0 tt1 : ℝ}
    (h : Sweeps sky (wantSetting latitude c) D tt0 tt1) (h01 : tt0 ≤ tt1) :
    ∃ times found, ListsPassages sky (wantSetting latitude c) tt0 tt1 times ∧
      findSettings sky latitude c tt0 tt1 = some found ∧ found.length = times.length := by
  obtain ⟨_, times, guesses, -, hp, hf, hall⟩ := findApproaches_spec h h01
  refine ⟨times, (guesses.map fun g => refineEvent sky (wantSetting latitude c) g.1 g.2).map fun r =>
    r.bind fun p => settleEvent sky (wantSetting latitude c) c p.1 p.2, hp, ?_, ?_⟩
  · unfold findSettings
    rw [hf]; rfl
  · simp [hall.length_eq]

/-- **C65.** The condition on the speed is needed: a target that goes around exactly once in 0.8 days crosses the meridian during the
search and nothing is reported. -/
theorem C65_fast_target_missed : ∃ sky : ℝ → SkyPlace, (∃ t, 0 < t ∧ t < 0.8 ∧ Reaches sky wantTransit t) ∧
    findTransits sky 0 0.8 = some [] := by
  have hp := pi_pos
  have hp3 := pi_gt_three
  refine ⟨fun t => ⟨1 + 5 / 2 * π * t, 0, 0, 0, 0⟩, ⟨(2 * π - 1) / (5 / 2 * π), ?_, ?_, ?_⟩, ?_⟩
  · apply div_pos <;> linarith
  · rw [div_lt_iff₀ (by linarith)]; linarith
  · refine ⟨0, rfl, 1, ?_⟩
    have : 5 / 2 * π ≠ 0 := by positivity
    simp only
    rw [mul_div_cancel₀ _ this]
    push_cast; ring
  · unfold findTransits findApproaches findSamples
    have h1 : ⌈((0.8 : ℝ) - 0) / 0.8⌉ = 1 := by norm_num
    simp only [h1]
    rw [if_neg (by norm_num), show ((1 : ℤ) + 1).toNat = 0 + 2 from rfl, npLinspace_succ]
    have e : risingCandidate (0 - 1) (0 - (1 + 5 / 2 * π * 0.8)) 0 0.8 = none := by
      have := risingCandidate_turns (0 - 1) (0 - 1) 0 0.8 0 (-1)
      rw [show (0 - 1 + 2 * π * ((0 : ℤ) : ℝ)) = 0 - 1 by push_cast; ring,
        show (0 - 1 + 2 * π * ((-1 : ℤ) : ℝ)) = 0 - (1 + 5 / 2 * π * 0.8) by push_cast; ring] at this
      rw [this]
      unfold risingCandidate
      simp
    have hg : findGuesses (fun t => ⟨1 + 5 / 2 * π * t, 0, 0, 0, 0⟩) wantTransit [0, 0.8] = [] := by
      unfold findGuesses
      simp only [adjacent, List.tail_cons, List.zip_cons_cons, List.zip_nil_right, List.filterMap_cons, List.filterMap_nil]
      have : guessBetween (fun t => ⟨1 + 5 / 2 * π * t, 0, 0, 0, 0⟩) wantTransit 0 0.8 = none := by
        unfold guessBetween haDifference wantTransit
        simp only [Option.map_some, mul_zero, add_zero]
        rw [e]; rfl
      rw [this]
    have hl : ((0 : ℝ) :: (List.range (0 + 1)).map fun i : ℕ => (0 : ℝ) + (i + 1) * ((0.8 - 0) / (((0 : ℕ) : ℝ) + 1))) = [0, 0.8] := by
      norm_num
    rw [hl]
    simp only [Option.map_some]
    rw [hg]; rfl

/-! ### C66 -/

/-- The sky turns uniformly with `w` radians a day and the wanted hour angle stays the same. -/
structure TurnsEvenly (sky : ℝ → SkyPlace) (want : SkyPlace → Option ℝ) (d h0 w : ℝ) : Prop where
  turns : ∀ t, ∃ k : ℤ, (sky t).ha = h0 + w * t + 2 * π * k
  wants : ∀ t, want (sky t) = some d
  pos : 0 < w
  slow : w * 0.8 < 2 * π

theorem TurnsEvenly.sweeps {sky : ℝ → SkyPlace} {want : SkyPlace → Option ℝ} {d h0 w : ℝ} (h : TurnsEvenly sky want d h0 w)
    (tt0 tt1 : ℝ) : Sweeps sky want (fun t => d - h0 - w * t) tt0 tt1 where
  follows := fun t _ _ => by
    obtain ⟨k, hk⟩ := h.turns t
    refine ⟨d, h.wants t, -k, ?_⟩
    rw [hk]; push_cast; ring
  cont := by fun_prop
  falls := fun s t _ hst _ => by
    have := mul_lt_mul_of_pos_left hst h.pos
    linarith
  slow := fun s t _ hst _ hle => by
    have := h.slow
    have := mul_le_mul_of_nonneg_left hle h.pos.le
    linarith

theorem pyMod_of_mem {x b : ℝ} (h0 : 0 ≤ x) (h1 : x < b) : pyMod x b = x :=
  pyMod_unique' x 0 (lt_of_le_of_lt h0 h1) h0 h1 (by simp)

theorem normpi_turns {x y : ℝ} (k : ℤ) (h : x = y + 2 * π * k) (h0 : -π ≤ y) (h1 : y < π) : normpi x = y := by
  unfold normpi
  rw [show x + π = (y + π) + 2 * π * k by rw [h]; ring, pyMod_add_turns,
    pyMod_of_mem (by linarith) (by unfold tau; linarith)]
  ring

theorem microsecond_pos : 0 < microsecond := by unfold microsecond; norm_num

theorem TurnsEvenly.tiny {sky : ℝ → SkyPlace} {want : SkyPlace → Option ℝ} {d h0 w : ℝ} (h : TurnsEvenly sky want d h0 w) :
    w * microsecond < π := by
  have := h.slow
  have hm : microsecond ≤ 0.4 := by unfold microsecond; norm_num
  have := mul_le_mul_of_nonneg_left hm h.pos.le
  linarith

/-- The loop, started at the passage itself: it ends there, having looked one microsecond further. -/
theorem TurnsEvenly.refine_eq {sky : ℝ → SkyPlace} {want : SkyPlace → Option ℝ} {d h0 w : ℝ} (h : TurnsEvenly sky want d h0 w)
    {a t : ℝ} (hat : a < t) (hta : t - a < 0.8) {m : ℤ} (hm : d - h0 - w * t = 2 * π * m) :
    refineEvent sky want a t = some (t, t + microsecond) := by
  have hw := h.pos
  have hs := h.slow
  have hpi := pi_pos
  have hmu := microsecond_pos
  have ht := h.tiny
  have hwm : 0 < w * microsecond := mul_pos hw hmu
  have hdiff : ∀ s, haDifference sky want s = some (d - (sky s).ha) := fun s => by
    unfold haDifference; rw [h.wants]; rfl
  have hrate0 : haPerDay sky (fun r => pyMod r tau) a t = some w := by
    unfold haPerDay
    rw [if_neg (by linarith)]
    obtain ⟨k, hk⟩ := h.turns t
    obtain ⟨j, hj⟩ := h.turns a
    have e : (sky t).ha - (sky a).ha = w * (t - a) + 2 * π * ((k - j : ℤ) : ℝ) := by rw [hk, hj]; push_cast; ring
    have hb : w * (t - a) < 2 * π := lt_trans (mul_lt_mul_of_pos_left hta hw) hs
    simp only
    rw [e, pyMod_add_turns, pyMod_of_mem (mul_nonneg hw.le (by linarith)) (by unfold tau; linarith),
      mul_div_assoc, div_self (by linarith), mul_one]
  have hbump0 : timeBump sky want w t = some microsecond := by
    unfold timeBump
    rw [if_neg hw.ne', hdiff]
    obtain ⟨k, hk⟩ := h.turns t
    have : normpi (d - (sky t).ha) = 0 := by
      refine normpi_turns (m - k) ?_ (by linarith) hpi
      rw [hk]; push_cast; linarith
    simp only [Option.map_some, this, zero_div, if_true]
  have hrate1 : haPerDay sky normpi t (t + microsecond) = some w := by
    unfold haPerDay
    rw [if_neg (by linarith)]
    obtain ⟨k, hk⟩ := h.turns (t + microsecond)
    obtain ⟨j, hj⟩ := h.turns t
    rw [normpi_turns (y := w * microsecond) (k - j) (by rw [hk, hj]; push_cast; ring) (by linarith) ht,
      add_sub_cancel_left, mul_div_assoc, div_self hmu.ne', mul_one]
  have hbump1 : timeBump sky want w (t + microsecond) = some (-microsecond) := by
    unfold timeBump
    rw [if_neg hw.ne', hdiff]
    obtain ⟨k, hk⟩ := h.turns (t + microsecond)
    have : normpi (d - (sky (t + microsecond)).ha) = -(w * microsecond) := by
      refine normpi_turns (m - k) ?_ (by linarith) (by linarith)
      rw [hk]; push_cast; linarith
    have e : -(w * microsecond) / w = -microsecond := by field_simp
    simp only [Option.map_some, this, e]
    rw [if_neg (by linarith)]
  have hback : t + microsecond + -microsecond = t := by ring
  unfold refineEvent
  simp only [hrate0, hbump0, hrate1, hbump1, hback, Option.bind_eq_bind, Option.bind_some, Option.pure_def]

/-- With an evenly turning sky the guess is the passage. -/
theorem TurnsEvenly.guess_eq {sky : ℝ → SkyPlace} {want : SkyPlace → Option ℝ} {d h0 w : ℝ} (h : TurnsEvenly sky want d h0 w)
    {t : ℝ} {g : ℝ × ℝ} (hr : Reaches sky want t) (hg : GuessFor (fun t => d - h0 - w * t) t g) :
    g.2 = t ∧ ∃ m : ℤ, d - h0 - w * t = 2 * π * m := by
  obtain ⟨b, hab, hstep, ht0, ht1, hf, hs, hc⟩ := hg
  obtain ⟨-, hsome⟩ := C59_candidates _ _ g.1 b hf hs
  obtain ⟨n, u, hu0, hu1, hgu, hn⟩ := hsome _ hc
  obtain ⟨m, hm⟩ := (reaches_iff (h.sweeps (t - 1) (t + 1)) (by linarith) (by linarith)).1 hr
  simp only at hn hs hf hm
  have hw := h.pos
  have hpi := pi_pos
  have hn' : d - h0 - w * g.2 = 2 * π * n := by rw [hgu]; linarith
  have hg0 : g.1 ≤ g.2 := by rw [hgu]; have := mul_nonneg hu0 (by linarith : 0 ≤ b - g.1); linarith
  have hg1 : g.2 < b := by rw [hgu]; nlinarith
  have k1 := mul_le_mul_of_nonneg_left ht0 hw.le
  have k2 := mul_lt_mul_of_pos_left ht1 hw
  have k3 := mul_le_mul_of_nonneg_left hg0 hw.le
  have k4 := mul_lt_mul_of_pos_left hg1 hw
  have hmn : m = n := by
    have h1 : (m : ℝ) < n + 1 := by nlinarith
    have h2 : (n : ℝ) < m + 1 := by nlinarith
    have h1' : m < n + 1 := by exact_mod_cast h1
    have h2' : n < m + 1 := by exact_mod_cast h2
    omega
  refine ⟨?_, m, hm⟩
  rw [hmn] at hm
  have : w * g.2 = w * t := by linarith
  exact mul_left_cancel₀ hw.ne' this

/-- All three searches, under an evenly turning sky: the loop ends with the exact passage, and the passage and one microsecond, unless
the passage falls on one of the search's own samples. -/
theorem TurnsEvenly.approaches {sky : ℝ → SkyPlace} {want : SkyPlace → Option ℝ} {d h0 w : ℝ} (h : TurnsEvenly sky want d h0 w)
    {tt0 tt1 : ℝ} (h01 : tt0 ≤ tt1) {samples : List ℝ} (hsam : findSamples tt0 tt1 = some samples)
    (hclear : ∀ s ∈ samples, ¬ Reaches sky want s) : ∃ times, ListsPassages sky want tt0 tt1 times ∧
      findApproaches sky want tt0 tt1 = some (times.map fun t => some (t, t + microsecond)) := by
  obtain ⟨samples', times, guesses, hs', hp, hf, hall⟩ := findApproaches_spec (h.sweeps tt0 tt1) h01
  rw [hsam] at hs'
  injection hs' with hs'
  subst hs'
  refine ⟨times, hp, ?_⟩
  rw [hf]
  congr 1
  have hreach : ∀ t ∈ times, Reaches sky want t := fun t ht => ((hp.2 t).1 ht).2.2
  clear hf hp
  induction hall with
  | nil => rfl
  | @cons t g ts gs hg _ ih =>
    obtain ⟨hg, -, hmem⟩ := hg
    have hr := hreach t (by simp)
    obtain ⟨he, m, hm⟩ := h.guess_eq hr hg
    obtain ⟨b, hab, hstep, ht0, ht1, -⟩ := hg
    have hne : g.1 ≠ t := fun e => hclear _ hmem (e ▸ hr)
    have hlt : g.1 < t := lt_of_le_of_ne ht0 hne
    simp only [List.map_cons]
    rw [he, h.refine_eq hlt (by linarith) hm, ih fun s hs => hreach s (by simp [hs])]

/-- **C66.** Under a uniformly turning sky, `find_transits` reports every transit one microsecond late, no more and no less (unless a
transit falls exactly on one of the moments at which the search samples the sky). -/
theorem C66_transits {sky : ℝ → SkyPlace} {h0 w : ℝ} (h : TurnsEvenly sky wantTransit 0 h0 w)
    {tt0 tt1 : ℝ} (h01 : tt0 ≤ tt1) {samples : List ℝ} (hsam : findSamples tt0 tt1 = some samples)
    (hclear : ∀ s ∈ samples, ¬ Reaches sky wantTransit s) : ∃ times, ListsPassages sky wantTransit tt0 tt1 times ∧
      findTransits sky tt0 tt1 = some (times.map fun t => some (t + 1 / 86400 / 10 ^ 6)) := by
  obtain ⟨times, hp, hf⟩ := h.approaches h01 hsam hclear
  refine ⟨times, hp, ?_⟩
  unfold findTransits
  rw [hf]
  simp only [Option.map_some, List.map_map]
  congr 1
  apply List.map_congr_left
  intro t _
  simp only [Function.comp_apply, Option.map_some, microsecond]
  norm_num

/-- **C66.** A transit at the very moment the search starts is reported as nan. -/
theorem C66_start_on_transit {sky : ℝ → SkyPlace} {h0 w : ℝ} (h : TurnsEvenly sky wantTransit 0 h0 w)
    {tt0 tt1 : ℝ} (h01 : tt0 < tt1) (hr : Reaches sky wantTransit tt0) : ∃ rest, findTransits sky tt0 tt1 = some (none :: rest) := by
  obtain ⟨samples, times, guesses, -, hp, hf, hall⟩ := findApproaches_spec (h.sweeps tt0 tt1) h01.le
  have hmem : tt0 ∈ times := (hp.2 tt0).2 ⟨le_rfl, h01, hr⟩
  cases hall with
  | nil => simp at hmem
  | @cons t g ts gs hg hrest =>
    obtain ⟨hg, hge, -⟩ := hg
    have ht : t = tt0 := by
      rcases List.mem_cons.1 hmem with e | e
      · exact e.symm
      · have h1 := (List.pairwise_cons.1 hp.1).1 tt0 e
        have h2 := ((hp.2 t).1 (by simp)).1
        linarith
    subst ht
    obtain ⟨he, -⟩ := h.guess_eq hr hg
    obtain ⟨b, -, -, ht0, -⟩ := hg
    have e1 : g.1 = t := le_antisymm ht0 hge
    unfold findTransits
    rw [hf]
    refine ⟨(gs.map fun g => refineEvent sky wantTransit g.1 g.2).map fun r => r.map (·.2), ?_⟩
    simp only [Option.map_some, List.map_cons]
    rw [he, e1]
    have : refineEvent sky wantTransit t t = none := by
      unfold refineEvent haPerDay
      rw [if_pos (sub_self t)]; rfl
    rw [this]
    rfl

/-- A star: declination and distance stay the same, the sky turns by `w` radians a day, the altitude is that of a body of this
declination at this hour angle, and the rate is the altitude's rate of change (where it has one: not in the zenith). -/
structure FixedStar (sky : ℝ → SkyPlace) (lat dec distance h0 w : ℝ) : Prop where
  turns : ∀ t, ∃ k : ℤ, (sky t).ha = h0 + w * t + 2 * π * k
  decIs : ∀ t, (sky t).dec = dec
  distanceIs : ∀ t, (sky t).distance = distance
  altitude : ∀ t, AltitudeIs lat dec (sky t).ha (sky t).altitude
  range : ∀ t, |(sky t).altitude| ≤ π / 2
  rate : ∀ t, |(sky t).altitude| < π / 2 → HasDerivAt (fun t => (sky t).altitude) (sky t).rate t

namespace FixedStar
variable {sky : ℝ → SkyPlace} {lat dec distance h0 w : ℝ}

theorem sin_altitude (h : FixedStar sky lat dec distance h0 w) (t : ℝ) :
    sin (sky t).altitude = sin lat * sin dec + cos lat * cos dec * cos (h0 + w * t) := by
  have := h.altitude t 0
  rw [altitude_formula] at this
  obtain ⟨k, hk⟩ := h.turns t
  rw [← this, hk, show 2 * π * (k : ℝ) = k * (2 * π) by ring, cos_add_int_mul_two_pi]

theorem rate_eq (h : FixedStar sky lat dec distance h0 w) (t : ℝ) (ht : |(sky t).altitude| < π / 2) :
    cos (sky t).altitude * (sky t).rate = -(cos lat * cos dec * w * sin (h0 + w * t)) := by
  have h1 := (h.rate t ht).sin
  have h2 : HasDerivAt (fun t => sin (sky t).altitude) (cos lat * cos dec * (-sin (h0 + w * t) * w)) t := by
    have e : (fun t => sin (sky t).altitude) = fun t => sin lat * sin dec + cos lat * cos dec * cos (h0 + w * t) :=
      funext h.sin_altitude
    rw [e]
    have hl : HasDerivAt (fun t : ℝ => h0 + w * t) w t := by
      simpa using ((hasDerivAt_id t).const_mul w).const_add h0
    exact (hl.cos.const_mul _).const_add _
  rw [h1.unique h2]; ring

theorem wants (h : FixedStar sky lat dec distance h0 w) {c : HorizonChoice} {H s : ℝ} (hH : horizonRadians c distance = some H)
    (hs : settingHourAngle lat dec H = some s) (t : ℝ) :
    wantSetting lat c (sky t) = some s ∧ wantRising lat c (sky t) = some (-s) := by
  unfold wantSetting wantRising risingHourAngle
  rw [h.distanceIs, h.decIs, hH]
  simp [hs]

end FixedStar

/-- Sines order altitudes. -/
theorem altitude_lt_of_sin_lt {a b : ℝ} (ha : |a| ≤ π / 2) (hb : |b| ≤ π / 2) (h : sin a < sin b) : a < b := by
  rw [abs_le] at ha hb
  exact (strictMonoOn_sin.lt_iff_lt ⟨ha.1, ha.2⟩ ⟨hb.1, hb.2⟩).1 h

theorem altitude_eq_of_sin_eq {a b : ℝ} (ha : |a| ≤ π / 2) (hb : |b| ≤ π / 2) (h : sin a = sin b) : a = b := by
  rw [abs_le] at ha hb
  exact injOn_sin ⟨ha.1, ha.2⟩ ⟨hb.1, hb.2⟩ h

/-- A curve that is at the horizon at the first time, moving in the direction in which it then went: it crosses at once. -/
theorem clippedOffset_here {y1 v0 v1 : ℝ} (h : (0 < y1 ∧ 0 < v0) ∨ (y1 < 0 ∧ v0 < 0)) : clippedOffset 0 y1 v0 v1 = some 0 := by
  have hi : intersectionOf 0 y1 v0 v1 = some 0 := by
    unfold intersectionOf quadraticRoot
    simp only [mul_zero, sub_zero, max_eq_left (mul_self_nonneg v0), sqrt_mul_self_eq_abs, zero_div]
    rcases h with ⟨h1, h2⟩ | ⟨h1, h2⟩
    · have : ¬ (0 : ℝ) > y1 := by linarith
      simp only [this, if_false]
      rw [abs_of_pos h2, if_neg (by linarith)]
    · have : (0 : ℝ) > y1 := h1
      simp only [this, if_true]
      rw [abs_of_neg h2, if_neg (by linarith)]
  unfold clippedOffset
  rw [hi]
  simp [clip]

/-- A curve at its turning point away from the horizon: the offset runs into one of the limits. -/
theorem clippedOffset_away {y0 y1 v1 : ℝ} (h : (y0 < 0 ∧ y1 < y0) ∨ (0 < y0 ∧ y0 < y1)) :
    clippedOffset y0 y1 0 v1 = some (if y0 < 0 then 2 else -1) := by
  have hi : intersectionOf y0 y1 0 v1 = none := by
    unfold intersectionOf quadraticRoot
    have hd : max ((0 : ℝ) - 4 * (y1 - y0 - 0) * y0) 0 = 0 := by
      apply max_eq_right
      rcases h with ⟨h1, h2⟩ | ⟨h1, h2⟩ <;> nlinarith
    simp only [hd, sqrt_zero, mul_zero, add_zero, if_true]
  unfold clippedOffset
  rw [hi]
  have h0 : y0 ≠ 0 := by rcases h with ⟨h1, h2⟩ | ⟨h1, h2⟩ <;> linarith
  simp only [if_neg h0]
  split_ifs <;> rfl

namespace FixedStar
variable {sky : ℝ → SkyPlace} {lat dec distance h0 w : ℝ}

theorem evenly (h : FixedStar sky lat dec distance h0 w) (hw : 0 < w) (hslow : w * 0.8 < 2 * π) {want : SkyPlace → Option ℝ} {d : ℝ}
    (hd : ∀ t, want (sky t) = some d) : TurnsEvenly sky want d h0 w := ⟨h.turns, hd, hw, hslow⟩

theorem reaches_iff (h : FixedStar sky lat dec distance h0 w) {want : SkyPlace → Option ℝ} {d : ℝ}
    (hd : ∀ t, want (sky t) = some d) (t : ℝ) : Reaches sky want t ↔ ∃ m : ℤ, h0 + w * t = d + 2 * π * m := by
  obtain ⟨k, hk⟩ := h.turns t
  constructor
  · rintro ⟨d', hd', j, hj⟩
    rw [hd] at hd'
    injection hd' with hd'
    subst hd'
    refine ⟨j - k, ?_⟩
    push_cast; linarith
  · rintro ⟨m, hm⟩
    refine ⟨d, hd t, m + k, ?_⟩
    rw [hk, hm]; push_cast; ring

/-- The final step when the star crosses the horizon at `t`, the direction being the same a microsecond later. -/
theorem settle_cross (h : FixedStar sky lat dec distance h0 w) {c : HorizonChoice} {H d : ℝ} {want : SkyPlace → Option ℝ}
    (hH : horizonRadians c distance = some H) (hd : ∀ t, want (sky t) = some d) (t : ℝ) (halt : (sky t).altitude = H)
    (hdir : (H < (sky (t + microsecond)).altitude ∧ 0 < (sky t).rate) ∨ ((sky (t + microsecond)).altitude < H ∧ (sky t).rate < 0)) :
    settleEvent sky want c t (t + microsecond) = some (t, true) := by
  have hmu := microsecond_pos
  unfold settleEvent
  simp only [h.distanceIs, hH, hd, Option.bind_eq_bind, Option.bind_some, Option.pure_def, add_sub_cancel_left, halt, sub_self]
  rw [clippedOffset_here]
  · simp
  · rcases hdir with ⟨h1, h2⟩ | ⟨h1, h2⟩
    · exact Or.inl ⟨by linarith, mul_pos h2 hmu⟩
    · exact Or.inr ⟨by linarith, mul_neg_of_neg_of_pos h2 hmu⟩

/-- The final step at a transit that stays away from the horizon. -/
theorem settle_away (h : FixedStar sky lat dec distance h0 w) {c : HorizonChoice} {H d : ℝ} {want : SkyPlace → Option ℝ}
    (hH : horizonRadians c distance = some H) (hd : ∀ t, want (sky t) = some d) (hpd : pyMod d π = 0) (t : ℝ) (hrate : (sky t).rate = 0)
    (hdir : ((sky t).altitude < H ∧ (sky (t + microsecond)).altitude < (sky t).altitude) ∨
      (H < (sky t).altitude ∧ (sky t).altitude < (sky (t + microsecond)).altitude)) :
    settleEvent sky want c t (t + microsecond) =
      some (if (sky t).altitude < H then t + 2 * microsecond else t - microsecond, false) := by
  unfold settleEvent
  simp only [h.distanceIs, hH, hd, Option.bind_eq_bind, Option.bind_some, Option.pure_def, add_sub_cancel_left, hrate, zero_mul]
  rw [clippedOffset_away (by rcases hdir with ⟨h1, h2⟩ | ⟨h1, h2⟩; exacts [Or.inl ⟨by linarith, by linarith⟩, Or.inr ⟨by linarith, by linarith⟩])]
  rcases hdir with ⟨h1, h2⟩ | ⟨h1, h2⟩
  · rw [if_pos (by linarith), if_pos h1]
    simp [hpd]
  · rw [if_neg (by linarith), if_neg (by linarith)]
    simp [hpd]
    ring

end FixedStar

/-- What the setting hour angle is when the star's track really crosses the horizon. -/
theorem settingHourAngle_inside {lat dec H s : ℝ} (hlat : |lat| < π / 2) (hdec : |dec| < π / 2)
    (hs : settingHourAngle lat dec H = some s) (h0 : 0 < s) (h1 : s < π) :
    0 < cos lat * cos dec ∧ sin lat * sin dec + cos lat * cos dec * cos s = sin H := by
  have hcl : 0 < cos lat := cos_pos_of_mem_Ioo ⟨(abs_lt.1 hlat).1, (abs_lt.1 hlat).2⟩
  have hcd : 0 < cos dec := cos_pos_of_mem_Ioo ⟨(abs_lt.1 hdec).1, (abs_lt.1 hdec).2⟩
  have hden : 0 < cos lat * cos dec := mul_pos hcl hcd
  refine ⟨hden, ?_⟩
  unfold settingHourAngle at hs
  simp only at hs
  rw [if_neg hden.ne'] at hs
  injection hs with hs
  set q := (sin H - sin lat * sin dec) / (cos lat * cos dec) with hq
  have hq1 : q < 1 := by
    by_contra hge
    rw [min_eq_right (le_trans (not_lt.1 hge) (le_max_left _ _)), arccos_one] at hs
    linarith
  have hq0 : -1 < q := by
    by_contra hle
    rw [max_eq_right (not_lt.1 hle), min_eq_left (by norm_num), arccos_neg_one] at hs
    linarith
  rw [max_eq_left hq0.le, min_eq_left hq1.le] at hs
  have hc : cos s = q := by rw [← hs]; exact cos_arccos hq0.le hq1.le
  rw [hc, hq]
  field_simp
  ring

namespace FixedStar
variable {sky : ℝ → SkyPlace} {lat dec distance h0 w : ℝ}

/-- The star stands at the setting (`σ = 1`) or rising (`σ = -1`) hour angle just when it is at the horizon's altitude and sinking or
climbing; a microsecond later it is still on its way. -/
theorem crossing (h : FixedStar sky lat dec distance h0 w) (hw : 0 < w) (hlat : |lat| < π / 2) (hdec : |dec| < π / 2) {H s σ : ℝ}
    (hH2 : |H| < π / 2) (hs : settingHourAngle lat dec H = some s) (hs0 : w * microsecond < 2 * s)
    (hs1 : w * microsecond < 2 * (π - s)) (hσ : σ = 1 ∨ σ = -1) (t : ℝ) :
    ((∃ m : ℤ, h0 + w * t = σ * s + 2 * π * m) ↔ (sky t).altitude = H ∧ σ * (sky t).rate < 0) ∧
    ((∃ m : ℤ, h0 + w * t = σ * s + 2 * π * m) → σ * ((sky (t + microsecond)).altitude - H) < 0) := by
  have hmu := microsecond_pos
  have hx : 0 < w * microsecond := mul_pos hw hmu
  have hpos : 0 < s := by linarith
  have hlt : s < π := by linarith
  obtain ⟨hC, hsin⟩ := settingHourAngle_inside hlat hdec hs hpos hlt
  have hss : 0 < sin s := sin_pos_of_pos_of_lt_pi hpos hlt
  have hcH : 0 < cos H := cos_pos_of_mem_Ioo ⟨(abs_lt.1 hH2).1, (abs_lt.1 hH2).2⟩
  have hσ2 : σ * σ = 1 := by rcases hσ with e | e <;> rw [e] <;> norm_num
  have hcosσ : ∀ y, cos (σ * y) = cos y := fun y => by rcases hσ with e | e <;> rw [e] <;> simp
  have hsinσ : ∀ y, sin (σ * y) = σ * sin y := fun y => by rcases hσ with e | e <;> rw [e] <;> simp
  constructor
  · constructor
    · rintro ⟨m, hm⟩
      rw [show 2 * π * (m : ℝ) = m * (2 * π) by ring] at hm
      have halt : (sky t).altitude = H := by
        apply altitude_eq_of_sin_eq (h.range t) hH2.le
        rw [h.sin_altitude, hm, cos_add_int_mul_two_pi, hcosσ, hsin]
      refine ⟨halt, ?_⟩
      have hr := h.rate_eq t (by rw [halt]; exact hH2)
      rw [halt, hm, sin_add_int_mul_two_pi, hsinσ] at hr
      have : cos H * (σ * (sky t).rate) = -(cos lat * cos dec * w * sin s) := by
        linear_combination σ * hr - cos lat * cos dec * w * sin s * hσ2
      by_contra hge
      have h1 := mul_nonneg hcH.le (not_lt.1 hge)
      have h2 : 0 < cos lat * cos dec * w * sin s := by positivity
      linarith
    · rintro ⟨halt, hrate⟩
      have hsa := h.sin_altitude t
      rw [halt, ← hsin] at hsa
      have hcos : cos s = cos (h0 + w * t) := mul_left_cancel₀ hC.ne' (by linarith)
      have hr := h.rate_eq t (by rw [halt]; exact hH2)
      rw [halt] at hr
      have hsgn : 0 < σ * sin (h0 + w * t) := by
        by_contra hle
        have h1 := mul_neg_of_pos_of_neg hcH hrate
        have h2 : cos H * (σ * (sky t).rate) = -(cos lat * cos dec * w * (σ * sin (h0 + w * t))) := by
          linear_combination σ * hr
        have h3 : cos lat * cos dec * w * (σ * sin (h0 + w * t)) ≤ 0 :=
          mul_nonpos_of_nonneg_of_nonpos (by positivity) (not_lt.1 hle)
        linarith
      obtain ⟨k, hk | hk⟩ := cos_eq_cos_iff.1 hcos
      · rcases hσ with e | e
        · exact ⟨k, by rw [hk, e]; ring⟩
        · exfalso
          rw [hk, e, show 2 * (k : ℝ) * π + s = s + k * (2 * π) by ring, sin_add_int_mul_two_pi] at hsgn
          linarith
      · rcases hσ with e | e
        · exfalso
          rw [hk, e, show 2 * (k : ℝ) * π - s = -s + k * (2 * π) by ring, sin_add_int_mul_two_pi, sin_neg] at hsgn
          linarith
        · exact ⟨k, by rw [hk, e]; ring⟩
  · rintro ⟨m, hm⟩
    have hsa := h.sin_altitude (t + microsecond)
    rw [show h0 + w * (t + microsecond) = (σ * s + w * microsecond) + m * (2 * π) by linear_combination hm,
      cos_add_int_mul_two_pi] at hsa
    set x := w * microsecond with hxdef
    have hx2 : 0 < sin (x / 2) := sin_pos_of_pos_of_lt_pi (by linarith) (by linarith)
    rcases hσ with e | e
    · rw [e, one_mul] at hsa ⊢
      have hlt2 : cos (s + x) < cos s := by
        have := cos_sub_cos (s + x) s
        rw [show (s + x + s) / 2 = s + x / 2 by ring, show (s + x - s) / 2 = x / 2 by ring] at this
        have h3 : 0 < sin (s + x / 2) := sin_pos_of_pos_of_lt_pi (by linarith) (by linarith)
        have := mul_pos h3 hx2
        linarith
      have := mul_lt_mul_of_pos_left hlt2 hC
      have := altitude_lt_of_sin_lt (h.range _) hH2.le (by linarith : sin (sky (t + microsecond)).altitude < sin H)
      linarith
    · rw [e] at hsa ⊢
      have hlt2 : cos s < cos (-1 * s + x) := by
        have := cos_sub_cos (-1 * s + x) s
        rw [show (-1 * s + x + s) / 2 = x / 2 by ring, show (-1 * s + x - s) / 2 = -(s - x / 2) by ring, sin_neg] at this
        have h3 : 0 < sin (s - x / 2) := sin_pos_of_pos_of_lt_pi (by linarith) (by linarith)
        have := mul_pos hx2 h3
        linarith
      have := mul_lt_mul_of_pos_left hlt2 hC
      have := altitude_lt_of_sin_lt hH2.le (h.range _) (by linarith : sin H < sin (sky (t + microsecond)).altitude)
      linarith

end FixedStar

/-- **C66.** Under a uniformly turning sky, `find_settings` reports precisely the moments at which the star stands at the altitude of
the horizon and is sinking, each flagged as a real setting — provided that the star's track cuts the horizon by so much that
setting and rising are more than a microsecond apart, and that no setting falls on one of the search's own samples. -/
theorem C66_settings {sky : ℝ → SkyPlace} {lat dec distance h0 w : ℝ} (h : FixedStar sky lat dec distance h0 w) (hw : 0 < w)
    (hslow : w * 0.8 < 2 * π) (hlat : |lat| < π / 2) (hdec : |dec| < π / 2) {c : HorizonChoice} {H s : ℝ}
    (hH : horizonRadians c distance = some H) (hH2 : |H| < π / 2) (hs : settingHourAngle lat dec H = some s)
    (hs0 : w * microsecond < 2 * s) (hs1 : w * microsecond < 2 * (π - s))
    {tt0 tt1 : ℝ} (h01 : tt0 ≤ tt1) {samples : List ℝ} (hsam : findSamples tt0 tt1 = some samples)
    (hclear : ∀ t ∈ samples, (sky t).altitude ≠ H) :
    ∃ times : List ℝ, times.Pairwise (· < ·) ∧
      (∀ t, t ∈ times ↔ tt0 ≤ t ∧ t < tt1 ∧ (sky t).altitude = H ∧ (sky t).rate < 0) ∧
      findSettings sky lat c tt0 tt1 = some (times.map fun t => some (t, true)) := by
  have hd := fun t => (h.wants hH hs t).1
  have hcr := fun t => h.crossing hw hlat hdec hH2 hs hs0 hs1 (Or.inl rfl) t
  have hiff : ∀ t, Reaches sky (wantSetting lat c) t ↔ (sky t).altitude = H ∧ (sky t).rate < 0 := fun t => by
    rw [h.reaches_iff hd]
    simpa using (hcr t).1
  obtain ⟨times, hp, hf⟩ := (h.evenly hw hslow hd).approaches h01 hsam fun t ht hr => hclear t ht ((hiff t).1 hr).1
  refine ⟨times, hp.1, fun t => by rw [hp.2, hiff], ?_⟩
  unfold findSettings
  rw [hf]
  simp only [Option.map_some, List.map_map]
  congr 1
  apply List.map_congr_left
  intro t ht
  have hr := ((hp.2 t).1 ht).2.2
  obtain ⟨e1, e2⟩ := (hiff t).1 hr
  simp only [Function.comp_apply, Option.bind_some]
  refine h.settle_cross hH hd t e1 (Or.inr ⟨?_, e2⟩)
  have := (hcr t).2 (by rw [h.reaches_iff hd] at hr; simpa using hr)
  linarith

/-- **C66.** In the same way `find_risings` reports precisely the moments at which the star stands at the altitude of the horizon and
is climbing. -/
theorem C66_risings {sky : ℝ → SkyPlace} {lat dec distance h0 w : ℝ} (h : FixedStar sky lat dec distance h0 w) (hw : 0 < w)
    (hslow : w * 0.8 < 2 * π) (hlat : |lat| < π / 2) (hdec : |dec| < π / 2) {c : HorizonChoice} {H s : ℝ}
    (hH : horizonRadians c distance = some H) (hH2 : |H| < π / 2) (hs : settingHourAngle lat dec H = some s)
    (hs0 : w * microsecond < 2 * s) (hs1 : w * microsecond < 2 * (π - s))
    {tt0 tt1 : ℝ} (h01 : tt0 ≤ tt1) {samples : List ℝ} (hsam : findSamples tt0 tt1 = some samples)
    (hclear : ∀ t ∈ samples, (sky t).altitude ≠ H) :
    ∃ times : List ℝ, times.Pairwise (· < ·) ∧
      (∀ t, t ∈ times ↔ tt0 ≤ t ∧ t < tt1 ∧ (sky t).altitude = H ∧ 0 < (sky t).rate) ∧
      findRisings sky lat c tt0 tt1 = some (times.map fun t => some (t, true)) := by
  have hd := fun t => (h.wants hH hs t).2
  have hcr := fun t => h.crossing hw hlat hdec hH2 hs hs0 hs1 (Or.inr rfl) t
  have hiff : ∀ t, Reaches sky (wantRising lat c) t ↔ (sky t).altitude = H ∧ 0 < (sky t).rate := fun t => by
    rw [h.reaches_iff hd]
    simpa using (hcr t).1
  obtain ⟨times, hp, hf⟩ := (h.evenly hw hslow hd).approaches h01 hsam fun t ht hr => hclear t ht ((hiff t).1 hr).1
  refine ⟨times, hp.1, fun t => by rw [hp.2, hiff], ?_⟩
  unfold findRisings
  rw [hf]
  simp only [Option.map_some, List.map_map]
  congr 1
  apply List.map_congr_left
  intro t ht
  have hr := ((hp.2 t).1 ht).2.2
  obtain ⟨e1, e2⟩ := (hiff t).1 hr
  simp only [Function.comp_apply, Option.bind_some]
  refine h.settle_cross hH hd t e1 (Or.inl ⟨?_, e2⟩)
  have := (hcr t).2 (by rw [h.reaches_iff hd] at hr; simpa using hr)
  linarith

namespace FixedStar
variable {sky : ℝ → SkyPlace} {lat dec distance h0 w : ℝ}

/-- A star that stays off the horizon: what happens at its culmination (`ε = 1` the upper one, of a star that stays below; `ε = -1` the
lower one, of a star that stays above). -/
theorem culmination (h : FixedStar sky lat dec distance h0 w) (hw : 0 < w) (hslow : w * 0.8 < 2 * π) (hlat : |lat| < π / 2)
    (hdec : |dec| < π / 2) {ε : ℝ} (hε : ε = 1 ∨ ε = -1) {H : ℝ} (hH2 : |H| < π / 2) (hoff : ∀ t, ε * ((sky t).altitude - H) < 0) (t : ℝ)
    (ht : cos (h0 + w * t) = ε) :
    (sky t).rate = 0 ∧ ε * ((sky (t + microsecond)).altitude - (sky t).altitude) < 0 := by
  have hmu := microsecond_pos
  have hx : 0 < w * microsecond := mul_pos hw hmu
  have hxpi : w * microsecond < π := by
    have hm : microsecond ≤ 0.4 := by unfold microsecond; norm_num
    have := mul_le_mul_of_nonneg_left hm hw.le
    linarith
  have hcl : 0 < cos lat := cos_pos_of_mem_Ioo ⟨(abs_lt.1 hlat).1, (abs_lt.1 hlat).2⟩
  have hcd : 0 < cos dec := cos_pos_of_mem_Ioo ⟨(abs_lt.1 hdec).1, (abs_lt.1 hdec).2⟩
  have hC : 0 < cos lat * cos dec := mul_pos hcl hcd
  have hε2 : ε * ε = 1 := by rcases hε with e | e <;> rw [e] <;> norm_num
  have hsin0 : sin (h0 + w * t) = 0 := by
    have := sin_sq_add_cos_sq (h0 + w * t)
    rw [ht] at this
    exact pow_eq_zero_iff (two_ne_zero) |>.1 (by nlinarith : sin (h0 + w * t) ^ 2 = 0)
  have hcx : cos (w * microsecond) < 1 := by
    have := cos_lt_cos_of_nonneg_of_le_pi (le_refl (0 : ℝ)) hxpi.le hx
    rwa [cos_zero] at this
  have hstep : cos (h0 + w * (t + microsecond)) = ε * cos (w * microsecond) := by
    rw [show h0 + w * (t + microsecond) = (h0 + w * t) + w * microsecond by ring, cos_add, hsin0, ht]; ring
  have h1 := h.sin_altitude t
  have h2 := h.sin_altitude (t + microsecond)
  rw [ht] at h1
  rw [hstep] at h2
  have hdiff : ε * (sin (sky (t + microsecond)).altitude - sin (sky t).altitude) < 0 := by
    have : ε * (sin (sky (t + microsecond)).altitude - sin (sky t).altitude) = cos lat * cos dec * (cos (w * microsecond) - 1) := by
      rw [h1, h2]; linear_combination (cos lat * cos dec * (cos (w * microsecond) - 1)) * hε2
    rw [this]
    exact mul_neg_of_pos_of_neg hC (by linarith)
  have halt : ε * ((sky (t + microsecond)).altitude - (sky t).altitude) < 0 := by
    rcases hε with e | e
    · rw [e] at hdiff ⊢
      have := altitude_lt_of_sin_lt (h.range _) (h.range _) (by linarith : sin (sky (t + microsecond)).altitude < sin (sky t).altitude)
      linarith
    · rw [e] at hdiff ⊢
      have := altitude_lt_of_sin_lt (h.range _) (h.range _) (by linarith : sin (sky t).altitude < sin (sky (t + microsecond)).altitude)
      linarith
  refine ⟨?_, halt⟩
  have hin : |(sky t).altitude| < π / 2 := by
    have a1 := abs_le.1 (h.range t)
    have a2 := abs_le.1 (h.range (t + microsecond))
    have a3 := hoff t
    rw [abs_lt] at hH2 ⊢
    rcases hε with e | e <;> rw [e] at halt a3 <;> constructor <;> linarith
  have hr := h.rate_eq t hin
  rw [hsin0, mul_zero, neg_zero] at hr
  have hc : 0 < cos (sky t).altitude := cos_pos_of_mem_Ioo ⟨(abs_lt.1 hin).1, (abs_lt.1 hin).2⟩
  exact (mul_eq_zero.1 hr).resolve_left hc.ne'

/-- The hour angle wanted for a star that stays off the horizon. -/
theorem setting_off (h : FixedStar sky lat dec distance h0 w) (hw : 0 < w) (hlat : |lat| < π / 2)
    (hdec : |dec| < π / 2) {H : ℝ} (hH2 : |H| < π / 2) :
    ((∀ t, (sky t).altitude < H) → settingHourAngle lat dec H = some 0) ∧
    ((∀ t, H < (sky t).altitude) → settingHourAngle lat dec H = some π) := by
  have hcl : 0 < cos lat := cos_pos_of_mem_Ioo ⟨(abs_lt.1 hlat).1, (abs_lt.1 hlat).2⟩
  have hcd : 0 < cos dec := cos_pos_of_mem_Ioo ⟨(abs_lt.1 hdec).1, (abs_lt.1 hdec).2⟩
  have hden : cos lat * cos dec ≠ 0 := (mul_pos hcl hcd).ne'
  obtain ⟨s, hs⟩ : ∃ s, settingHourAngle lat dec H = some s := by
    unfold settingHourAngle
    simp only
    rw [if_neg hden]
    exact ⟨_, rfl⟩
  have hat : ∀ ha, sin (sky ((ha - h0) / w)).altitude = sin lat * sin dec + cos lat * cos dec * cos ha := fun ha => by
    rw [h.sin_altitude, mul_div_cancel₀ _ hw.ne', add_sub_cancel]
  have hmono : ∀ a b : ℝ, |a| ≤ π / 2 → |b| ≤ π / 2 → a < b → sin a < sin b := fun a b ha hb hab =>
    strictMonoOn_sin ⟨(abs_le.1 ha).1, (abs_le.1 ha).2⟩ ⟨(abs_le.1 hb).1, (abs_le.1 hb).2⟩ hab
  obtain ⟨n1, n2⟩ := C59_never lat dec H s hlat hdec hs
  constructor
  · intro hb
    rw [hs, n1 fun ha => by rw [← hat]; exact hmono _ _ (h.range _) hH2.le (hb _)]
  · intro hb
    rw [hs, n2 fun ha => by rw [← hat]; exact hmono _ _ hH2.le (h.range _) (hb _)]

end FixedStar

/-- Cosine ±1 of the star's hour angle, in terms of whole turns. -/
theorem cos_ha_iff {x d ε : ℝ} (h : (d = 0 ∧ ε = 1) ∨ ((d = π ∨ d = -π) ∧ ε = -1)) :
    (∃ m : ℤ, x = d + 2 * π * m) ↔ cos x = ε := by
  have hd : cos d = ε := by
    rcases h with ⟨rfl, rfl⟩ | ⟨rfl | rfl, rfl⟩ <;> simp
  constructor
  · rintro ⟨m, rfl⟩
    rw [show 2 * π * (m : ℝ) = m * (2 * π) by ring, cos_add_int_mul_two_pi, hd]
  · intro hx
    obtain ⟨k, hk | hk⟩ := cos_eq_cos_iff.1 (hd.trans hx.symm)
    · exact ⟨k, by rw [hk]; ring⟩
    · rcases h with ⟨rfl, -⟩ | ⟨rfl | rfl, -⟩
      · exact ⟨k, by rw [hk]; ring⟩
      · exact ⟨k - 1, by rw [hk]; push_cast; ring⟩
      · exact ⟨k + 1, by rw [hk]; push_cast; ring⟩

/-- A search for the crossings of a star that stays off the horizon. -/
theorem FixedStar.reports_off {sky : ℝ → SkyPlace} {lat dec distance h0 w : ℝ} (h : FixedStar sky lat dec distance h0 w) (hw : 0 < w)
    (hslow : w * 0.8 < 2 * π) (hlat : |lat| < π / 2) (hdec : |dec| < π / 2) {c : HorizonChoice} {H : ℝ}
    (hH : horizonRadians c distance = some H) (hH2 : |H| < π / 2) {d ε : ℝ} (hdε : (d = 0 ∧ ε = 1) ∨ ((d = π ∨ d = -π) ∧ ε = -1))
    (hoff : ∀ t, ε * ((sky t).altitude - H) < 0) {want : SkyPlace → Option ℝ} (hd : ∀ t, want (sky t) = some d)
    {tt0 tt1 : ℝ} (h01 : tt0 ≤ tt1) {samples : List ℝ} (hsam : findSamples tt0 tt1 = some samples)
    (hclear : ∀ t ∈ samples, cos (sky t).ha ≠ ε) :
    ∃ times : List ℝ, times.Pairwise (· < ·) ∧ (∀ t, t ∈ times ↔ tt0 ≤ t ∧ t < tt1 ∧ cos (sky t).ha = ε) ∧
      ((findApproaches sky want tt0 tt1).map fun l => l.map fun r => r.bind fun p => settleEvent sky want c p.1 p.2) =
        some (times.map fun t => some (if ε = 1 then t + 2 * microsecond else t - microsecond, false)) := by
  have hcos : ∀ t, cos (sky t).ha = cos (h0 + w * t) := fun t => by
    obtain ⟨k, hk⟩ := h.turns t
    rw [hk, show 2 * π * (k : ℝ) = k * (2 * π) by ring, cos_add_int_mul_two_pi]
  have hiff : ∀ t, Reaches sky want t ↔ cos (sky t).ha = ε := fun t => by
    rw [h.reaches_iff hd, hcos, cos_ha_iff hdε]
  obtain ⟨times, hp, hf⟩ := (h.evenly hw hslow hd).approaches h01 hsam fun t ht hr => hclear t ht ((hiff t).1 hr)
  refine ⟨times, hp.1, fun t => by rw [hp.2, hiff], ?_⟩
  rw [hf]
  simp only [Option.map_some, List.map_map]
  congr 1
  apply List.map_congr_left
  intro t ht
  have hr := (hiff t).1 ((hp.2 t).1 ht).2.2
  rw [hcos] at hr
  simp only [Function.comp_apply, Option.bind_some]
  have hε : ε = 1 ∨ ε = -1 := by rcases hdε with ⟨-, e⟩ | ⟨-, e⟩ <;> simp [e]
  have hpd : pyMod d π = 0 := by
    rcases hdε with ⟨e, -⟩ | ⟨e | e, -⟩
    · rw [e]; exact pyMod_of_mem le_rfl pi_pos
    · exact pyMod_unique' d 1 pi_pos le_rfl pi_pos (by rw [e]; simp)
    · exact pyMod_unique' d (-1) pi_pos le_rfl pi_pos (by rw [e]; simp)
  obtain ⟨c1, c2⟩ := h.culmination hw hslow hlat hdec hε hH2 hoff t hr
  have hofft := hoff t
  rcases hε with e | e
  · rw [e] at c2 hofft
    rw [h.settle_away hH hd hpd t c1 (Or.inl ⟨by linarith, by linarith⟩), if_pos (by linarith), if_pos e]
  · rw [e] at c2 hofft
    rw [h.settle_away hH hd hpd t c1 (Or.inr ⟨by linarith, by linarith⟩), if_neg (by linarith), if_neg (by rw [e]; norm_num)]

/-- **C66.** A star that stays below the horizon: both searches report its upper culminations (two microseconds late), every one of
them flagged as no real crossing. -/
theorem C66_never_rises {sky : ℝ → SkyPlace} {lat dec distance h0 w : ℝ} (h : FixedStar sky lat dec distance h0 w) (hw : 0 < w)
    (hslow : w * 0.8 < 2 * π) (hlat : |lat| < π / 2) (hdec : |dec| < π / 2) {c : HorizonChoice} {H : ℝ}
    (hH : horizonRadians c distance = some H) (hH2 : |H| < π / 2) (hbelow : ∀ t, (sky t).altitude < H)
    {tt0 tt1 : ℝ} (h01 : tt0 ≤ tt1) {samples : List ℝ} (hsam : findSamples tt0 tt1 = some samples)
    (hclear : ∀ t ∈ samples, cos (sky t).ha ≠ 1) :
    ∃ times : List ℝ, times.Pairwise (· < ·) ∧ (∀ t, t ∈ times ↔ tt0 ≤ t ∧ t < tt1 ∧ cos (sky t).ha = 1) ∧
      findSettings sky lat c tt0 tt1 = some (times.map fun t => some (t + 2 * microsecond, false)) ∧
      findRisings sky lat c tt0 tt1 = some (times.map fun t => some (t + 2 * microsecond, false)) := by
  have hs := (h.setting_off hw hlat hdec hH2).1 hbelow
  have hoff : ∀ t, (1 : ℝ) * ((sky t).altitude - H) < 0 := fun t => by have := hbelow t; linarith
  obtain ⟨times, p1, p2, p3⟩ := h.reports_off hw hslow hlat hdec hH hH2 (Or.inl ⟨rfl, rfl⟩) hoff (fun t => (h.wants hH hs t).1) h01 hsam hclear
  obtain ⟨times', q1, q2, q3⟩ := h.reports_off hw hslow hlat hdec hH hH2 (d := -0) (Or.inl ⟨neg_zero, rfl⟩) hoff
    (fun t => (h.wants hH hs t).2) h01 hsam hclear
  have he : times' = times := List.Pairwise.eq_of_mem_iff q1 p1 fun t => by rw [p2, q2]
  simp only [if_true] at p3 q3
  rw [he] at q3
  exact ⟨times, p1, p2, p3, q3⟩

/-- **C66.** A star that stays above the horizon: both searches report its lower culminations (a microsecond early), every one of them
flagged as no real crossing. -/
theorem C66_never_sets {sky : ℝ → SkyPlace} {lat dec distance h0 w : ℝ} (h : FixedStar sky lat dec distance h0 w) (hw : 0 < w)
    (hslow : w * 0.8 < 2 * π) (hlat : |lat| < π / 2) (hdec : |dec| < π / 2) {c : HorizonChoice} {H : ℝ}
    (hH : horizonRadians c distance = some H) (hH2 : |H| < π / 2) (habove : ∀ t, H < (sky t).altitude)
    {tt0 tt1 : ℝ} (h01 : tt0 ≤ tt1) {samples : List ℝ} (hsam : findSamples tt0 tt1 = some samples)
    (hclear : ∀ t ∈ samples, cos (sky t).ha ≠ -1) :
    ∃ times : List ℝ, times.Pairwise (· < ·) ∧ (∀ t, t ∈ times ↔ tt0 ≤ t ∧ t < tt1 ∧ cos (sky t).ha = -1) ∧
      findSettings sky lat c tt0 tt1 = some (times.map fun t => some (t - microsecond, false)) ∧
      findRisings sky lat c tt0 tt1 = some (times.map fun t => some (t - microsecond, false)) := by
  have hs := (h.setting_off hw hlat hdec hH2).2 habove
  have hoff : ∀ t, (-1 : ℝ) * ((sky t).altitude - H) < 0 := fun t => by have := habove t; linarith
  obtain ⟨times, p1, p2, p3⟩ := h.reports_off hw hslow hlat hdec hH hH2 (Or.inr ⟨Or.inl rfl, rfl⟩) hoff (fun t => (h.wants hH hs t).1) h01 hsam hclear
  obtain ⟨times', q1, q2, q3⟩ := h.reports_off hw hslow hlat hdec hH hH2 (Or.inr ⟨Or.inr rfl, rfl⟩) hoff
    (fun t => (h.wants hH hs t).2) h01 hsam hclear
  have he : times' = times := List.Pairwise.eq_of_mem_iff q1 p1 fun t => by rw [p2, q2]
  simp only [show ¬ ((-1 : ℝ) = 1) by norm_num, if_false] at p3 q3
  rw [he] at q3
  exact ⟨times, p1, p2, p3, q3⟩

/-- **C66.** Whatever the sky does, the time that the last step of `find_risings` or `find_settings` gives lies within the last step
of the iteration before its last two times or within twice that step after. -/
theorem C66_last_step (sky : ℝ → SkyPlace) (want : SkyPlace → Option ℝ) (c : HorizonChoice) (t0 t1 t : ℝ) (flag : Bool)
    (h : settleEvent sky want c t0 t1 = some (t, flag)) : ∃ u, -1 ≤ u ∧ u ≤ 2 ∧ t = t0 + u * (t1 - t0) := by
  unfold settleEvent at h
  simp only [Option.bind_eq_bind, Option.pure_def, Option.bind_eq_some_iff, Option.some.injEq, Prod.mk.injEq] at h
  obtain ⟨_, -, _, -, _, -, u, hu, ht, -⟩ := h
  refine ⟨u, ?_, ?_, ht.symm⟩ <;>
  · unfold clippedOffset at hu
    split at hu
    · injection hu with hu
      rw [← hu]
      unfold clip
      first
        | exact le_min (le_max_right _ _) (by norm_num)
        | exact min_le_right _ _
    · split_ifs at hu <;> injection hu with hu <;> rw [← hu] <;> norm_num

/-- **C66.** The horizons: 50 arcminutes below the level for the Sun's center, 34 arcminutes below it for the Moon's upper edge (to
first order) and for anything else, or the altitude the caller asked for. -/
theorem C66_horizons (distance a : ℝ) :
    horizonRadians .sun distance = some (-(50 / 60) * (π / 180)) ∧
    (distance ≠ 0 → horizonRadians .moon distance = some (-(34 / 60) * (π / 180) - 1737400 / distance)) ∧
    horizonRadians .other distance = some (-(34 / 60) * (π / 180)) ∧
    horizonRadians (.degrees a) distance = some (a * (π / 180)) := by
  unfold horizonRadians tau
  refine ⟨?_, fun h => ?_, ?_, ?_⟩
  · simp only [Option.some.injEq]; ring
  · simp only [if_neg h, Option.some.injEq]; norm_num; ring
  · simp only [Option.some.injEq]; ring
  · simp only [Option.some.injEq]; ring

/-- There are such stars, for every latitude, declination, distance and rotation. -/
theorem exists_fixedStar (lat dec distance h0 w : ℝ) : ∃ sky, FixedStar sky lat dec distance h0 w := by
  set A : ℝ → ℝ := fun t => arcsin (sin lat * sin dec + cos lat * cos dec * cos (h0 + w * t)) with hA
  have hb : ∀ t, -1 ≤ sin lat * sin dec + cos lat * cos dec * cos (h0 + w * t) ∧
      sin lat * sin dec + cos lat * cos dec * cos (h0 + w * t) ≤ 1 := by
    intro t
    have h1 := sin_sq_add_cos_sq lat
    have h2 := sin_sq_add_cos_sq dec
    have h3 := sin_sq_add_cos_sq (h0 + w * t)
    set c := cos (h0 + w * t)
    have hc : c ^ 2 ≤ 1 := by nlinarith [sq_nonneg (sin (h0 + w * t))]
    have h4 : (sin dec) ^ 2 + (cos dec * c) ^ 2 ≤ 1 := by nlinarith [sq_nonneg (cos dec)]
    constructor <;>
      nlinarith [sq_nonneg (sin lat - sin dec), sq_nonneg (cos lat - cos dec * c), sq_nonneg (sin lat + sin dec),
        sq_nonneg (cos lat + cos dec * c)]
  refine ⟨fun t => ⟨h0 + w * t, dec, distance, A t, deriv A t⟩, fun t => ⟨0, by simp⟩, fun _ => rfl, fun _ => rfl, fun t lst => ?_,
    fun t => ?_, fun t ht => ?_⟩
  · rw [altitude_formula]
    simp only [hA]
    rw [sin_arcsin (hb t).1 (hb t).2]
  · simp only [hA]
    exact abs_le.2 ⟨neg_pi_div_two_le_arcsin _, arcsin_le_pi_div_two _⟩
  · simp only at ht ⊢
    have hne : DifferentiableAt ℝ A t := by
      have hin : DifferentiableAt ℝ (fun t => sin lat * sin dec + cos lat * cos dec * cos (h0 + w * t)) t := by fun_prop
      have hout : DifferentiableAt ℝ arcsin (sin lat * sin dec + cos lat * cos dec * cos (h0 + w * t)) := by
        refine differentiableAt_arcsin.2 ⟨?_, ?_⟩
        · intro e
          simp only [hA] at ht
          rw [e, arcsin_neg_one, abs_neg, abs_of_pos (by linarith [pi_pos])] at ht
          exact lt_irrefl _ ht
        · intro e
          simp only [hA] at ht
          rw [e, arcsin_one, abs_of_pos (by linarith [pi_pos])] at ht
          exact lt_irrefl _ ht
      exact DifferentiableAt.comp (g := arcsin) t hout hin
    exact hne.hasDerivAt

/-- A star on the equator, seen from the equator: it crosses the horizon at hour angle a quarter turn. -/
example : ∃ sky s, FixedStar sky 0 0 1 1 6 ∧ (0 : ℝ) < 6 ∧ (6 : ℝ) * 0.8 < 2 * π ∧ |(0 : ℝ)| < π / 2 ∧
    horizonRadians (.degrees 0) 1 = some 0 ∧ settingHourAngle 0 0 0 = some s ∧ 6 * microsecond < 2 * s ∧
    6 * microsecond < 2 * (π - s) ∧ findSamples 0 0.5 = some [0, 0.5] ∧
    ∀ t ∈ [0, (0.5 : ℝ)], (sky t).altitude ≠ 0 := by
  obtain ⟨sky, hsky⟩ := exists_fixedStar 0 0 1 1 6
  have hp := pi_gt_three
  have hp4 := pi_lt_four
  refine ⟨sky, π / 2, hsky, by norm_num, by linarith, by simp; linarith, ?_, ?_, ?_, ?_, ?_, ?_⟩
  · simp [horizonRadians]
  · simp [settingHourAngle]
  · unfold microsecond; linarith
  · unfold microsecond; linarith
  · unfold findSamples
    have h1 : ⌈((0.5 : ℝ) - 0) / 0.8⌉ = 1 := by
      rw [Int.ceil_eq_iff]; norm_num
    simp only [h1]
    rw [if_neg (by norm_num), show ((1 : ℤ) + 1).toNat = 0 + 2 from rfl, npLinspace_succ]
    norm_num
  · intro t ht e
    have h1 := hsky.sin_altitude t
    rw [e] at h1
    simp at h1 ht
    have hp' := pi_gt_d2
    have hp'' := pi_lt_d2
    rcases ht with rfl | rfl
    · have := cos_pos_of_mem_Ioo (x := (1 : ℝ) + 6 * 0) ⟨by linarith, by linarith⟩
      linarith
    · have h2 := cos_neg_of_pi_div_two_lt_of_lt (x := (1 : ℝ) + 6 * 0.5) (by linarith) (by linarith)
      rw [show (1 : ℝ) + 6 * 0.5 = 1 + 6 * 0.5 from rfl] at h2
      norm_num at h1 h2
      linarith

/-- Two stars seen from latitude 1 radian, one at declination 1 that never sets and one at declination −1 that never rises, over half a day
that begins and ends away from their culminations. -/
example : ∃ high low : ℝ → SkyPlace, FixedStar high 1 1 1 1 6 ∧ FixedStar low 1 (-1) 1 1 6 ∧ |(1 : ℝ)| < π / 2 ∧ |(-1 : ℝ)| < π / 2 ∧
    (∀ t, 0 < (high t).altitude) ∧ (∀ t, (low t).altitude < 0) ∧ findSamples 0 0.5 = some [0, 0.5] ∧
    (∀ t ∈ [0, (0.5 : ℝ)], cos (high t).ha ≠ -1) ∧ ∀ t ∈ [0, (0.5 : ℝ)], cos (low t).ha ≠ 1 := by
  obtain ⟨high, hh⟩ := exists_fixedStar 1 1 1 1 6
  obtain ⟨low, hl⟩ := exists_fixedStar 1 (-1) 1 1 6
  have hp' := pi_gt_d2
  have hp'' := pi_lt_d2
  have hc : cos 1 < sin 1 := by
    rw [← sin_pi_div_two_sub]
    exact sin_lt_sin_of_lt_of_le_pi_div_two (by linarith) (by linarith) (by linarith)
  have hc0 : 0 < cos (1 : ℝ) := cos_pos_of_mem_Ioo ⟨by linarith, by linarith⟩
  have hturn : ∀ {sky : ℝ → SkyPlace} {dec : ℝ}, FixedStar sky 1 dec 1 1 6 → ∀ t, cos (sky t).ha = cos (1 + 6 * t) := by
    intro sky dec h t
    obtain ⟨k, hk⟩ := h.turns t
    rw [hk, show 2 * π * (k : ℝ) = k * (2 * π) by ring, cos_add_int_mul_two_pi]
  have h4 : -1 < cos ((1 : ℝ) + 6 * 0.5) ∧ cos ((1 : ℝ) + 6 * 0.5) < 0 := by
    constructor
    · rw [← cos_neg, ← cos_add_two_pi, ← cos_pi]
      exact cos_lt_cos_of_nonneg_of_le_pi (by linarith) le_rfl (by linarith)
    · exact cos_neg_of_pi_div_two_lt_of_lt (by norm_num; linarith) (by norm_num; linarith)
  have h1 : cos (1 : ℝ) < 1 := by
    have := cos_lt_cos_of_nonneg_of_le_pi (x := 0) (y := 1) le_rfl (by linarith) (by norm_num)
    rwa [cos_zero] at this
  refine ⟨high, low, hh, hl, by rw [abs_one]; linarith, by rw [abs_neg, abs_one]; linarith, ?_, ?_, ?_, ?_, ?_⟩
  · intro t
    have e := hh.sin_altitude t
    by_contra hn
    have h0 := sin_nonpos_of_nonpos_of_neg_pi_le (not_lt.1 hn) (by linarith [(abs_le.1 (hh.range t)).1])
    have := neg_one_le_cos (1 + 6 * t)
    nlinarith
  · intro t
    have e := hl.sin_altitude t
    rw [sin_neg, cos_neg] at e
    by_contra hn
    have h0 := sin_nonneg_of_nonneg_of_le_pi (not_lt.1 hn) (by linarith [(abs_le.1 (hl.range t)).2])
    have := cos_le_one (1 + 6 * t)
    nlinarith
  · unfold findSamples
    have h1 : ⌈((0.5 : ℝ) - 0) / 0.8⌉ = 1 := by
      rw [Int.ceil_eq_iff]; norm_num
    simp only [h1]
    rw [if_neg (by norm_num), show ((1 : ℤ) + 1).toNat = 0 + 2 from rfl, npLinspace_succ]
    norm_num
  · intro t ht
    rw [hturn hh]
    rcases List.mem_cons.1 ht with rfl | ht
    · rw [mul_zero, add_zero]; linarith
    · rw [List.mem_singleton.1 ht]; exact h4.1.ne'
  · intro t ht
    rw [hturn hl]
    rcases List.mem_cons.1 ht with rfl | ht
    · rw [mul_zero, add_zero]; exact h1.ne
    · rw [List.mem_singleton.1 ht]; linarith [h4.2]

end Skyfield
