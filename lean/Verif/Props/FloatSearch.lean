import Verif.Lemmas.FloatSearch
import Verif.Lemmas.Utc
import Verif.Props.FloatTime

/-
C82: `find_discrete` with the rounding of every floating point operation.

`findDiscreteF fl start stop f epsilon num fuel` is the search of `f` between two times, as the
machine computes it when `fl` is its rounding; `.ok (some events)` says that it returned `events`
(TT Julian date and value) within `fuel` rounds.  All dates are below 2²² - 2 days in size, that is,
before the year 6770.
-/
namespace Skyfield
open Spec
set_option linter.unusedSectionVars false

variable {fl : ℚ → ℚ} {V : Type*} [DecidableEq V]

/-- More rounds do not change an answer. -/
theorem discreteLoopF_more (f : ℚ → V) (epsilon : ℚ) (num k extra : ℕ) (jd : List ℚ)
    (ev : List (ℚ × V)) (h : discreteLoopF fl f epsilon num k jd = some ev) :
    discreteLoopF fl f epsilon num (k + extra) jd = some ev := by
  induction k generalizing jd with
  | zero => simp [discreteLoopF] at h
  | succ k ih =>
    rw [show k + 1 + extra = (k + extra) + 1 by omega]
    unfold discreteLoopF at h ⊢
    cases e : discreteRoundF fl f epsilon num jd with
    | inl x => rw [e] at h; exact h
    | inr x => rw [e] at h; exact ih x h

/-- The first samples: their brackets are where they should be. -/
theorem samples_bracketed (hf : RoundsToNearest fl) (f : ℚ → V) {a b : ℚ} (fb : IsFloat b)
    (ha : |a| ≤ 2 ^ 22 - 2) (hb : |b| ≤ 2 ^ 22 - 2) (hab : a ≤ b) (n k : ℕ) (hk : k + 1 ≤ n + 1)
    (hd : f (sampleF fl a b n k) ≠ f (sampleF fl a b n (k + 1))) (lo hi : ℚ)
    (hlo : lo + 4 / 10 ^ 9 ≤ a + (b - a) * (k / ((n:ℚ) + 1)))
    (hhi : a + (b - a) * ((k + 1) / ((n:ℚ) + 1)) ≤ hi - 4 / 10 ^ 9) :
    Bracketed f lo hi (2 ^ 24) 0 (sampleF fl a b n k, sampleF fl a b n (k + 1)) := by
  have n0 : (0:ℚ) < (n:ℚ) + 1 := by positivity
  have fs : ∀ i, IsFloat (sampleF fl a b n i) := by
    intro i
    unfold sampleF
    split
    · exact fb
    · exact hf.float _
  have e1 := sampleF_err hf n k (by omega) (a := a) (b := b) (by linarith) (by linarith)
  have e2 := sampleF_err hf n (k + 1) hk (a := a) (b := b) (by linarith) (by linarith)
  push_cast at e2
  have s0 : 0 ≤ (b - a) / ((n:ℚ) + 1) := div_nonneg (by linarith) n0.le
  have s1 : (b - a) / ((n:ℚ) + 1) ≤ 2 ^ 23 := by
    rw [div_le_iff₀ n0]
    rw [abs_le] at ha hb
    have : (1:ℚ) ≤ (n:ℚ) + 1 := by
      have : (0:ℚ) ≤ n := by positivity
      linarith
    nlinarith
  have es : (b - a) * (((k:ℚ) + 1) / ((n:ℚ) + 1)) = (b - a) * (k / ((n:ℚ) + 1)) + (b - a) / ((n:ℚ) + 1) := by
    ring
  rw [es] at e2 hhi
  have f1 := fs k
  have f2 := fs (k + 1)
  generalize sampleF fl a b n k = P at *
  generalize sampleF fl a b n (k + 1) = Q at *
  generalize (b - a) * ((k:ℚ) / ((n:ℚ) + 1)) = x at *
  generalize (b - a) / ((n:ℚ) + 1) = y at *
  rw [abs_le] at e1 e2
  refine ⟨f1, f2, hd, ?_, ?_, ?_, ?_, ?_, ?_⟩
  all_goals simp only [Nat.cast_zero, mul_zero, sub_zero, add_zero]
  all_goals linarith

/-- Both attributes a searched function may have; a sample count is only refused when negative. -/
theorem sampleCountF_step (jd0 jd1 : ℚ) (f : Searchable ℚ V) (num : ℕ) (step : ℚ)
    (hf : RoundsToNearest fl) (hlt : jd0 < jd1) (hs : f.stepDays = some step) (hpos : 0 < step) :
    ∃ m : ℕ, sampleCountF fl jd0 jd1 f num = .ok ((m:ℤ) + 2) ∧
      (m:ℤ) = ⌊fl (fl (jd1 - jd0) / step)⌋ := by
  have h0 : 0 ≤ fl (fl (jd1 - jd0) / step) :=
    fl_nonneg hf (div_nonneg (fl_nonneg hf (by linarith)) hpos.le)
  obtain ⟨m, hm⟩ := Int.eq_ofNat_of_zero_le (Int.floor_nonneg.2 h0)
  refine ⟨m, ?_, hm.symm⟩
  unfold sampleCountF
  rw [hs]
  simp only [astypeInt_of_nonneg h0]
  rw [hm]

/-- The search, from its first samples: it ends within 55 rounds. -/
theorem search_from_samples (hf : RoundsToNearest fl) (f : ℚ → V) (epsilon : ℚ) (num : ℕ)
    (hnum : 3 ≤ num) (he : 11 / 10 ^ 9 ≤ epsilon) {a b : ℚ} (fb : IsFloat b)
    (ha : |a| ≤ 2 ^ 22 - 2) (hb : |b| ≤ 2 ^ 22 - 2) (hab : a ≤ b) (count : ℕ) :
    ∃ last : List (ℚ × ℚ),
      (∀ extra, discreteLoopF fl f epsilon num (55 + extra) (linspaceF fl a b count) =
        some (last.map fun c => (c.2, f c.2))) ∧
      (∀ c ∈ last, fl (c.2 - c.1) ≤ epsilon ∧
        ∃ W, Bracketed f (a - 4 / 10 ^ 9) (b + 4 / 10 ^ 9) W 54 c) ∧
      (∀ n k, count = n + 2 → k + 1 ≤ n + 1 → f (sampleF fl a b n k) ≠ f (sampleF fl a b n (k + 1)) →
        ∀ lo hi, -(2 ^ 22 - 1) ≤ lo → hi ≤ 2 ^ 22 - 1 → lo + 4 / 10 ^ 9 ≤ a + (b - a) * (k / ((n:ℚ) + 1)) →
          a + (b - a) * ((k + 1) / ((n:ℚ) + 1)) ≤ hi - 4 / 10 ^ 9 →
          ∃ c ∈ last, ∃ W, Bracketed f lo hi W 54 c) := by
  obtain ⟨m, rfl⟩ : ∃ m, num = m + 2 := ⟨num - 2, by omega⟩
  have whole : ∀ c ∈ changes f (linspaceF fl a b count),
      Bracketed f (a - 4 / 10 ^ 9) (b + 4 / 10 ^ 9) (2 ^ 24) 0 c := by
    intro c hc
    rcases count with _ | _ | n
    · simp [linspaceF, changes, adjacent] at hc
    · simp [linspaceF, changes, adjacent] at hc
    rw [linspaceF_eq, mem_changes, mem_adjacent_map_range] at hc
    obtain ⟨⟨k, hk, rfl⟩, hd⟩ := hc
    have n0 : (0:ℚ) < (n:ℚ) + 1 := by positivity
    refine samples_bracketed hf f fb ha hb hab n k (by omega) hd _ _ ?_ ?_
    · have : 0 ≤ (b - a) * ((k:ℚ) / ((n:ℚ) + 1)) := mul_nonneg (by linarith) (by positivity)
      linarith
    · have h1 : ((k:ℚ) + 1) / ((n:ℚ) + 1) ≤ 1 := by
        rw [div_le_one n0]; exact_mod_cast (by omega : k + 1 ≤ n + 1)
      have : (b - a) * (((k:ℚ) + 1) / ((n:ℚ) + 1)) ≤ (b - a) * 1 :=
        mul_le_mul_of_nonneg_left h1 (by linarith)
      linarith
  have hlo : -(2 ^ 22 - 1 : ℚ) ≤ a - 4 / 10 ^ 9 := by
    rw [abs_le] at ha; linarith
  have hhi : b + 4 / 10 ^ 9 ≤ (2 ^ 22 - 1 : ℚ) := by
    rw [abs_le] at hb; linarith
  obtain ⟨last, h1, h2, h3, h4⟩ := loop_ends hf f epsilon m (by omega) he (2 ^ 22 - 1) le_rfl 54 0
    (2 ^ 24) (linspaceF fl a b count) (by norm_num) (by norm_num) (by norm_num)
    (fun c hc => ⟨_, _, hlo, hhi, whole c hc⟩)
  refine ⟨last, h1, ?_, ?_⟩
  · intro c hc
    refine ⟨h2 c hc, ?_⟩
    obtain ⟨c0, hc0, h⟩ := h3 c hc
    exact h _ _ hlo hhi (whole c0 hc0)
  · rintro n k rfl hk hd lo hi l1 l2 l3 l4
    have hb' := samples_bracketed hf f fb ha hb hab n k hk hd lo hi l3 l4
    have hm : (sampleF fl a b n k, sampleF fl a b n (k + 1)) ∈ changes f (linspaceF fl a b (n + 2)) := by
      rw [linspaceF_eq, mem_changes, mem_adjacent_map_range]
      exact ⟨⟨k, by omega, rfl⟩, hd⟩
    obtain ⟨c, hc, h⟩ := h4 _ hm
    exact ⟨c, hc, h lo hi l1 l2 hb'⟩

/-- **C82 (the search ends).**  With `epsilon` no smaller than 0.95 milliseconds (the default is one
millisecond, see the example below) and `num` at least 3, a search between two times ends after at
most 55 rounds, whatever the function and however its step was chosen. -/
theorem C82_search_ends (hf : RoundsToNearest fl) (start stop : Time ℚ) (f : Searchable ℚ V)
    (epsilon step : ℚ) (num : ℕ) (hnum : 3 ≤ num) (he : 11 / 10 ^ 9 ≤ epsilon)
    (h0 : |start.ttF fl| ≤ 2 ^ 22 - 2) (h1 : |stop.ttF fl| ≤ 2 ^ 22 - 2)
    (hlt : start.ttF fl < stop.ttF fl) (hs : f.stepDays = some step) (hpos : 0 < step) :
    ∃ events, ∀ fuel, 55 ≤ fuel → findDiscreteF fl start stop f epsilon num fuel = .ok (some events) := by
  obtain ⟨m, hm, -⟩ := sampleCountF_step _ _ f num step hf hlt hs hpos
  obtain ⟨last, h, -⟩ := search_from_samples hf f.call epsilon num hnum he (b := stop.ttF fl) (hf.float _) h0 h1 hlt.le
    ((m:ℤ) + 2).toNat
  refine ⟨last.map fun c => (c.2, f.call c.2), fun fuel hfuel => ?_⟩
  unfold findDiscreteF
  simp only
  rw [if_neg (not_le.2 hlt), hm]
  have := h (fuel - 55)
  rw [show 55 + (fuel - 55) = fuel by omega] at this
  simp only [this]
  rw [if_neg (by omega)]

/-- What a search that returned has done. -/
theorem findDiscreteF_spec (hf : RoundsToNearest fl) (start stop : Time ℚ) (f : Searchable ℚ V)
    (epsilon : ℚ) (num fuel : ℕ) (hnum : 3 ≤ num) (he : 11 / 10 ^ 9 ≤ epsilon)
    (h0 : |start.ttF fl| ≤ 2 ^ 22 - 2) (h1 : |stop.ttF fl| ≤ 2 ^ 22 - 2) (events : List (ℚ × V))
    (h : findDiscreteF fl start stop f epsilon num fuel = .ok (some events)) :
    start.ttF fl < stop.ttF fl ∧ ∃ count : ℤ,
      sampleCountF fl (start.ttF fl) (stop.ttF fl) f num = .ok count ∧
      discreteLoopF fl f.call epsilon num 55 (linspaceF fl (start.ttF fl) (stop.ttF fl) count.toNat)
        = some events := by
  unfold findDiscreteF at h
  simp only at h
  by_cases hlt : start.ttF fl ≥ stop.ttF fl
  · rw [if_pos hlt] at h; cases h
  rw [if_neg hlt] at h
  push Not at hlt
  refine ⟨hlt, ?_⟩
  cases e : sampleCountF fl (start.ttF fl) (stop.ttF fl) f num with
  | error x => rw [e] at h; cases h
  | ok n =>
    rw [e] at h
    simp only at h
    by_cases hn : n < 0
    · rw [if_pos hn] at h; cases h
    rw [if_neg hn, Except.ok.injEq] at h
    refine ⟨n, rfl, ?_⟩
    obtain ⟨last, hl, -⟩ := search_from_samples hf f.call epsilon num hnum he (b := stop.ttF fl) (hf.float _) h0 h1
      hlt.le n.toNat
    have h2 := discreteLoopF_more f.call epsilon num fuel 55 _ _ h
    have h3 := hl fuel
    rw [show 55 + fuel = fuel + 55 by omega, h2] at h3
    rw [h3]
    exact hl 0

/-- **C82 (events are real).**  Every event of such a search lies between the two times, give or
take a hundredth of a second; the function has the reported value there, and at some moment at most
`epsilon` before it — or, because of rounding, at most 0.7 milliseconds after it — another value. -/
theorem C82_events_are_real (hf : RoundsToNearest fl) (start stop : Time ℚ) (f : Searchable ℚ V)
    (epsilon : ℚ) (num fuel : ℕ) (hnum : 3 ≤ num) (he : 11 / 10 ^ 9 ≤ epsilon)
    (h0 : |start.ttF fl| ≤ 2 ^ 22 - 2) (h1 : |stop.ttF fl| ≤ 2 ^ 22 - 2) (events : List (ℚ × V))
    (h : findDiscreteF fl start stop f epsilon num fuel = .ok (some events)) (t : ℚ) (v : V)
    (ht : (t, v) ∈ events) :
    start.ttF fl - 1 / 100 / 86400 ≤ t ∧ t ≤ stop.ttF fl + 1 / 100 / 86400 ∧ f.call t = v ∧
      ∃ s, f.call s ≠ v ∧ t - s ≤ epsilon * (1 + 1 / 2 ^ 52) ∧ s - t ≤ 7 / 10 / 1000 / 86400 := by
  obtain ⟨hlt, count, -, hl⟩ := findDiscreteF_spec hf start stop f epsilon num fuel hnum he h0 h1 events h
  obtain ⟨last, hl', hb, -⟩ := search_from_samples hf f.call epsilon num hnum he (b := stop.ttF fl) (hf.float _) h0 h1
    hlt.le count.toNat
  have hl0 := hl' 0
  rw [Nat.add_zero] at hl0
  rw [hl, Option.some.injEq] at hl0
  rw [hl0, List.mem_map] at ht
  obtain ⟨c, hc, e⟩ := ht
  obtain ⟨e1, e2⟩ := Prod.mk.inj e
  obtain ⟨hw, W, hbr⟩ := hb c hc
  subst e1
  have q1 := hbr.lo2
  have q2 := hbr.hi2
  have q3 := hbr.wide
  refine ⟨?_, ?_, e2, c.1, by rw [← e2]; exact hbr.differ, ?_, ?_⟩
  · push_cast at q1; norm_num at *; linarith
  · push_cast at q2; norm_num at *; linarith
  · by_contra hc'
    push Not at hc'
    have hp : 0 < c.2 - c.1 := by
      have : 0 < epsilon * (1 + 1 / 2 ^ 52) := by
        have : 0 < epsilon := by norm_num at he; linarith
        positivity
      linarith
    have := fl_rel hf (c.2 - c.1)
    rw [abs_of_pos hp, abs_le] at this
    norm_num at *
    nlinarith
  · norm_num at q3 ⊢; linarith

/-- Somewhere between two indices with different values there is a step with different values. -/
theorem exists_step (g : ℕ → V) (i j : ℕ) (hij : i < j) (h : g i ≠ g j) :
    ∃ k, i ≤ k ∧ k + 1 ≤ j ∧ g k ≠ g (k + 1) := by
  by_contra hc
  push Not at hc
  have : ∀ d, i + d ≤ j → g i = g (i + d) := by
    intro d
    induction d with
    | zero => intro _; rfl
    | succ d ih =>
      intro hd
      rw [ih (by omega)]
      exact hc (i + d) (by omega) (by omega)
  have := this (j - i) (by omega)
  rw [show i + (j - i) = j by omega] at this
  exact h this

/-- The spacing of the first samples. -/
theorem spacing_le (hf : RoundsToNearest fl) {a b step : ℚ} (hab : a < b) (ha : |a| ≤ 2 ^ 22 - 2)
    (hb : |b| ≤ 2 ^ 22 - 2) (hpos : 0 < step) (m : ℕ) (hm : (m:ℤ) = ⌊fl (fl (b - a) / step)⌋) :
    (b - a) / ((m:ℚ) + 1) ≤ step + 4 / 10 ^ 9 := by
  have m0 : (0:ℚ) < (m:ℚ) + 1 := by positivity
  have d0 : 0 < b - a := by linarith
  have d1 : b - a ≤ 2 ^ 23 := by rw [abs_le] at ha hb; linarith
  rw [div_le_iff₀ m0]
  have h1 := fl_rel hf (b - a)
  rw [abs_of_pos d0, abs_le] at h1
  have h2 := fl_rel hf (fl (b - a) / step)
  have D0 : 0 < fl (b - a) := fl_pos hf d0
  have q0 : 0 < fl (b - a) / step := div_pos D0 hpos
  rw [abs_of_pos q0, abs_le] at h2
  have h3 := Int.lt_floor_add_one (fl (fl (b - a) / step))
  rw [← hm] at h3
  push_cast at h3
  have h4 : fl (b - a) / step * (1 - 1 / 2 ^ 53) ≤ (m:ℚ) + 1 := by linarith
  have h5 : fl (b - a) * (1 - 1 / 2 ^ 53) ≤ ((m:ℚ) + 1) * step := by
    have := mul_le_mul_of_nonneg_right h4 hpos.le
    have e : fl (b - a) / step * (1 - 1 / 2 ^ 53) * step = fl (b - a) * (1 - 1 / 2 ^ 53) := by
      field_simp
    linarith
  have h6 : (b - a) * (1 - 1 / 2 ^ 53) * (1 - 1 / 2 ^ 53) ≤ ((m:ℚ) + 1) * step := by
    refine le_trans (mul_le_mul_of_nonneg_right ?_ (by norm_num)) h5
    linarith
  have m1 : (1:ℚ) ≤ (m:ℚ) + 1 := by
    have : (0:ℚ) ≤ m := by positivity
    linarith
  have h7 : b - a ≤ (b - a) * (1 - 1 / 2 ^ 53) * (1 - 1 / 2 ^ 53) + 4 / 10 ^ 9 := by
    have : (b - a) * (1 - (1 - 1 / 2 ^ 53) * (1 - 1 / 2 ^ 53)) ≤ 2 ^ 23 * (1 - (1 - 1 / 2 ^ 53) * (1 - 1 / 2 ^ 53)) :=
      mul_le_mul_of_nonneg_right d1 (by norm_num)
    norm_num at *
    linarith
  nlinarith

/-- A spell longer than the spacing contains one of the samples. -/
theorem exists_sample (hf : RoundsToNearest fl) {a b step : ℚ} (hab : a < b) (ha : |a| ≤ 2 ^ 22 - 2)
    (hb : |b| ≤ 2 ^ 22 - 2) (m : ℕ) (hsp : (b - a) / ((m:ℚ) + 1) ≤ step + 4 / 10 ^ 9) (p q : ℚ)
    (hp : a ≤ p) (hq : q ≤ b) (hpq : step + 2 / 10 ^ 8 ≤ q - p) :
    ∃ i, i ≤ m + 1 ∧ p + 4 / 10 ^ 9 ≤ a + (b - a) * (i / ((m:ℚ) + 1)) ∧
      a + (b - a) * (i / ((m:ℚ) + 1)) ≤ q - 4 / 10 ^ 9 ∧
      p ≤ sampleF fl a b m i ∧ sampleF fl a b m i ≤ q := by
  have m0 : (0:ℚ) < (m:ℚ) + 1 := by positivity
  set S := (b - a) / ((m:ℚ) + 1) with hS
  have S0 : 0 < S := div_pos (by linarith) m0
  have e : ∀ i : ℕ, (b - a) * ((i:ℚ) / ((m:ℚ) + 1)) = i * S := by intro i; rw [hS]; ring
  set i := ⌈(p + 4 / 10 ^ 9 - a) / S⌉₊ with hi
  have h1 : (p + 4 / 10 ^ 9 - a) / S ≤ i := Nat.le_ceil _
  have h0 : 0 ≤ (p + 4 / 10 ^ 9 - a) / S := div_nonneg (by linarith) S0.le
  have h2 : (i:ℚ) < (p + 4 / 10 ^ 9 - a) / S + 1 := Nat.ceil_lt_add_one h0
  rw [div_le_iff₀ S0] at h1
  have h3 : (i:ℚ) * S < (p + 4 / 10 ^ 9 - a) + S := by
    have := mul_lt_mul_of_pos_right h2 S0
    have e : ((p + 4 / 10 ^ 9 - a) / S + 1) * S = (p + 4 / 10 ^ 9 - a) + S := by field_simp
    linarith
  have h4 : a + i * S ≤ q - 4 / 10 ^ 9 := by norm_num at *; linarith
  have h5 : i ≤ m + 1 := by
    have : (i:ℚ) * S ≤ ((m:ℚ) + 1) * S := by
      have : ((m:ℚ) + 1) * S = b - a := by rw [hS]; field_simp
      rw [this]; norm_num at *; linarith
    have := le_of_mul_le_mul_right this S0
    exact_mod_cast this
  have h6 := sampleF_err hf m i h5 (a := a) (b := b) (by linarith) (by linarith)
  rw [e, abs_le] at h6
  refine ⟨i, h5, ?_, ?_, ?_, ?_⟩
  · rw [e]; linarith
  · rw [e]; linarith
  · linarith
  · linarith

/-- **C82 (no change is missed).**  If the function keeps one value for a spell at least as long as
its `step_days` (and two milliseconds more), and later another value for such a spell, the search
reports an event no earlier than the first spell and no later than the second, give or take a
hundredth of a second. -/
theorem C82_no_change_missed (hf : RoundsToNearest fl) (start stop : Time ℚ) (f : Searchable ℚ V)
    (epsilon step : ℚ) (num fuel : ℕ) (hnum : 3 ≤ num) (he : 11 / 10 ^ 9 ≤ epsilon)
    (h0 : |start.ttF fl| ≤ 2 ^ 22 - 2) (h1 : |stop.ttF fl| ≤ 2 ^ 22 - 2) (events : List (ℚ × V))
    (hs : f.stepDays = some step) (hpos : 0 < step)
    (h : findDiscreteF fl start stop f epsilon num fuel = .ok (some events))
    (p q p' q' : ℚ) (hp : start.ttF fl ≤ p) (hq : q ≤ p') (hq' : q' ≤ stop.ttF fl)
    (hpq : step + 2 / 1000 / 86400 ≤ q - p) (hpq' : step + 2 / 1000 / 86400 ≤ q' - p') (v w : V)
    (hv : ∀ x, p ≤ x → x ≤ q → f.call x = v) (hw : ∀ x, p' ≤ x → x ≤ q' → f.call x = w) (hne : v ≠ w) :
    ∃ e ∈ events, p - 1 / 100 / 86400 ≤ e.1 ∧ e.1 ≤ q' + 1 / 100 / 86400 := by
  obtain ⟨hlt, count, hcount, hl⟩ :=
    findDiscreteF_spec hf start stop f epsilon num fuel hnum he h0 h1 events h
  obtain ⟨m, hm, hfl⟩ := sampleCountF_step _ _ f num step hf hlt hs hpos
  rw [hm, Except.ok.injEq] at hcount
  subst hcount
  obtain ⟨last, hl', -, hb⟩ := search_from_samples hf f.call epsilon num hnum he (b := stop.ttF fl)
    (hf.float _) h0 h1 hlt.le ((m:ℤ) + 2).toNat
  have hl0 := hl' 0
  rw [Nat.add_zero, hl, Option.some.injEq] at hl0
  have hsp := spacing_le hf hlt h0 h1 hpos m hfl
  obtain ⟨i, i1, i2, i3, i4, i5⟩ := exists_sample hf hlt h0 h1 m hsp p q hp (by norm_num at *; linarith)
    (by norm_num at *; linarith)
  obtain ⟨j, j1, j2, j3, j4, j5⟩ := exists_sample hf hlt h0 h1 m hsp p' q' (by norm_num at *; linarith) hq'
    (by norm_num at *; linarith)
  have m0 : (0:ℚ) < (m:ℚ) + 1 := by positivity
  have d0 : 0 < stop.ttF fl - start.ttF fl := by linarith
  have hij : i < j := by
    by_contra hc
    push Not at hc
    have : (j:ℚ) / ((m:ℚ) + 1) ≤ i / ((m:ℚ) + 1) := by
      gcongr
    have := mul_le_mul_of_nonneg_left this d0.le
    norm_num at *
    linarith
  obtain ⟨k, k1, k2, k3⟩ := exists_step (fun x => f.call (sampleF fl (start.ttF fl) (stop.ttF fl) m x)) i j hij
    (by rw [hv _ i4 i5, hw _ j4 j5]; exact hne)
  have hlo : (i:ℚ) / ((m:ℚ) + 1) ≤ k / ((m:ℚ) + 1) := by gcongr
  have hhi : ((k:ℚ) + 1) / ((m:ℚ) + 1) ≤ j / ((m:ℚ) + 1) := by
    gcongr; exact_mod_cast k2
  have hlo' := mul_le_mul_of_nonneg_left hlo d0.le
  have hhi' := mul_le_mul_of_nonneg_left hhi d0.le
  rw [abs_le] at h0 h1
  obtain ⟨c, hc, W, hbr⟩ := hb m k (by omega) (by omega) k3 p q' (by linarith) (by linarith)
    (by linarith) (by linarith)
  refine ⟨(c.2, f.call c.2), ?_, ?_, ?_⟩
  · rw [hl0]; exact List.mem_map.2 ⟨c, hc, rfl⟩
  · have := hbr.lo2; push_cast at this; norm_num at *; linarith
  · have := hbr.hi2; push_cast at this; norm_num at *; linarith

/-! ### A precision the dates do not have -/

/-- A list that starts before `c` and ends at or after it steps over `c` somewhere. -/
theorem exists_upcrossing (c : ℚ) (l : List ℚ) (x y : ℚ) (hx : l.head? = some x)
    (hy : l.getLast? = some y) (h1 : x < c) (h2 : c ≤ y) : ∃ p ∈ adjacent l, p.1 < c ∧ c ≤ p.2 := by
  induction l generalizing x with
  | nil => simp at hx
  | cons a l ih =>
    simp only [List.head?_cons, Option.some.injEq] at hx
    subst hx
    cases l with
    | nil =>
      simp only [List.getLast?_singleton, Option.some.injEq] at hy
      subst hy; linarith
    | cons b l =>
      by_cases hb : b < c
      · obtain ⟨p, hp, h⟩ := ih b (by simp) (by simpa using hy) hb
        exact ⟨p, by rw [adjacent_cons_cons]; exact List.mem_cons_of_mem _ hp, h⟩
      · exact ⟨(a, b), by rw [adjacent_cons_cons]; simp, h1, not_lt.1 hb⟩

theorem adjacent_flatMap {α β : Type*} (P : α → List β) (l : List α) (a : α) (ha : a ∈ l) (p : β × β)
    (hp : p ∈ adjacent (P a)) : p ∈ adjacent (l.flatMap P) := by
  induction l with
  | nil => simp at ha
  | cons b l ih =>
    rw [List.flatMap_cons, mem_adjacent_append]
    rcases List.mem_cons.1 ha with rfl | ha
    · left; exact hp
    · right; left; exact ih ha

/-- The loop goes on for ever. -/
theorem loop_never_ends (hf : RoundsToNearest fl) (c : ℚ) (hc : 2 ^ 21 + 1 ≤ c) (u v : V) (huv : u ≠ v)
    (epsilon : ℚ) (he : epsilon < 1 / 2 ^ 31) (n : ℕ) (fuel : ℕ) (jd : List ℚ) (h : ∀ x ∈ jd, IsFloat x)
    (p : ℚ × ℚ) (hp : p ∈ adjacent jd) (h1 : p.1 < c) (h2 : c ≤ p.2) :
    discreteLoopF fl (fun x => if x < c then u else v) epsilon (n + 2) fuel jd = none := by
  induction fuel generalizing jd p with
  | zero => rfl
  | succ fuel ih =>
    set f : ℚ → V := fun x => if x < c then u else v with hfdef
    have hmem : p ∈ changes f jd := by
      rw [mem_changes]
      refine ⟨hp, ?_⟩
      simp only [hfdef]
      rw [if_pos h1, if_neg (not_lt.2 h2)]
      exact huv
    have fp := adjacent_mem hp
    have f1 := h _ fp.1
    have f2 := h _ fp.2
    have hw : 1 / 2 ^ 31 ≤ p.2 - p.1 := by
      by_cases hs : p.1 < 2 ^ 21
      · have : (1:ℚ) / 2 ^ 31 ≤ 1 := by norm_num
        linarith
      push Not at hs
      obtain ⟨k, hk⟩ := float_multiple f1 (e := 21) (by
        rw [abs_of_nonneg (by norm_num at hs; linarith)]; exact_mod_cast hs)
      obtain ⟨j, hj⟩ := float_multiple f2 (e := 21) (by
        rw [abs_of_nonneg (by norm_num at hs; linarith)]
        have : (2:ℚ) ^ 21 ≤ p.2 := by linarith
        exact_mod_cast this)
      have e : (2:ℚ) ^ ((21:ℤ) - 52) = 1 / 2 ^ 31 := by norm_num
      rw [e] at hk hj
      have hlt : p.1 < p.2 := lt_of_lt_of_le h1 h2
      have : k < j := by
        rw [hk, hj] at hlt
        have := lt_of_mul_lt_mul_right hlt (by norm_num)
        exact_mod_cast this
      have : (k:ℚ) + 1 ≤ j := by exact_mod_cast this
      rw [hk, hj, ← sub_mul]
      nlinarith [show (0:ℚ) < 1 / 2 ^ 31 by norm_num]
    have hfl : epsilon < fl (p.2 - p.1) := by
      refine lt_of_lt_of_le he (le_fl hf hw ?_)
      have := isFloat_of_le (m := 1) (e := -31) (by norm_num)
      norm_num at this ⊢
      exact this
    unfold discreteLoopF
    rcases discreteRoundF_inr (fl := fl) f epsilon (n + 2) jd _ rfl with ⟨-, hall⟩ | ⟨hr, -⟩
    · exact absurd (hall p hmem) (not_le.2 hfl)
    · rw [hr]
      simp only
      obtain ⟨e1, e2⟩ := bracketPointsF_ends hf n p f1 f2
      obtain ⟨p', hp', h1', h2'⟩ := exists_upcrossing c _ _ _ e1 e2 h1 h2
      refine ih _ ?_ p' (adjacent_flatMap _ _ p hmem _ hp') h1' h2'
      intro x hx
      rw [List.mem_flatMap] at hx
      obtain ⟨b, -, hx⟩ := hx
      rw [bracketPointsF_eq hf, List.mem_map] at hx
      obtain ⟨i, -, rfl⟩ := hx
      exact hf.float _

/-- **C82 (finding).**  A search for one change of value, at any moment after the year 1029, never
ends when `epsilon` is below 2⁻³¹ of a day — 40 microseconds: neighbouring values of `t.tt` are
farther apart than that. -/
theorem C82_too_fine_never_ends (hf : RoundsToNearest fl) (start stop : Time ℚ) (f : Searchable ℚ V)
    (epsilon step : ℚ) (num : ℕ) (hnum : 2 ≤ num) (he : epsilon < 1 / 2 ^ 31) (c : ℚ) (u v : V)
    (huv : u ≠ v) (hcall : f.call = fun x => if x < c then u else v) (hc : 2 ^ 21 + 1 ≤ c)
    (h0 : start.ttF fl < c) (h1 : c ≤ stop.ttF fl) (hs : f.stepDays = some step) (hpos : 0 < step)
    (fuel : ℕ) : findDiscreteF fl start stop f epsilon num fuel = .ok none := by
  have hlt : start.ttF fl < stop.ttF fl := lt_of_lt_of_le h0 h1
  obtain ⟨n, rfl⟩ : ∃ n, num = n + 2 := ⟨num - 2, by omega⟩
  obtain ⟨m, hm, -⟩ := sampleCountF_step _ _ f (n + 2) step hf hlt hs hpos
  unfold findDiscreteF
  simp only
  rw [if_neg (not_le.2 hlt), hm]
  simp only
  rw [if_neg (by omega), hcall, show ((m:ℤ) + 2).toNat = m + 2 by omega, linspaceF_eq]
  have fs : ∀ i, IsFloat (sampleF fl (start.ttF fl) (stop.ttF fl) m i) := by
    intro i
    unfold sampleF
    split
    · exact hf.float _
    · exact hf.float _
  have e1 : ((List.range (m + 2)).map (sampleF fl (start.ttF fl) (stop.ttF fl) m)).head?
      = some (start.ttF fl) := by
    rw [List.range_succ_eq_map, List.map_cons, List.head?_cons]
    unfold sampleF
    rw [if_neg (by omega)]
    simp only [Nat.cast_zero, zero_mul, fl_zero hf, zero_add]
    rw [fl_exact hf (x := start.ttF fl) (hf.float _)]
  have e2 : ((List.range (m + 2)).map (sampleF fl (start.ttF fl) (stop.ttF fl) m)).getLast?
      = some (stop.ttF fl) := by
    rw [List.range_succ, List.map_append, List.getLast?_append]
    simp [sampleF]
  obtain ⟨p, hp, p1, p2⟩ := exists_upcrossing c _ _ _ e1 e2 h0 h1
  rw [loop_never_ends hf c hc u v huv epsilon he n fuel _ ?_ p hp p1 p2]
  intro x hx
  rw [List.mem_map] at hx
  obtain ⟨i, -, rfl⟩ := hx
  exact fs i

/-! ### The hypotheses can be met -/

/-- A search of one day for a change at noon, with the default precision. -/
example (hf : RoundsToNearest fl) :
    let start : Time ℚ := { ts := exampleTs, whole := 2451545, ttFraction := 0 }
    let stop : Time ℚ := { ts := exampleTs, whole := 2451546, ttFraction := 0 }
    |start.ttF fl| ≤ 2 ^ 22 - 2 ∧ |stop.ttF fl| ≤ 2 ^ 22 - 2 ∧ start.ttF fl < stop.ttF fl ∧
      start.ttF fl < 4903091 / 2 ∧ 4903091 / 2 ≤ stop.ttF fl ∧ (2:ℚ) ^ 21 + 1 ≤ 4903091 / 2 ∧
      (11:ℚ) / 10 ^ 9 ≤ 1 / 1000 / 86400 := by
  have h1 : fl 2451545 = 2451545 := by
    have := fl_int hf (n := 2451545) (by norm_num); exact_mod_cast this
  have h2 : fl 2451546 = 2451546 := by
    have := fl_int hf (n := 2451546) (by norm_num); exact_mod_cast this
  simp only [Time.ttF, add_zero, h1, h2]
  norm_num [abs_le]

/-- … and the two spells of `C82_no_change_missed`, for steps of a tenth of a day. -/
example (x : ℚ) : (2451545 ≤ x → x ≤ 2451545 + 2 / 5 → (if x < 4903091 / 2 then 0 else 1) = 0) ∧
    (4903091 / 2 ≤ x → x ≤ 2451546 → (if x < 4903091 / 2 then 0 else 1) = 1) ∧
    (1 / 10 + 2 / 1000 / 86400 : ℚ) ≤ (2451545 + 2 / 5) - 2451545 ∧
    (1 / 10 + 2 / 1000 / 86400 : ℚ) ≤ 2451546 - 4903091 / 2 := by
  refine ⟨fun _ h => if_pos (by linarith), fun h _ => if_neg (not_lt.2 h), by norm_num, by norm_num⟩

end Skyfield
