import Verif.Lemmas.FloatMaxima
import Verif.Props.FloatSearch

/-
C105: `find_maxima` and `find_minima` with the rounding of every floating point operation.

`findMaximaF fl start stop f epsilon num fuel` is the search of `f` between two times, as the machine
computes it when `fl` is its rounding; `.ok (some (some found))` says that it returned `found` (TT
Julian dates and values) within `fuel` rounds.
-/
namespace Skyfield
open Spec
set_option linter.unusedSectionVars false

variable {fl : ℚ → ℚ}

/-- A search whose numbers are ordinary: dates before the year 5691, at most a million days and at least
0.09 seconds apart, steps of at least as much, and a precision `epsilon` of at least `num` times 0.9
milliseconds — for the default 12 samples, of 10 milliseconds; the default is one second. -/
structure OrdinarySearch (fl : ℚ → ℚ) (start stop : Time ℚ) (f : Searchable ℚ ℚ) (epsilon : ℚ) (num : ℕ) : Prop where
  early : |start.ttF fl| ≤ 3800000
  late : |stop.ttF fl| ≤ 3800000
  long : 1 / 10 ^ 6 ≤ stop.ttF fl - start.ttF fl
  short : stop.ttF fl - start.ttF fl ≤ 10 ^ 6
  three : 3 ≤ num
  fine : (num:ℚ) / 10 ^ 8 ≤ epsilon
  float : IsFloat epsilon
  step : ∀ s, f.stepDays = some s → 1 / 10 ^ 6 ≤ s
  rough : f.stepDays = none → ∃ r, f.roughPeriod = some r ∧ num / 10 ^ 6 ≤ r ∧ r ≤ num * 10 ^ 5

/-- With steps not too short there are not too many of them. -/
theorem count_spacing (hf : RoundsToNearest fl) {D step : ℚ} (hD : 1 / 10 ^ 6 ≤ D) (hs : 9 / 10 ^ 7 ≤ step) (m : ℕ)
    (hm : (m:ℤ) = ⌊fl (fl D / step)⌋) : 1 / 10 ^ 7 * ((m:ℚ) + 4) ≤ D := by
  have D0 : 0 < D := by norm_num at hD; linarith
  have s0 : 0 < step := by norm_num at hs; linarith
  have h1 := fl_rel hf D
  rw [abs_of_pos D0, abs_le] at h1
  have q0 : 0 < fl D / step := div_pos (fl_pos hf D0) s0
  have h2 := fl_rel hf (fl D / step)
  rw [abs_of_pos q0, abs_le] at h2
  have h3 := Int.floor_le (fl (fl D / step))
  rw [← hm] at h3
  push_cast at h3
  have h4 : (m:ℚ) ≤ fl D / step * (1 + 1 / 2 ^ 53) := by linarith
  have h5 : (m:ℚ) * step ≤ fl D * (1 + 1 / 2 ^ 53) := by
    have := mul_le_mul_of_nonneg_right h4 s0.le
    have e : fl D / step * (1 + 1 / 2 ^ 53) * step = fl D * (1 + 1 / 2 ^ 53) := by field_simp
    linarith
  have h6 : (m:ℚ) * step ≤ 11 / 10 * D := by norm_num at *; linarith
  have m0 : (0:ℚ) ≤ m := by positivity
  have h7 : (m:ℚ) * (9 / 10 ^ 7) ≤ m * step := mul_le_mul_of_nonneg_left hs m0
  norm_num at *
  linarith

/-- The first samples. -/
theorem maximaSamplesF_ok (hf : RoundsToNearest fl) {start stop : Time ℚ} {f : Searchable ℚ ℚ} {epsilon : ℚ} {num : ℕ}
    (h : OrdinarySearch fl start stop f epsilon num) :
    ∃ a b n, maximaSamplesF fl (start.ttF fl) (stop.ttF fl) f num = .ok (linspaceF fl a b (n + 2)) ∧ IsFloat b ∧
      |a| ≤ 2 ^ 22 - 2 ∧ |b| ≤ 2 ^ 22 - 2 ∧ a ≤ start.ttF fl ∧ stop.ttF fl ≤ b ∧ 1 / 10 ^ 7 ≤ (b - a) / ((n:ℚ) + 1) ∧
      ∀ s, f.stepDays = some s → (b - a) / ((n:ℚ) + 1) ≤ s + 4 / 10 ^ 9 := by
  have f0 : IsFloat (start.ttF fl) := hf.float _
  have f1 : IsFloat (stop.ttF fl) := hf.float _
  obtain ⟨e0, e1, hl, hsh, h3, -, -, hst, hro⟩ := h
  generalize start.ttF fl = jd0 at *
  generalize stop.ttF fl = jd1 at *
  have D0 : 0 < jd1 - jd0 := by norm_num at hl; linarith
  have num0 : (0:ℚ) < num := by
    have : 0 < num := by omega
    exact_mod_cast this
  unfold maximaSamplesF
  rw [if_neg (by linarith)]
  cases hsd : f.stepDays with
  | some step =>
    have hs := hst step hsd
    have s0 : 0 < step := by norm_num at hs; linarith
    have q0 : 0 ≤ fl (fl (jd1 - jd0) / step) := fl_nonneg hf (div_nonneg (fl_nonneg hf D0.le) s0.le)
    obtain ⟨m, hm⟩ := Int.eq_ofNat_of_zero_le (Int.floor_nonneg.2 q0)
    simp only [astypeInt_of_nonneg q0, hm]
    rw [if_neg (by omega), show ((m:ℤ) + 3 + 2).toNat = m + 3 + 2 by omega]
    have hcount := count_spacing hf hl (by norm_num at *; linarith) m hm.symm
    have hspace := spacing_le hf (a := jd0) (b := jd1) (by linarith) (by linarith) (by linarith) s0 m hm.symm
    have m3 : (0:ℚ) < (m:ℚ) + 3 := by positivity
    have c : (((m:ℤ) + 3 : ℤ) : ℚ) = (m:ℚ) + 3 := by push_cast; ring
    rw [c]
    -- the real step
    have r0 : 0 ≤ fl (fl (jd1 - jd0) / ((m:ℚ) + 3)) := fl_nonneg hf (div_nonneg (fl_nonneg hf D0.le) m3.le)
    have d1 := fl_err hf (x := jd1 - jd0) (B := 10 ^ 6) (by rw [abs_of_pos D0]; exact hsh)
    have d2 : fl (jd1 - jd0) / ((m:ℚ) + 3) ≤ (jd1 - jd0) / ((m:ℚ) + 3) + 1 / 10 ^ 9 := by
      rw [div_le_iff₀ m3, add_mul, div_mul_cancel₀ _ m3.ne']
      have m0 : (0:ℚ) ≤ m := by positivity
      rw [abs_le] at d1
      have := d1.2
      norm_num at *
      linarith
    have third : (jd1 - jd0) / ((m:ℚ) + 3) ≤ 10 ^ 6 / 3 := by
      refine div_le_div₀ (by norm_num) hsh (by norm_num) ?_
      have m0 : (0:ℚ) ≤ m := by positivity
      linarith
    have x0 : 0 ≤ fl (jd1 - jd0) / ((m:ℚ) + 3) := div_nonneg (fl_nonneg hf D0.le) m3.le
    have d3 := fl_err hf (x := fl (jd1 - jd0) / ((m:ℚ) + 3)) (B := 10 ^ 6) (by
      rw [abs_of_nonneg x0]; norm_num at *; linarith)
    generalize fl (fl (jd1 - jd0) / ((m:ℚ) + 3)) = rs at *
    have hrs : rs ≤ (jd1 - jd0) / ((m:ℚ) + 3) + 2 / 10 ^ 9 := by
      rw [abs_le] at d3
      have := d3.2
      norm_num at *
      linarith
    rw [abs_le] at e0 e1
    have hrs2 : rs ≤ 333334 := by norm_num at *; linarith
    have a1 : fl (jd0 - rs) ≤ jd0 := fl_le hf (by linarith) f0
    have b1 : jd1 ≤ fl (jd1 + rs) := le_fl hf (by linarith) f1
    have a2 := fl_err hf (x := jd0 - rs) (B := 2 ^ 22) (abs_le.2 ⟨by norm_num at *; linarith, by norm_num at *; linarith⟩)
    have b2 := fl_err hf (x := jd1 + rs) (B := 2 ^ 22) (abs_le.2 ⟨by norm_num at *; linarith, by norm_num at *; linarith⟩)
    rw [abs_le] at a2 b2
    refine ⟨fl (jd0 - rs), fl (jd1 + rs), m + 3, rfl, hf.float _, ?_, ?_, a1, b1, ?_, ?_⟩
    · obtain ⟨a2, a3⟩ := a2
      rw [abs_le]; norm_num at *; constructor <;> linarith
    · obtain ⟨b2, b3⟩ := b2
      rw [abs_le]; norm_num at *; constructor <;> linarith
    · have e : (((m + 3 : ℕ) : ℚ) + 1) = (m:ℚ) + 4 := by push_cast; ring
      rw [e, le_div_iff₀ (by positivity)]
      linarith
    · intro s e
      rw [Option.some.injEq] at e
      subst e
      have e : (((m + 3 : ℕ) : ℚ) + 1) = (m:ℚ) + 4 := by push_cast; ring
      have m0 : (0:ℚ) ≤ m := by positivity
      have m4 : (0:ℚ) < (m:ℚ) + 4 := by linarith
      rw [e, div_le_iff₀ m4]
      have hba : fl (jd1 + rs) - fl (jd0 - rs) ≤ (jd1 - jd0) + 2 * ((jd1 - jd0) / ((m:ℚ) + 3)) + 5 / 10 ^ 9 := by
        have a3 := a2.1
        have b3 := b2.2
        norm_num at *
        linarith
      rw [div_le_iff₀ (by linarith)] at hspace
      refine hba.trans ?_
      have key : 2 * ((jd1 - jd0) / ((m:ℚ) + 3)) ≤ 2 * (step + 4 / 10 ^ 9) - 4 * (step + 4 / 10 ^ 9) / ((m:ℚ) + 3) := by
        have : (jd1 - jd0) / ((m:ℚ) + 3) ≤ ((step + 4 / 10 ^ 9) * ((m:ℚ) + 1)) / ((m:ℚ) + 3) :=
          div_le_div_of_nonneg_right hspace m3.le
        have e2 : ((step + 4 / 10 ^ 9) * ((m:ℚ) + 1)) / ((m:ℚ) + 3) =
            (step + 4 / 10 ^ 9) - 2 * (step + 4 / 10 ^ 9) / ((m:ℚ) + 3) := by field_simp; ring
        rw [e2] at this
        have e3 : 4 * (step + 4 / 10 ^ 9) / ((m:ℚ) + 3) = 2 * (2 * (step + 4 / 10 ^ 9) / ((m:ℚ) + 3)) := by ring
        linarith
      have pos : 0 ≤ 4 * (step + 4 / 10 ^ 9) / ((m:ℚ) + 3) := by positivity
      norm_num at *
      nlinarith
  | none =>
    obtain ⟨r, hr, r1, r2⟩ := hro hsd
    simp only [hr]
    have p0 : 0 < r / num := by
      refine div_pos (lt_of_lt_of_le ?_ r1) num0
      positivity
    have b1 : 1 / 10 ^ 6 ≤ r / num := by rw [le_div_iff₀ num0]; linarith
    have b2 : r / num ≤ 10 ^ 5 := by rw [div_le_iff₀ num0]; linarith
    have hb := fl_rel hf (r / num)
    rw [abs_of_pos p0, abs_le] at hb
    have bump0 : 0 < fl (r / num) := fl_pos hf p0
    have c1 : 9 / 10 ^ 7 ≤ fl (r / num) := by obtain ⟨hb, -⟩ := hb; norm_num at *; linarith
    have c2 : fl (r / num) ≤ 10 ^ 5 + 1 := by obtain ⟨-, hb⟩ := hb; norm_num at *; linarith
    generalize fl (r / num) = bump at *
    have q0 : 0 ≤ fl (fl (jd1 - jd0) / bump) := fl_nonneg hf (div_nonneg (fl_nonneg hf D0.le) bump0.le)
    obtain ⟨m, hm⟩ := Int.eq_ofNat_of_zero_le (Int.floor_nonneg.2 q0)
    simp only [astypeInt_of_nonneg q0, hm]
    rw [if_neg (by omega), show ((m:ℤ) + 3).toNat = m + 1 + 2 by omega]
    have hcount := count_spacing hf hl c1 m hm.symm
    rw [abs_le] at e0 e1
    have a1 : fl (jd0 - bump) ≤ jd0 := fl_le hf (by linarith) f0
    have b1 : jd1 ≤ fl (jd1 + bump) := le_fl hf (by linarith) f1
    have a2 := fl_err hf (x := jd0 - bump) (B := 2 ^ 22) (abs_le.2 ⟨by norm_num at *; linarith, by norm_num at *; linarith⟩)
    have b2 := fl_err hf (x := jd1 + bump) (B := 2 ^ 22) (abs_le.2 ⟨by norm_num at *; linarith, by norm_num at *; linarith⟩)
    rw [abs_le] at a2 b2
    refine ⟨fl (jd0 - bump), fl (jd1 + bump), m + 1, rfl, hf.float _, ?_, ?_, a1, b1, ?_, ?_⟩
    · obtain ⟨a2, a3⟩ := a2
      rw [abs_le]; norm_num at *; constructor <;> linarith
    · obtain ⟨b2, b3⟩ := b2
      rw [abs_le]; norm_num at *; constructor <;> linarith
    · have e : (((m + 1 : ℕ) : ℚ) + 1) = (m:ℚ) + 2 := by push_cast; ring
      rw [e, le_div_iff₀ (by positivity)]
      linarith
    · intro s e; cases e

/-- The search from its first samples. -/
theorem findMaximaF_from (hf : RoundsToNearest fl) {start stop : Time ℚ} {f : Searchable ℚ ℚ} {epsilon : ℚ} {num : ℕ}
    (h : OrdinarySearch fl start stop f epsilon num) :
    ∃ (a b : ℚ) (n : ℕ) (found : List (ℚ × ℚ)) (samples : List ℚ), (∀ extra, findMaximaF fl start stop f epsilon num (50 + extra) = .ok (some (some found))) ∧
      |a| ≤ 2 ^ 22 - 2 ∧ |b| ≤ 2 ^ 22 - 2 ∧ a ≤ start.ttF fl ∧ stop.ttF fl ≤ b ∧
      (∀ s, f.stepDays = some s → (b - a) / ((n:ℚ) + 1) ≤ s + 4 / 10 ^ 9) ∧
      (linspaceF fl a b (n + 2)).Pairwise (· < ·) ∧
      samples.Pairwise (· < ·) ∧ (∀ x ∈ samples, IsFloat x) ∧ (∀ x ∈ samples, |x| ≤ 2 ^ 22) ∧
      (found = [] ∨ found = reportF fl f.call (start.ttF fl) (stop.ttF fl) epsilon samples) ∧
      ∀ u v w, u ∈ linspaceF fl a b (n + 2) → v ∈ linspaceF fl a b (n + 2) → w ∈ linspaceF fl a b (n + 2) →
        u < v → v < w → f.call u < f.call v → f.call w < f.call v →
        found = reportF fl f.call (start.ttF fl) (stop.ttF fl) epsilon samples ∧
        ∃ u' v' w', u' ∈ samples ∧ v' ∈ samples ∧ w' ∈ samples ∧ u ≤ u' ∧ u' < v' ∧ v' < w' ∧ w' ≤ w ∧
          f.call u' < f.call v' ∧ f.call w' < f.call v' ∧ f.call v ≤ f.call v' := by
  obtain ⟨a, b, n, e, fb, ha, hb, a0, b0, hw, hst⟩ := maximaSamplesF_ok hf h
  have hsp := samples_spaced hf f.call fb ha hb n hw
  obtain ⟨m, hm⟩ : ∃ m, num = m + 2 := ⟨num - 2, by have := h.three; omega⟩
  have hm1 : 1 ≤ m := by have := h.three; omega
  have hfine := h.fine
  rw [hm] at hfine
  push_cast at hfine
  have hW : (b - a) / ((n:ℚ) + 1) ≤ 2 ^ 49 * (2 / 10 ^ 8) := by
    have n0 : (0:ℚ) ≤ n := by positivity
    rw [abs_le] at ha hb
    have : (b - a) / ((n:ℚ) + 1) ≤ b - a := div_le_self (by
      have := h.long
      norm_num at this
      linarith) (by linarith)
    norm_num at *
    linarith
  obtain ⟨found, samples, s1, s2, s3, s4, s5, s6⟩ := maximaLoopF_spec hf f.call (start.ttF fl) (stop.ttF fl) epsilon m hm1
    hfine 49 _ _ hsp hW
  refine ⟨a, b, n, found, samples, ?_, ha, hb, a0, b0, hst, hsp.sorted, s2, s3, s4, s5, s6⟩
  intro extra
  unfold findMaximaF
  rw [e]
  simp only [Except.ok.injEq]
  rw [hm]
  exact s1 extra

/-- **C105 (the search ends).**  An ordinary search for maxima returns after at most 50 rounds. -/
theorem C105_ends (hf : RoundsToNearest fl) (start stop : Time ℚ) (f : Searchable ℚ ℚ) (epsilon : ℚ) (num : ℕ)
    (h : OrdinarySearch fl start stop f epsilon num) :
    ∃ found, ∀ fuel, 50 ≤ fuel → findMaximaF fl start stop f epsilon num fuel = .ok (some (some found)) := by
  obtain ⟨-, -, -, found, -, h1, -⟩ := findMaximaF_from hf h
  refine ⟨found, fun fuel hfuel => ?_⟩
  have := h1 (fuel - 50)
  rwa [show 50 + (fuel - 50) = fuel by omega] at this

/-- More rounds do not change an answer. -/
theorem findMaximaF_more (start stop : Time ℚ) (f : Searchable ℚ ℚ) (epsilon : ℚ) (num fuel extra : ℕ)
    (found : List (ℚ × ℚ)) (h : findMaximaF fl start stop f epsilon num fuel = .ok (some (some found))) :
    findMaximaF fl start stop f epsilon num (fuel + extra) = .ok (some (some found)) := by
  have loop : ∀ (k : ℕ) (jd : List ℚ) r,
      maximaLoopF fl f.call (start.ttF fl) (stop.ttF fl) epsilon num k jd = some r →
      maximaLoopF fl f.call (start.ttF fl) (stop.ttF fl) epsilon num (k + extra) jd = some r := by
    intro k
    induction k with
    | zero => intro jd r h; simp [maximaLoopF] at h
    | succ k ih =>
      intro jd r h
      rw [show k + 1 + extra = (k + extra) + 1 by omega]
      rw [maximaLoopF] at h ⊢
      cases e : maximaRoundF fl f.call (start.ttF fl) (stop.ttF fl) epsilon num jd with
      | none => rw [e] at h; exact h
      | some x =>
        rw [e] at h
        cases x with
        | inl x => exact h
        | inr x => exact ih x r h
  unfold findMaximaF at h ⊢
  cases e : maximaSamplesF fl (start.ttF fl) (stop.ttF fl) f num with
  | error x => rw [e] at h; cases h
  | ok jd =>
    rw [e] at h
    simp only [Except.ok.injEq] at h ⊢
    exact loop fuel jd _ h

/-- What looks like a maximum lies between two lower moments. -/
theorem looksLike_between (hf : RoundsToNearest fl) (f : ℚ → ℚ) (samples : List ℚ) (hs : samples.Pairwise (· < ·))
    (hfl : ∀ x ∈ samples, IsFloat x) (hsm : ∀ x ∈ samples, |x| ≤ 2 ^ 22) (t v : ℚ)
    (h : LooksLikeMaximumWith (fun a b => fl (fl (a + b) / 2)) f samples t v) :
    ∃ a b m, a < t ∧ t < b ∧ f a < v ∧ f b < v ∧ a < m ∧ m < b ∧ f m = v ∧ (t = m ∨ |t - (a + b) / 2| ≤ 1 / 10 ^ 9) := by
  obtain ⟨i, j, a, b, ha, hb, hij, h1, h2, h3, h4⟩ := h
  obtain ⟨li, rfl⟩ := seq_of_get ha
  obtain ⟨lj, rfl⟩ := seq_of_get hb
  have hm := seq_get (show i + 1 < samples.length by omega)
  have m1 : seq samples i < seq samples (i + 1) := seq_lt hs (by omega) (by omega)
  have m2 : seq samples (i + 1) < seq samples j := seq_lt hs (by omega) lj
  have m3 := h3 (i + 1) _ (by omega) (by omega) hm
  rcases h4 with ⟨rfl, hti⟩ | ⟨-, e⟩
  · obtain ⟨-, rfl⟩ := seq_of_get hti
    exact ⟨_, _, _, m1, m2, h1, h2, m1, m2, m3, Or.inl rfl⟩
  · obtain ⟨g1, g2, g3⟩ := midF hf (hfl _ (seq_mem (show i + 1 < samples.length by omega))) m1 m2
      (hsm _ (seq_mem li)) (hsm _ (seq_mem lj))
    refine ⟨seq samples i, seq samples j, _, ?_, ?_, h1, h2, m1, m2, m3, Or.inr ?_⟩
    · rw [e]; exact g1
    · rw [e]; exact g2
    · rw [e]; exact g3

/-- **C105 (maxima are real).**  The maxima an ordinary search reports lie between the two times — exactly, no
rounding shifts them outside —, in increasing order with any two more than `epsilon` apart.  Each is strictly
between two moments at which the function is strictly lower than the reported value, which the function has at a
moment between these two: at the reported time itself, unless that is, to a ten thousandth of a second, the middle
of the two moments, a level stretch. -/
theorem C105_maxima (hf : RoundsToNearest fl) (start stop : Time ℚ) (f : Searchable ℚ ℚ) (epsilon : ℚ) (num fuel : ℕ)
    (ho : OrdinarySearch fl start stop f epsilon num) (found : List (ℚ × ℚ))
    (h : findMaximaF fl start stop f epsilon num fuel = .ok (some (some found))) :
    (∀ e ∈ found, start.ttF fl ≤ e.1 ∧ e.1 ≤ stop.ttF fl) ∧ found.Pairwise (fun a b => epsilon < b.1 - a.1) ∧
      ∀ t v, (t, v) ∈ found → ∃ a b m, a < t ∧ t < b ∧ f.call a < v ∧ f.call b < v ∧ a < m ∧ m < b ∧ f.call m = v ∧
        (t = m ∨ |t - (a + b) / 2| ≤ 1 / 10000 / 86400) := by
  obtain ⟨a, b, n, found', samples, s1, -, -, -, -, -, -, s2, s3, s4, s5, -⟩ := findMaximaF_from hf ho
  have e1 := findMaximaF_more start stop f epsilon num fuel 50 found h
  have e2 := s1 fuel
  rw [show 50 + fuel = fuel + 50 by omega, e1] at e2
  simp only [Except.ok.injEq, Option.some.injEq] at e2
  subst e2
  have hmem : ∀ e ∈ found, (start.ttF fl ≤ e.1 ∧ e.1 ≤ stop.ttF fl) ∧
      LooksLikeMaximumWith (fun a b => fl (fl (a + b) / 2)) f.call samples e.1 e.2 := by
    intro e he
    rcases s5 with rfl | rfl
    · simp at he
    · have := mem_dropCloseF _ _ _ he
      rw [List.mem_filter] at this
      refine ⟨by simpa using this.2, ?_⟩
      rw [← mem_identifyMaximaWith]
      exact this.1
  refine ⟨fun e he => (hmem e he).1, ?_, ?_⟩
  · rcases s5 with rfl | rfl
    · exact List.Pairwise.nil
    · exact dropCloseF_apart hf _ ho.float _ (List.Pairwise.filter _ (identifyMaximaWith_sorted _ _))
  · intro t v htv
    obtain ⟨a, b, m, g1, g2, g3, g4, g5, g6, g7, g8⟩ := looksLike_between hf f.call samples s2 s3 s4 t v (hmem _ htv).2
    refine ⟨a, b, m, g1, g2, g3, g4, g5, g6, g7, g8.imp id fun g => g.trans (by norm_num)⟩

/-- **C105 (no maximum is missed).**  If the function is below some value `c` for a spell at least as long as its
`step_days` and two milliseconds more, then for such a spell at least `c`, then for such a spell below `c` again, all
between the two times, then the search sees a maximum of at least `c` strictly between the beginning of the first
spell and the end of the last.  It is reported, unless the search saw another one within the two times and at most
`epsilon` (but for rounding) before it; so something is reported.  What the search sees as maxima is told by `last`,
its last samples: of these one or more in a row have the reported value and those next to them on either side are
lower. -/
theorem C105_no_maximum_missed (hf : RoundsToNearest fl) (start stop : Time ℚ) (f : Searchable ℚ ℚ) (epsilon step : ℚ)
    (num fuel : ℕ) (ho : OrdinarySearch fl start stop f epsilon num) (hs : f.stepDays = some step) (found : List (ℚ × ℚ))
    (h : findMaximaF fl start stop f epsilon num fuel = .ok (some (some found))) (c p q p' q' p'' q'' : ℚ)
    (hp : start.ttF fl ≤ p) (hq : q ≤ p') (hq' : q' ≤ p'') (hq'' : q'' ≤ stop.ttF fl)
    (h1 : step + 2 / 1000 / 86400 ≤ q - p) (h2 : step + 2 / 1000 / 86400 ≤ q' - p') (h3 : step + 2 / 1000 / 86400 ≤ q'' - p'')
    (l1 : ∀ x, p ≤ x → x ≤ q → f.call x < c) (l2 : ∀ x, p' ≤ x → x ≤ q' → c ≤ f.call x)
    (l3 : ∀ x, p'' ≤ x → x ≤ q'' → f.call x < c) :
    found ≠ [] ∧ ∃ last t val, LooksLikeMaximumWith (fun a b => fl (fl (a + b) / 2)) f.call last t val ∧
      p < t ∧ t < q'' ∧ c ≤ val ∧
      ((t, val) ∈ found ∨ ∃ t' val', LooksLikeMaximumWith (fun a b => fl (fl (a + b) / 2)) f.call last t' val' ∧
        start.ttF fl ≤ t' ∧ t' ≤ t ∧ t - t' ≤ epsilon * (1 + 1 / 2 ^ 52)) := by
  obtain ⟨a, b, n, found', last, s1, ha, hb, a0, b0, hsp, hsorted, s2, s3, s4, -, s6⟩ := findMaximaF_from hf ho
  have e1 := findMaximaF_more start stop f epsilon num fuel 50 found h
  have e2 := s1 fuel
  rw [show 50 + fuel = fuel + 50 by omega, e1] at e2
  simp only [Except.ok.injEq, Option.some.injEq] at e2
  subst e2
  have hab : a < b := by have := ho.long; norm_num at this; linarith
  have hsp := hsp step hs
  have st0 := ho.step step hs
  clear e1 s1
  have find : ∀ x y, a ≤ x → y ≤ b → step + 2 / 1000 / 86400 ≤ y - x →
      ∃ z ∈ linspaceF fl a b (n + 2), x ≤ z ∧ z ≤ y := by
    intro x y hx hy hxy
    obtain ⟨i, i1, -, -, i2, i3⟩ := exists_sample hf hab ha hb n hsp x y hx hy (by norm_num at *; linarith)
    refine ⟨_, ?_, i2, i3⟩
    rw [linspaceF_eq]
    exact List.mem_map.2 ⟨i, List.mem_range.2 (by omega), rfl⟩
  have w1 : p < q := by norm_num at *; linarith
  have w2 : p' < q' := by norm_num at *; linarith
  have w3 : p'' < q'' := by norm_num at *; linarith
  obtain ⟨u, hu, u1, u2⟩ := find p q (by linarith) (by linarith) h1
  obtain ⟨v, hv, v1, v2⟩ := find p' q' (by linarith) (by linarith) h2
  obtain ⟨w, hw, z1, z2⟩ := find p'' q'' (by linarith) (by linarith) h3
  have fu := l1 u u1 u2
  have fv := l2 v v1 v2
  have fw := l3 w z1 z2
  have huv : u < v := by
    refine lt_of_le_of_ne (by linarith) ?_
    rintro rfl; linarith
  have hvw : v < w := by
    refine lt_of_le_of_ne (by linarith) ?_
    rintro rfl; linarith
  obtain ⟨e, u', v', w', k1, k2, k3, k4, k5, k6, k7, k8, k9, k10⟩ := s6 u v w hu hv hw huv hvw (by linarith) (by linarith)
  obtain ⟨pi, hpi⟩ := List.mem_iff_getElem?.1 k1
  obtain ⟨qi, hqi⟩ := List.mem_iff_getElem?.1 k2
  obtain ⟨ri, hri⟩ := List.mem_iff_getElem?.1 k3
  obtain ⟨lp, rfl⟩ := seq_of_get hpi
  obtain ⟨lq, rfl⟩ := seq_of_get hqi
  obtain ⟨lr, rfl⟩ := seq_of_get hri
  rw [seq_lt_iff s2 lp lq] at k5
  rw [seq_lt_iff s2 lq lr] at k6
  obtain ⟨i, j, m, i1, i2, i3, i4, i5, i6, i7⟩ := exists_hill (fun k => f.call (seq last k)) pi qi ri k5 k6 k8 k9
  have a1 : seq last pi ≤ seq last i := (seq_le_iff s2 lp (by omega)).2 i1
  have a2 : seq last j ≤ seq last ri := (seq_le_iff s2 (by omega) lr).2 i3
  have a3 : seq last i < seq last (i + 1) := seq_lt s2 (by omega) (by omega)
  have a4 : seq last (i + 1) < seq last j := seq_lt s2 (by omega) (by omega)
  have cand : ∃ t, LooksLikeMaximumWith (fun a b => fl (fl (a + b) / 2)) f.call last t m ∧ seq last i < t ∧ t < seq last j := by
    have hflat : ∀ k x, i < k → k < j → last[k]? = some x → f.call x = m := by
      intro k x hk1 hk2 hx
      rw [← (seq_of_get hx).2]
      exact i6 k hk1 hk2
    by_cases hj : j = i + 2
    · exact ⟨seq last (i + 1), ⟨i, j, _, _, seq_get (by omega), seq_get (by omega), i2, i4, i5, hflat,
        Or.inl ⟨hj, seq_get (by omega)⟩⟩, a3, a4⟩
    · obtain ⟨g1, g2, -⟩ := midF hf (s3 _ (seq_mem (show i + 1 < last.length by omega))) a3 a4
        (s4 _ (seq_mem (show i < last.length by omega))) (s4 _ (seq_mem (show j < last.length by omega)))
      exact ⟨_, ⟨i, j, _, _, seq_get (by omega), seq_get (by omega), i2, i4,
        i5, hflat, Or.inr ⟨by omega, rfl⟩⟩, g1, g2⟩
  obtain ⟨t, ht, t1, t2⟩ := cand
  unfold reportF at e
  have hmem : (t, m) ∈ (identifyMaximaWith (fun a b => fl (fl (a + b) / 2)) (last.map fun x => (x, f.call x))).filter
      fun p => start.ttF fl ≤ p.1 ∧ p.1 ≤ stop.ttF fl := by
    rw [List.mem_filter]
    refine ⟨(mem_identifyMaximaWith _ _ _ _ _).2 ht, ?_⟩
    simp only [decide_eq_true_eq]
    exact ⟨by linarith, by linarith⟩
  refine ⟨?_, last, t, m, ht, by linarith, by linarith, by
    have i7' : f.call (seq last qi) ≤ m := i7
    linarith, ?_⟩
  · rw [e]
    cases hc : (identifyMaximaWith (fun a b => fl (fl (a + b) / 2)) (last.map fun x => (x, f.call x))).filter
        fun p => start.ttF fl ≤ p.1 ∧ p.1 ≤ stop.ttF fl with
    | nil => rw [hc] at hmem; simp at hmem
    | cons x l => simp [dropCloseF]
  · rcases dropCloseF_or (fl := fl) epsilon _ _ hmem with hd | ⟨⟨t', m'⟩, hq, hadj, hle⟩
    · left; rw [e]; exact hd
    · right
      rw [List.mem_filter] at hq
      have hso := List.Pairwise.filter (fun p => decide (start.ttF fl ≤ p.1 ∧ p.1 ≤ stop.ttF fl))
        (identifyMaximaWith_sorted (fun a b => fl (fl (a + b) / 2)) (last.map fun x => (x, f.call x)))
      have hle2 : t' ≤ t := by
        have h5 : ∀ l : List (ℚ × ℚ), l.Pairwise (fun a b => a.1 ≤ b.1) → ∀ p ∈ adjacent l, p.1.1 ≤ p.2.1 := by
          intro l hl p hp
          induction l with
          | nil => simp [adjacent_nil] at hp
          | cons a l ih =>
            cases l with
            | nil => simp [adjacent_singleton] at hp
            | cons b l =>
              obtain ⟨ha, hl'⟩ := List.pairwise_cons.1 hl
              rw [adjacent_cons_cons, List.mem_cons] at hp
              rcases hp with rfl | hp
              · exact ha b List.mem_cons_self
              · exact ih hl' hp
        exact h5 _ hso _ hadj
      have hq2 : start.ttF fl ≤ t' ∧ t' ≤ stop.ttF fl := by simpa using hq.2
      refine ⟨t', m', (mem_identifyMaximaWith _ _ _ _ _).1 hq.1, hq2.1, hle2, ?_⟩
      by_contra hc'
      push Not at hc'
      have hle : fl (t - t') ≤ epsilon := hle
      have he0 : 0 < epsilon := by
        have := ho.fine
        have n3 : (3:ℚ) ≤ num := by exact_mod_cast ho.three
        norm_num at this
        linarith
      have hpos : 0 < t - t' := by
        have : 0 < epsilon * (1 + 1 / 2 ^ 52) := by positivity
        linarith
      have := fl_rel hf (t - t')
      rw [abs_of_pos hpos, abs_le] at this
      norm_num at *
      nlinarith

/-- **C105 (minima).**  `find_minima` returns the times `find_maxima` finds for the function with its sign turned,
with the signs of the values turned back; so an ordinary search ends after at most 50 rounds, and the minima are within the two times, more
than `epsilon` apart, and strictly between two higher moments. -/
theorem C105_minima (hf : RoundsToNearest fl) (start stop : Time ℚ) (f : Searchable ℚ ℚ) (epsilon : ℚ) (num : ℕ)
    (ho : OrdinarySearch fl start stop f epsilon num) :
    ∃ found, (∀ fuel, 50 ≤ fuel → findMinimaF fl start stop f epsilon num fuel = .ok (some (some found))) ∧
      (∀ fuel, 50 ≤ fuel → findMaximaF fl start stop ⟨fun t => -f.call t, f.stepDays, f.roughPeriod⟩ epsilon num fuel =
        .ok (some (some (found.map fun p => (p.1, -p.2))))) ∧
      (∀ e ∈ found, start.ttF fl ≤ e.1 ∧ e.1 ≤ stop.ttF fl) ∧ found.Pairwise (fun a b => epsilon < b.1 - a.1) ∧
      ∀ t v, (t, v) ∈ found → ∃ a b m, a < t ∧ t < b ∧ v < f.call a ∧ v < f.call b ∧ a < m ∧ m < b ∧ f.call m = v ∧
        (t = m ∨ |t - (a + b) / 2| ≤ 1 / 10000 / 86400) := by
  have ho' : OrdinarySearch fl start stop ⟨fun t => -f.call t, f.stepDays, f.roughPeriod⟩ epsilon num :=
    ⟨ho.early, ho.late, ho.long, ho.short, ho.three, ho.fine, ho.float, ho.step, ho.rough⟩
  obtain ⟨l, hl⟩ := C105_ends hf start stop _ epsilon num ho'
  obtain ⟨c1, c2, c3⟩ := C105_maxima hf start stop _ epsilon num 50 ho' l (hl 50 le_rfl)
  have e : (l.map fun p => (p.1, -p.2)).map (fun p : ℚ × ℚ => (p.1, -p.2)) = l := by
    rw [List.map_map]
    conv_rhs => rw [← List.map_id l]
    apply List.map_congr_left
    intro p _
    simp
  refine ⟨l.map fun p => (p.1, -p.2), ?_, ?_, ?_, ?_, ?_⟩
  · intro fuel hfuel
    unfold findMinimaF
    simp only [hl fuel hfuel, Option.map_some]
  · intro fuel hfuel
    rw [e]; exact hl fuel hfuel
  · intro p hp
    rw [List.mem_map] at hp
    obtain ⟨q, hq, rfl⟩ := hp
    exact c1 q hq
  · rw [List.pairwise_map]; exact c2
  · intro t v htv
    rw [List.mem_map] at htv
    obtain ⟨⟨t', v'⟩, hq, e2⟩ := htv
    rw [Prod.mk.injEq] at e2
    obtain ⟨rfl, rfl⟩ := e2
    obtain ⟨a, b, m, d1, d2, d3, d4, d5, d6, d7, d8⟩ := c3 t' v' hq
    simp only at d3 d4 d7
    exact ⟨a, b, m, d1, d2, by linarith, by linarith, d5, d6, by linarith, d8⟩

/-! ### Examples -/

/-- The default precision and number of samples, over a day, with steps of a tenth of a day. -/
example (hf : RoundsToNearest fl) (f : ℚ → ℚ) :
    let start : Time ℚ := { ts := exampleTs, whole := 2451545, ttFraction := 0 }
    let stop : Time ℚ := { ts := exampleTs, whole := 2451546, ttFraction := 0 }
    OrdinarySearch fl start stop ⟨f, some (1 / 10), none⟩ (fl (1 / 86400)) 12 ∧
      start.ttF fl ≤ 2451545 ∧ 2451546 ≤ stop.ttF fl := by
  have h1 : fl 2451545 = 2451545 := by
    have := fl_int hf (n := 2451545) (by norm_num); exact_mod_cast this
  have h2 : fl 2451546 = 2451546 := by
    have := fl_int hf (n := 2451546) (by norm_num); exact_mod_cast this
  have e := fl_rel hf (1 / 86400)
  simp only [Time.ttF, add_zero, h1, h2]
  refine ⟨⟨?_, ?_, ?_, ?_, ?_, ?_, hf.float _, ?_, ?_⟩, ?_, ?_⟩ <;> try simp only [Time.ttF, add_zero, h1, h2]
  · norm_num [abs_le]
  · norm_num [abs_le]
  · norm_num
  · norm_num
  · norm_num
  · rw [abs_le] at e
    have := e.1
    norm_num [abs_of_pos] at this ⊢
    linarith
  · intro s hs
    simp only [Option.some.injEq] at hs
    subst hs; norm_num
  · intro h; cases h
  · norm_num
  · norm_num

/-- … and with a rough period of two days in place of the step. -/
example (hf : RoundsToNearest fl) (f : ℚ → ℚ) :
    OrdinarySearch fl { ts := exampleTs, whole := 2451545, ttFraction := 0 } { ts := exampleTs, whole := 2451546, ttFraction := 0 }
      ⟨f, none, some 2⟩ (fl (1 / 86400)) 12 := by
  have h1 : fl 2451545 = 2451545 := by
    have := fl_int hf (n := 2451545) (by norm_num); exact_mod_cast this
  have h2 : fl 2451546 = 2451546 := by
    have := fl_int hf (n := 2451546) (by norm_num); exact_mod_cast this
  have e := fl_rel hf (1 / 86400)
  refine ⟨?_, ?_, ?_, ?_, ?_, ?_, hf.float _, ?_, ?_⟩ <;> try simp only [Time.ttF, add_zero, h1, h2]
  · norm_num [abs_le]
  · norm_num [abs_le]
  · norm_num
  · norm_num
  · norm_num
  · rw [abs_le] at e
    have := e.1
    norm_num [abs_of_pos] at this ⊢
    linarith
  · intro s hs; cases hs
  · intro _; exact ⟨2, rfl, by norm_num, by norm_num⟩

/-- The three spells of `C105_no_maximum_missed`, for steps of a tenth of a day and a hill two tenths wide. -/
example (x : ℚ) :
    (2451545 ≤ x → x ≤ 2451545 + 3 / 10 → 1 - |x - (2451545 + 1 / 2)| < 9 / 10) ∧
    (2451545 + 4 / 10 ≤ x → x ≤ 2451545 + 6 / 10 → 9 / 10 ≤ 1 - |x - (2451545 + 1 / 2)|) ∧
    (2451545 + 7 / 10 ≤ x → x ≤ 2451546 → 1 - |x - (2451545 + 1 / 2)| < 9 / 10) ∧
    (1 / 10 + 2 / 1000 / 86400 : ℚ) ≤ 2 / 10 := by
  refine ⟨fun h1 h2 => ?_, fun h1 h2 => ?_, fun h1 h2 => ?_, by norm_num⟩
  · have := neg_le_abs (x - (2451545 + 1 / 2)); linarith
  · have : |x - (2451545 + 1 / 2)| ≤ 1 / 10 := abs_le.2 ⟨by linarith, by linarith⟩
    linarith
  · have := le_abs_self (x - (2451545 + 1 / 2)); linarith

end Skyfield
