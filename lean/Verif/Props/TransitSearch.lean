import Verif.Props.Search
import Verif.Spec.Transits
import Mathlib.Analysis.Real.Pi.Bounds

/-
C114, first part: a search of the side of the meridian finds every passage of a target that turns steadily.
-/
namespace Skyfield
open _root_.Spec Real
set_option linter.unusedSectionVars false

/-! ### The width of the last brackets -/

variable {V : Type*} [DecidableEq V]

/-- The last brackets are never narrower than `epsilon / (num - 1)`. -/
private theorem loop_width (f : ℝ → V) (epsilon lo hi w : ℝ) (n : ℕ) (fuel : ℕ) (jd : List ℝ) (events : List (ℝ × V))
    (hg : Good f lo hi (changes f jd)) (hw : ∀ b ∈ changes f jd, b.2 - b.1 = w) (hwe : epsilon / (n + 1) ≤ w)
    (h : discreteLoop f epsilon (n + 2) fuel jd = some events) :
    ∀ e ∈ events, ∃ s, lo ≤ s ∧ epsilon / (n + 1) ≤ e.1 - s ∧ e.1 - s ≤ epsilon ∧ f s ≠ e.2 ∧ f e.1 = e.2 ∧ e.1 ≤ hi ∧ s < e.1 := by
  induction fuel generalizing jd w with
  | zero => simp [discreteLoop] at h
  | succ fuel ih =>
    unfold discreteLoop discreteRound at h
    by_cases h0 : changes f jd = []
    · simp only [h0, if_true, Option.some.injEq] at h
      subst h
      simp
    · by_cases h1 : (changes f jd).all fun b => b.2 - b.1 ≤ epsilon
      · simp only [if_neg h0, if_pos h1, Option.some.injEq] at h
        subst h
        intro e he
        rw [List.mem_map] at he
        obtain ⟨b, hb, rfl⟩ := he
        have hm := hg.mem hb
        refine ⟨b.1, hm.1, by rw [hw b hb]; exact hwe, by simpa using List.all_eq_true.1 h1 b hb, hm.2.2.2, rfl, hm.2.2.1, hm.2.1⟩
      · simp only [if_neg h0, if_neg h1] at h
        have hn : (0 : ℝ) < n + 1 := by positivity
        have hlt : epsilon < w := by
          by_contra hc
          push Not at hc
          refine h1 (List.all_eq_true.2 fun b hb => ?_)
          simpa [hw b hb] using hc
        exact ih (w / (n + 1)) _ (good_refine n hg h0) (refine_width n hg hw) (by gcongr) h

/-- The brackets a search ends with. -/
private theorem bracket {jd0 jd1 epsilon : ℝ} {f : Searchable ℝ V} {num fuel : ℕ} {events : List (ℝ × V)} (hnum : 2 ≤ num)
    (hstep : f.stepDays = some 0.4) (heps : 0 < epsilon) (heps' : epsilon ≤ 0.01) (hlong : jd0 + epsilon ≤ jd1)
    (h : findDiscrete jd0 jd1 f epsilon num fuel = .ok (some events)) :
    ∀ e ∈ events, ∃ s, jd0 ≤ s ∧ epsilon / (num - 1) ≤ e.1 - s ∧ e.1 - s ≤ epsilon ∧ f.call s ≠ e.2 ∧ f.call e.1 = e.2 ∧ e.1 ≤ jd1 ∧
      s < e.1 := by
  have hst : ∀ s, f.stepDays = some s → 0 < s := by
    intro s hs
    rw [hstep, Option.some.injEq] at hs
    rw [← hs]; norm_num
  unfold findDiscrete at h
  cases hs : discreteSamples jd0 jd1 f num with
  | error e => rw [hs] at h; simp at h
  | ok jd =>
    rw [hs] at h
    simp only [Except.ok.injEq] at h
    obtain ⟨n, rfl⟩ : ∃ n, num = n + 2 := ⟨num - 2, by omega⟩
    have e : ((n + 2 : ℕ) : ℝ) - 1 = n + 1 := by push_cast; ring
    rw [e]
    have h0 : 0 ≤ (jd1 - jd0) / 0.4 := div_nonneg (by linarith) (by norm_num)
    have hn : 0 ≤ ⌊(jd1 - jd0) / 0.4⌋ := Int.floor_nonneg.2 h0
    obtain ⟨m, hm⟩ := Int.eq_ofNat_of_zero_le hn
    have ej : jd = npLinspace jd0 jd1 (m + 2) := by
      unfold discreteSamples at hs
      rw [if_neg (by push Not; linarith)] at hs
      have ha : astypeInt ((jd1 - jd0) / 0.4) = m := by unfold astypeInt; rw [if_pos h0, hm]
      simp only [hstep, ha] at hs
      rw [if_neg (by omega), Except.ok.injEq] at hs
      rw [← hs]
      rfl
    subst ej
    refine loop_width f.call epsilon jd0 jd1 ((jd1 - jd0) / (m + 1)) n fuel _ events (samples_good f.call jd0 jd1 m (by linarith)) ?_ ?_ h
    · intro b hb
      have := npLinspace_adjacent jd0 jd1 (m + 2) b (List.mem_of_mem_filter hb)
      rw [this]
      push_cast
      congr 1
      ring
    · have h1 : epsilon / (n + 1) ≤ epsilon := div_le_self heps.le (by linarith [(Nat.cast_nonneg n : (0 : ℝ) ≤ n)])
      refine h1.trans ?_
      have hm0 : (0 : ℝ) ≤ m := Nat.cast_nonneg m
      rw [le_div_iff₀ (by positivity)]
      rcases Nat.eq_zero_or_pos m with hz | hz
      · rw [hz]; push_cast; linarith
      · have h2 := Int.floor_le ((jd1 - jd0) / 0.4)
        rw [hm, le_div_iff₀ (by norm_num)] at h2
        push_cast at h2
        have h3 : (1 : ℝ) ≤ m := by exact_mod_cast hz
        nlinarith

/-- Some sample lies in each stretch of 0.4 days. -/
private theorem sample_in {jd0 jd1 : ℝ} {f : Searchable ℝ V} {num : ℕ} (hstep : f.stepDays = some 0.4) (hlt : jd0 < jd1) :
    ∃ samples, discreteSamples jd0 jd1 f num = .ok samples ∧ (∀ x ∈ samples, jd0 ≤ x ∧ x ≤ jd1) ∧
      (∀ T, jd0 ≤ T → T ≤ jd1 → ∃ p ∈ samples, ∃ q ∈ samples, p ≤ T ∧ T ≤ q ∧ q - p < 0.4) := by
  obtain ⟨samples, h1, h2, h3, h4⟩ := C16_sample_spacing jd0 jd1 f num 0.4 hlt hstep (by norm_num)
  obtain ⟨-, m, hm⟩ : jd0 < jd1 ∧ ∃ m, samples = npLinspace jd0 jd1 (m + 2) := by
    refine ⟨hlt, ?_⟩
    have h0 : 0 ≤ (jd1 - jd0) / 0.4 := div_nonneg (by linarith) (by norm_num)
    unfold discreteSamples at h1
    rw [if_neg (by push Not; exact hlt)] at h1
    have ha : 0 ≤ astypeInt ((jd1 - jd0) / 0.4) := by
      unfold astypeInt; rw [if_pos h0]; exact Int.floor_nonneg.2 h0
    simp only [hstep] at h1
    rw [if_neg (by omega), Except.ok.injEq] at h1
    refine ⟨(astypeInt ((jd1 - jd0) / 0.4)).toNat, ?_⟩
    rw [← h1]
    congr 1
    omega
  refine ⟨samples, h1, ?_, ?_⟩
  · intro x hx
    rw [hm] at hx
    exact npLinspace_mem _ _ _ hlt.le x hx
  · have key : ∀ (l : List ℝ) (a b : ℝ), l.head? = some a → l.getLast? = some b → (∀ p ∈ l.zip l.tail, 0 < p.2 - p.1 ∧ p.2 - p.1 < 0.4) →
        ∀ T, a ≤ T → T ≤ b → ∃ p ∈ l, ∃ q ∈ l, p ≤ T ∧ T ≤ q ∧ q - p < 0.4 := by
      intro l
      induction l with
      | nil => intro a b h; simp at h
      | cons x l ih =>
        intro a b ha hb hs T h0 h1
        simp only [List.head?_cons, Option.some.injEq] at ha
        subst ha
        cases l with
        | nil =>
          simp only [List.getLast?_singleton, Option.some.injEq] at hb
          subst hb
          exact ⟨x, by simp, x, by simp, h0, h1, by norm_num⟩
        | cons y l =>
          have hxy := hs (x, y) (by simp)
          by_cases hy : y ≤ T
          · obtain ⟨p, hp, q, hq, r⟩ := ih y b rfl (by rw [← hb, List.getLast?_cons_cons])
              (fun p hp => hs p (by simp only [List.tail_cons, List.zip_cons_cons]; exact List.mem_cons_of_mem _ hp)) T hy h1
            exact ⟨p, List.mem_cons_of_mem _ hp, q, List.mem_cons_of_mem _ hq, r⟩
          · exact ⟨x, by simp, y, by simp, h0, by linarith, hxy.2⟩
    exact key samples jd0 jd1 h2 h3 h4

/-! ### Sides -/

/-- Half a turn from `base`. -/
private def Half (base x : ℝ) : Prop := ∃ n : ℤ, 0 ≤ x - base - 2 * π * n ∧ x - base - 2 * π * n < π

private theorem half_or (base x : ℝ) : Half base x ∨ ∃ n : ℤ, -π ≤ x - base - 2 * π * n ∧ x - base - 2 * π * n < 0 := by
  have hp := pi_pos
  have h1 := Int.floor_le ((x - base) / (2 * π))
  have h2 := Int.lt_floor_add_one ((x - base) / (2 * π))
  rw [le_div_iff₀ (by positivity)] at h1
  rw [div_lt_iff₀ (by positivity)] at h2
  generalize ⌊(x - base) / (2 * π)⌋ = n at h1 h2
  by_cases h : x - base - 2 * π * n < π
  · exact Or.inl ⟨n, by linarith, h⟩
  · refine Or.inr ⟨n + 1, ?_, ?_⟩ <;> push_cast <;> linarith

private theorem turn_zero {N : ℤ} (h1 : -(2 * π) < 2 * π * N) (h2 : 2 * π * N < 2 * π) : N = 0 := by
  have hp := pi_pos
  have a : (-1 : ℝ) < N := by nlinarith
  have b : (N : ℝ) < 1 := by nlinarith
  have a' : (-1 : ℤ) < N := by exact_mod_cast a
  have b' : N < (1 : ℤ) := by exact_mod_cast b
  omega

private theorem not_half {base x : ℝ} (h : ∃ n : ℤ, -π ≤ x - base - 2 * π * n ∧ x - base - 2 * π * n < 0) : ¬ Half base x := by
  rintro ⟨m, a, b⟩
  obtain ⟨n, c, d⟩ := h
  have hp := pi_pos
  have e : n - m = 0 ∨ n - m = 1 ∨ n - m ≤ -1 ∨ 2 ≤ n - m := by omega
  rcases e with e | e | e | e
  · have : (n : ℝ) = m := by exact_mod_cast (by omega : n = m)
    rw [this] at d; linarith
  · have : (n : ℝ) = m + 1 := by exact_mod_cast (by omega : n = m + 1)
    rw [this] at c d; linarith
  · have : (n : ℝ) ≤ m - 1 := by exact_mod_cast (by omega : n ≤ m - 1)
    nlinarith
  · have : (m : ℝ) + 2 ≤ n := by exact_mod_cast (by omega : m + 2 ≤ n)
    nlinarith

/-- `f` tells the side of the hour angle `h`: `v` past `base`, `u` past the other side. -/
private structure Sides (f : ℝ → V) (h : ℝ → ℝ) (lo hi base : ℝ) (v u : V) : Prop where
  here : ∀ t, lo ≤ t → t ≤ hi → Half base (h t) → f t = v
  there : ∀ t, lo ≤ t → t ≤ hi → ¬ Half base (h t) → f t = u
  ne : v ≠ u

private theorem Sides.swap {f : ℝ → V} {h : ℝ → ℝ} {lo hi base : ℝ} {v u : V} (s : Sides f h lo hi base v u) :
    Sides f h lo hi (base + π) u v where
  here t a b := by
    rintro ⟨n, c, d⟩
    refine s.there t a b (not_half ⟨n + 1, ?_, ?_⟩) <;> push_cast <;> linarith
  there t a b hn := by
    rcases half_or (base + π) (h t) with hh | ⟨n, c, d⟩
    · exact absurd hh hn
    · exact s.here t a b ⟨n, by linarith, by linarith⟩
  ne := s.ne.symm

private theorem Sides.half {f : ℝ → V} {h : ℝ → ℝ} {lo hi base : ℝ} {v u : V} (s : Sides f h lo hi base v u) {t : ℝ} (a : lo ≤ t)
    (b : t ≤ hi) (e : f t = v) : Half base (h t) := by
  by_contra hn
  exact s.ne (e.symm.trans (s.there t a b hn))

private theorem Sides.other {f : ℝ → V} {h : ℝ → ℝ} {lo hi base : ℝ} {v u : V} (s : Sides f h lo hi base v u) {t : ℝ} (a : lo ≤ t)
    (b : t ≤ hi) (e : f t ≠ v) : ∃ n : ℤ, -π ≤ h t - base - 2 * π * n ∧ h t - base - 2 * π * n < 0 := by
  rcases half_or base (h t) with hh | hh
  · exact absurd (s.here t a b hh) e
  · exact hh

private theorem Sides.two {f : ℝ → V} {h : ℝ → ℝ} {lo hi base : ℝ} {v u : V} (s : Sides f h lo hi base v u) {t : ℝ} (a : lo ≤ t)
    (b : t ≤ hi) : f t = v ∨ f t = u := by
  by_cases hh : Half base (h t)
  · exact Or.inl (s.here t a b hh)
  · exact Or.inr (s.there t a b hh)

/-- What the search needs of its arguments. -/
private structure Setting (f : Searchable ℝ V) (h : ℝ → ℝ) (slow fast jitter lo hi epsilon : ℝ) (num fuel : ℕ) (events : List (ℝ × V)) : Prop where
  hnum : 3 ≤ num
  hstep : f.stepDays = some 0.4
  heps : 0 < epsilon
  heps' : epsilon ≤ 0.001
  hlong : lo + epsilon ≤ hi
  hturning : Turning slow fast jitter lo hi h
  hslow : 5.3 ≤ slow
  hfast : fast ≤ 7.3
  hjitter : jitter * (num - 1) < 5.3 * epsilon
  hjitter0 : 0 ≤ jitter
  hfound : findDiscrete lo hi f epsilon num fuel = .ok (some events)

section
variable {f : Searchable ℝ V} {h : ℝ → ℝ} {slow fast jitter lo hi epsilon : ℝ} {num fuel : ℕ} {events : List (ℝ × V)}

private theorem Setting.small (s : Setting f h slow fast jitter lo hi epsilon num fuel events) : 2 * jitter < 5.3 * epsilon := by
  have h1 : (3 : ℝ) ≤ num := by exact_mod_cast s.hnum
  nlinarith [s.hjitter, s.hjitter0]

/-- An event and the end of its bracket, on either side of `base`. -/
private theorem Setting.event (s : Setting f h slow fast jitter lo hi epsilon num fuel events) {base : ℝ} {v u : V}
    (sd : Sides f.call h lo hi base v u) {t : ℝ} (ht : (t, v) ∈ events) :
    lo ≤ t ∧ t ≤ hi ∧ PastBy base 0 (fast * epsilon + jitter) (h t) ∧ ∃ r, lo ≤ r ∧ r < t ∧ t - r ≤ epsilon ∧
      ∃ n : ℤ, -(fast * epsilon + jitter) ≤ h r - base - 2 * π * n ∧ h r - base - 2 * π * n < 0 := by
  obtain ⟨r, r0, r1, r2, r3, r4, r5, r6⟩ := bracket (by have := s.hnum; omega) s.hstep s.heps (by linarith [s.heps']) s.hlong s.hfound (t, v) ht
  simp only at r1 r2 r3 r4 r5 r6
  obtain ⟨n, a1, a2⟩ := sd.half (by linarith) r5 r4
  obtain ⟨k, b1, b2⟩ := sd.other r0 (by linarith) r3
  obtain ⟨m, c1, c2⟩ := s.hturning r t r0 r6.le r5
  have hnum : (3 : ℝ) ≤ num := by exact_mod_cast s.hnum
  have hpos : jitter < slow * (t - r) := by
    rw [div_le_iff₀ (by linarith)] at r1
    have h1 := s.hjitter
    have h2 := mul_le_mul_of_nonneg_right s.hslow (by linarith : 0 ≤ t - r)
    have h3 : jitter * ((num : ℝ) - 1) < 5.3 * (t - r) * (num - 1) := by nlinarith
    have h4 := lt_of_mul_lt_mul_right h3 (by linarith)
    linarith
  have hfast0 : 0 ≤ fast := by
    by_contra hc
    push Not at hc
    obtain ⟨i, d1, d2⟩ := s.hturning lo hi le_rfl (by linarith [s.hlong, s.heps]) le_rfl
    have := s.small
    have h5 := mul_le_mul_of_nonneg_right s.hslow (by linarith [s.hlong, s.heps] : 0 ≤ hi - lo)
    have h6 := mul_nonneg (by linarith : 0 ≤ -fast) (by linarith [s.hlong, s.heps] : 0 ≤ hi - lo)
    linarith [s.hlong]
  have hle : fast * (t - r) ≤ fast * epsilon := mul_le_mul_of_nonneg_left r2 hfast0
  have hsm := s.small
  have he := s.heps'
  have hf : fast * epsilon ≤ 7.3 * epsilon := mul_le_mul_of_nonneg_right s.hfast s.heps.le
  have hpi := pi_gt_d2
  have hN : n - k - m = 0 := by
    apply turn_zero <;> push_cast <;> linarith
  have hN' : (m : ℝ) = n - k := by exact_mod_cast (by omega : m = n - k)
  rw [hN'] at c1 c2
  refine ⟨by linarith, r5, ⟨n, a1, by linarith⟩, r, r0, r6, r2, k, by linarith, b2⟩

/-- No passage is missed. -/
private theorem Setting.passage (s : Setting f h slow fast jitter lo hi epsilon num fuel events) {base : ℝ} {v u : V}
    (sd : Sides f.call h lo hi base v u) {T : ℝ} (h0 : lo + epsilon ≤ T) (h1 : T ≤ hi - epsilon) (hT : PastBy base (-jitter) jitter (h T)) :
    ∃ t, (t, v) ∈ events ∧ slow * (T - t) ≤ 2 * jitter ∧ slow * (t - T - epsilon) ≤ 2 * jitter := by
  obtain ⟨n, n1, n2⟩ := hT
  have heps := s.heps
  obtain ⟨samples, s1, s2, s3⟩ := sample_in (num := num) s.hstep (by linarith [s.hlong] : lo < hi)
  obtain ⟨p, hp, p', -, p1, p3, p2⟩ := s3 (T - epsilon) (by linarith) (by linarith)
  obtain ⟨q', -, q, hq, q3, q1, q2⟩ := s3 (T + epsilon) (by linarith) (by linarith)
  have hsm := s.small
  have he := s.heps'
  have hpi := pi_gt_d2
  have hj := s.hjitter0
  have hslow := s.hslow
  have hfast := s.hfast
  obtain ⟨k, k1, k2⟩ := s.hturning p T (s2 p hp).1 (by linarith) (by linarith)
  obtain ⟨l, l1, l2⟩ := s.hturning T q (by linarith) (by linarith) (s2 q hq).2
  have hmul : ∀ {a b : ℝ}, 0 ≤ a → a ≤ b → slow * a ≥ 5.3 * a ∧ fast * a ≤ 7.3 * b := by
    intro a b ha hb
    constructor
    · exact mul_le_mul_of_nonneg_right hslow ha
    · nlinarith
  have m1 := hmul (a := T - p) (b := 0.4 + epsilon) (by linarith) (by linarith)
  have m2 := hmul (a := q - T) (b := 0.4 + epsilon) (by linarith) (by linarith)
  have fp : f.call p = u := by
    refine sd.there p (s2 p hp).1 (by linarith) (not_half ⟨n - k, ?_, ?_⟩) <;> push_cast <;> linarith
  have fq : f.call q = v := by
    refine sd.here q (by linarith) (s2 q hq).2 ⟨n + l, ?_, ?_⟩ <;> push_cast <;> linarith
  have hst : ∀ s', f.stepDays = some s' → 0 < s' := by
    intro s' hs'
    rw [s.hstep, Option.some.injEq] at hs'
    rw [← hs']; norm_num
  obtain ⟨⟨t, w⟩, he1, he2, he3⟩ := C16_no_change_missed lo hi f epsilon num fuel events samples (by have := s.hnum; omega) hst s1 s.hfound
    p q hp hq (by linarith) (by rw [fp, fq]; exact sd.ne.symm)
  simp only at he2 he3
  have hev := C15_events_are_real lo hi f epsilon num fuel events (by have := s.hnum; omega) hst s.hfound t w he1
  have hf : fast * epsilon ≤ 7.3 * epsilon := mul_le_mul_of_nonneg_right s.hfast s.heps.le
  have hw : w = v ∨ w = u := by
    rcases sd.two hev.1.le hev.2.1 with h | h
    · exact Or.inl (hev.2.2.1.symm.trans h)
    · exact Or.inr (hev.2.2.1.symm.trans h)
  rcases hw with rfl | rfl
  · refine ⟨t, he1, ?_, ?_⟩
    · obtain ⟨-, -, ⟨i, i1, i2⟩, -⟩ := s.event sd he1
      rcases le_total T t with hle | hle
      · have := mul_nonneg (by linarith : 0 ≤ slow) (by linarith : 0 ≤ t - T)
        linarith
      · obtain ⟨m, c1, c2⟩ := s.hturning t T hev.1.le hle (by linarith)
        have m3 := hmul (a := T - t) (b := 0.4 + epsilon) (by linarith) (by linarith)
        have hN : n - i - m = 0 := by
          apply turn_zero <;> push_cast <;> linarith
        have hN' : (m : ℝ) = n - i := by exact_mod_cast (by omega : m = n - i)
        rw [hN'] at c1 c2
        linarith
    · obtain ⟨-, -, -, r, r0, r1, r2, i, i1, i2⟩ := s.event sd he1
      have hre : slow * (t - T - epsilon) ≤ slow * (r - T) := mul_le_mul_of_nonneg_left (by linarith) (by linarith)
      refine hre.trans ?_
      rcases le_total r T with hle | hle
      · have := mul_nonneg (by linarith : 0 ≤ slow) (by linarith : 0 ≤ T - r)
        linarith
      · obtain ⟨m, c1, c2⟩ := s.hturning T r (by linarith) hle (by linarith)
        have m3 := hmul (a := r - T) (b := 0.4 + epsilon) (by linarith) (by linarith)
        have hN : i - n - m = 0 := by
          apply turn_zero <;> push_cast <;> linarith
        have hN' : (m : ℝ) = i - n := by exact_mod_cast (by omega : m = i - n)
        rw [hN'] at c1 c2
        linarith
  · exfalso
    obtain ⟨-, -, ⟨i, i1, i2⟩, -⟩ := s.event sd.swap he1
    rcases le_total T t with hle | hle
    · obtain ⟨m, c1, c2⟩ := s.hturning T t (by linarith) hle (by linarith)
      have m3 := hmul (a := t - T) (b := 0.4 + epsilon) (by linarith) (by linarith)
      have hN : i - n - m = 0 := by
        apply turn_zero <;> push_cast <;> linarith
      have hN' : (m : ℝ) = i - n := by exact_mod_cast (by omega : m = i - n)
      rw [hN'] at c1 c2
      linarith
    · obtain ⟨m, c1, c2⟩ := s.hturning t T hev.1.le hle (by linarith)
      have m3 := hmul (a := T - t) (b := 0.4 + epsilon) (by linarith) (by linarith)
      have hN : n - i - m - 1 = 0 := by
        apply turn_zero <;> push_cast <;> linarith
      have hN' : (m : ℝ) = n - i - 1 := by exact_mod_cast (by omega : m = n - i - 1)
      rw [hN'] at c1 c2
      linarith

private theorem story_alternates {f : ℝ → V} {b : ℝ} : ∀ (l : List (ℝ × V)) (v : V), Story f v b l → ∀ p ∈ l.zip l.tail, p.1.2 ≠ p.2.2 := by
  intro l
  induction l with
  | nil => intro v _ p hp; simp at hp
  | cons x l ih =>
    intro v hs p hp
    cases l with
    | nil => simp at hp
    | cons y l =>
      obtain ⟨-, hs'⟩ := hs
      simp only [List.tail_cons, List.zip_cons_cons, List.mem_cons] at hp
      rcases hp with rfl | hp
      · exact hs'.1
      · exact ih x.2 hs' p hp

private theorem none_between : ∀ (l : List (ℝ × V)), l.Pairwise (fun a b => a.1 < b.1) → ∀ p ∈ l.zip l.tail, p.1.1 < p.2.1 ∧
    p.1 ∈ l ∧ p.2 ∈ l ∧ ∀ c ∈ l, c.1 ≤ p.1.1 ∨ p.2.1 ≤ c.1 := by
  intro l
  induction l with
  | nil => intro _ p hp; simp at hp
  | cons x l ih =>
    intro hs p hp
    cases l with
    | nil => simp at hp
    | cons y l =>
      obtain ⟨hx, hs'⟩ := List.pairwise_cons.1 hs
      simp only [List.tail_cons, List.zip_cons_cons, List.mem_cons] at hp
      rcases hp with rfl | hp
      · refine ⟨hx y (by simp), by simp, by simp, ?_⟩
        intro c hc
        rcases List.mem_cons.1 hc with rfl | hc
        · exact Or.inl le_rfl
        · rcases List.mem_cons.1 hc with rfl | hc
          · exact Or.inr le_rfl
          · exact Or.inr ((List.pairwise_cons.1 hs').1 c hc).le
      · obtain ⟨a, b, c, d⟩ := ih hs' p hp
        refine ⟨a, List.mem_cons_of_mem _ b, List.mem_cons_of_mem _ c, ?_⟩
        intro z hz
        rcases List.mem_cons.1 hz with rfl | hz
        · exact Or.inl (hx _ b).le
        · exact d z hz

/-- Consecutive events are half a turn apart. -/
private theorem Setting.gap (s : Setting f h slow fast jitter lo hi epsilon num fuel events) {base : ℝ} {v u : V}
    (sd : Sides f.call h lo hi base v u) {a b : ℝ} (ha : (a, v) ∈ events) (hb : (b, u) ∈ events) (hab : a < b)
    (hnone : ∀ c ∈ events, c.1 ≤ a ∨ b ≤ c.1) :
    π - (fast * epsilon + 2 * jitter) ≤ fast * (b - a) ∧ slow * (b - a) ≤ π + (fast * epsilon + 2 * jitter) := by
  obtain ⟨a0, a1, ⟨n, n1, n2⟩, -⟩ := s.event sd ha
  obtain ⟨b0, b1, ⟨k, k1, k2⟩, -⟩ := s.event sd.swap hb
  obtain ⟨m, c1, c2⟩ := s.hturning a b a0 hab.le b1
  have hsm := s.small
  have he := s.heps'
  have heps := s.heps
  have hpi := pi_gt_d2
  have hpi' := pi_lt_d2
  have hj := s.hjitter0
  have hslow := s.hslow
  have hfast := s.hfast
  have hf : fast * epsilon ≤ 7.3 * epsilon := mul_le_mul_of_nonneg_right s.hfast s.heps.le
  have hmul : ∀ {a b c : ℝ}, 0 ≤ c → c ≤ a → a ≤ b → slow * a ≥ 5.3 * c ∧ fast * a ≤ 7.3 * b := by
    intro a b c hc ha hb
    constructor <;> nlinarith
  -- the next passage comes within a day
  have hday : b - a ≤ 1.1 := by
    by_contra hbig
    push Not at hbig
    obtain ⟨samples, s1, s2, s3⟩ := sample_in (num := num) s.hstep (by linarith [s.hlong] : lo < hi)
    have hst : ∀ s', f.stepDays = some s' → 0 < s' := by
      intro s' hs'
      rw [s.hstep, Option.some.injEq] at hs'
      rw [← hs']; norm_num
    obtain ⟨p', -, p, hp, p3, p1, p2⟩ := s3 (a + 0.01) (by linarith) (by linarith)
    obtain ⟨x, hx, y, hy, x1, y1, xy⟩ := s3 (a + 0.6) (by linarith) (by linarith)
    have fp : f.call p = v := by
      obtain ⟨l, l1, l2⟩ := s.hturning a p a0 (by linarith) (by linarith)
      have m1 := hmul (a := p - a) (b := 0.41) (c := 0.01) (by norm_num) (by linarith) (by linarith)
      refine sd.here p (by linarith) (by linarith) ⟨n + l, ?_, ?_⟩ <;> push_cast <;> linarith
    have quiet : ∀ z ∈ samples, p < z → z < b → f.call z = v := by
      intro z hz h1 h2
      by_contra hne
      obtain ⟨e, he1, he2, he3⟩ := C16_no_change_missed lo hi f epsilon num fuel events samples (by have := s.hnum; omega) hst s1 s.hfound
        p z hp hz h1 (by rw [fp]; exact fun h => hne h.symm)
      rcases hnone e he1 with h | h <;> linarith
    by_cases hpx : x < p
    · -- the samples straddle p
      have fy : f.call y = v := quiet y hy (by linarith) (by linarith)
      obtain ⟨o, o1, o2⟩ := s.hturning a y a0 (by linarith) (by linarith)
      have m1 := hmul (a := y - a) (b := 0.82) (c := 0.6) (by norm_num) (by linarith) (by linarith)
      have hy' : f.call y = u := by
        refine sd.there y (by linarith) (by linarith) (not_half ⟨n + o + 1, ?_, ?_⟩) <;> push_cast <;> linarith
      exact sd.ne (fy.symm.trans hy')
    · have fx : f.call x = v := by
        rcases lt_trichotomy p x with h | h | h
        · exact quiet x hx h (by linarith)
        · rw [← h]; exact fp
        · exfalso; linarith
      have fy : f.call y = v := quiet y hy (by linarith) (by linarith)
      obtain ⟨i, i1, i2⟩ := sd.half (by linarith [(s2 x hx).1]) (by linarith) fx
      obtain ⟨l, l1, l2⟩ := s.hturning a x a0 (by linarith) (by linarith)
      obtain ⟨o, o1, o2⟩ := s.hturning a y a0 (by linarith) (by linarith)
      obtain ⟨j, j1, j2⟩ := s.hturning x y (by linarith) (by linarith) (by linarith)
      have m1 := hmul (a := x - a) (b := 0.6) (c := 0) (by norm_num) (by linarith) (by linarith)
      have m2 := hmul (a := y - a) (b := 1) (c := 0.6) (by norm_num) (by linarith) (by linarith)
      have m3 := hmul (a := y - x) (b := 0.4) (c := 0) (by norm_num) (by linarith) (by linarith)
      have hN : n + l - i = 0 := by
        apply turn_zero <;> push_cast <;> linarith
      have hN' : (i : ℝ) = n + l := by exact_mod_cast (by omega : i = n + l)
      have hO : l + j - o = 0 := by
        apply turn_zero <;> push_cast <;> linarith
      have hO' : (j : ℝ) = o - l := by exact_mod_cast (by omega : j = o - l)
      rw [hN'] at i1 i2
      rw [hO'] at j1 j2
      have hy' : f.call y = u := by
        refine sd.there y (by linarith) (by linarith) (not_half ⟨n + o + 1, ?_, ?_⟩) <;> push_cast <;> linarith
      exact sd.ne (fy.symm.trans hy')
  have m1 := hmul (a := b - a) (b := 1.1) (c := 0) le_rfl (by linarith) hday
  have m2 : k - n - m = 0 := by
    have : slow * (b - a) ≥ 0 := by positivity
    apply turn_zero <;> push_cast <;> linarith
  have hN' : (m : ℝ) = k - n := by exact_mod_cast (by omega : m = k - n)
  rw [hN'] at c1 c2
  constructor <;> linarith

end

/-- **C114.** A search every 0.4 days for the moments a target changes sides of the meridian, when its hour angle `h` turns through between
5.3 and 7.3 radians a day but for small jumps.  Each event is a passage just made: at the moment reported the target is past the meridian
(if it is west of it from then on, so the value is `west`) or past the antimeridian (if the value is `east`) by no more than it turns in `epsilon` days and one
jump.  No passage is missed: wherever the hour angle is that of the meridian, to within a jump, a change to `west` is reported, at most `epsilon` late, and for the
antimeridian a change to `east`.  Passages of the two kinds alternate, half a turn apart. -/
theorem C114_search {f : Searchable ℝ V} {h : ℝ → ℝ} {slow fast jitter lo hi epsilon : ℝ} {num fuel : ℕ} {events : List (ℝ × V)} {west east : V}
    (hwest : ∀ t, lo ≤ t → t ≤ hi → WestOfMeridian (h t) → f.call t = west)
    (heast : ∀ t, lo ≤ t → t ≤ hi → ¬ WestOfMeridian (h t) → f.call t = east) (hne : west ≠ east)
    (hnum : 3 ≤ num) (hstep : f.stepDays = some 0.4) (heps : 0 < epsilon) (heps' : epsilon ≤ 0.001) (hlong : lo + epsilon ≤ hi)
    (hturn : Turning slow fast jitter lo hi h) (hslow : 5.3 ≤ slow) (hfast : fast ≤ 7.3)
    (hjit0 : 0 ≤ jitter) (hjit : jitter * (num - 1) < 5.3 * epsilon)
    (hfound : findDiscrete lo hi f epsilon num fuel = .ok (some events)) :
    (∀ t, (t, west) ∈ events → PastBy 0 0 (fast * epsilon + jitter) (h t)) ∧
    (∀ t, (t, east) ∈ events → PastBy π 0 (fast * epsilon + jitter) (h t)) ∧
    (∀ e ∈ events, e.2 = west ∨ e.2 = east) ∧
    (∀ T, lo + epsilon ≤ T → T ≤ hi - epsilon → PastBy 0 (-jitter) jitter (h T) →
      ∃ t, (t, west) ∈ events ∧ slow * (T - t) ≤ 2 * jitter ∧ slow * (t - (T + epsilon)) ≤ 2 * jitter) ∧
    (∀ T, lo + epsilon ≤ T → T ≤ hi - epsilon → PastBy π (-jitter) jitter (h T) →
      ∃ t, (t, east) ∈ events ∧ slow * (T - t) ≤ 2 * jitter ∧ slow * (t - (T + epsilon)) ≤ 2 * jitter) ∧
    (∀ p ∈ events.zip events.tail, p.1.2 ≠ p.2.2 ∧ π - (fast * epsilon + 2 * jitter) ≤ fast * (p.2.1 - p.1.1) ∧
      slow * (p.2.1 - p.1.1) ≤ π + (fast * epsilon + 2 * jitter)) := by
  have s : Setting f h slow fast jitter lo hi epsilon num fuel events :=
    ⟨hnum, hstep, heps, heps', hlong, hturn, hslow, hfast, hjit, hjit0, hfound⟩
  have e : ∀ x, WestOfMeridian x ↔ Half 0 x := by
    intro x; unfold WestOfMeridian Half; simp only [sub_zero]
  have sd : Sides f.call h lo hi 0 west east :=
    ⟨fun t a b c => hwest t a b ((e _).2 c), fun t a b c => heast t a b (fun d => c ((e _).1 d)), hne⟩
  have sd' := sd.swap
  rw [zero_add] at sd'
  have hst : ∀ s', f.stepDays = some s' → 0 < s' := by
    intro s' hs'
    rw [hstep, Option.some.injEq] at hs'
    rw [← hs']; norm_num
  have hval : ∀ x ∈ events, x.2 = west ∨ x.2 = east := by
    rintro ⟨t, w⟩ hx
    have hev := C15_events_are_real lo hi f epsilon num fuel events (by omega) hst hfound t w hx
    rcases sd.two hev.1.le hev.2.1 with h | h
    · exact Or.inl (hev.2.2.1.symm.trans h)
    · exact Or.inr (hev.2.2.1.symm.trans h)
  refine ⟨fun t ht => (s.event sd ht).2.2.1, fun t ht => (s.event sd' ht).2.2.1, hval, ?_, ?_, ?_⟩
  · intro T h0 h1 hT
    obtain ⟨t, a, b, c⟩ := s.passage sd h0 h1 hT
    exact ⟨t, a, b, by rw [show t - (T + epsilon) = t - T - epsilon by ring]; exact c⟩
  · intro T h0 h1 hT
    obtain ⟨t, a, b, c⟩ := s.passage sd' h0 h1 hT
    exact ⟨t, a, b, by rw [show t - (T + epsilon) = t - T - epsilon by ring]; exact c⟩
  · rintro ⟨⟨a, va⟩, ⟨b, vb⟩⟩ hp
    have h1 := story_alternates events _ (C16_story lo hi f epsilon num fuel events (by omega) hst hfound) _ hp
    obtain ⟨h2, h3, h4, h5⟩ := none_between events (C16_increasing lo hi f epsilon num fuel events (by omega) hst hfound) _ hp
    simp only at h1 h2 h3 h4 h5 ⊢
    refine ⟨h1, ?_⟩
    rcases hval _ h3 with e1 | e1 <;> rcases hval _ h4 with e2 | e2 <;> simp only at e1 e2 <;> subst e1 <;> subst e2
    · exact absurd rfl h1
    · exact s.gap sd h3 h4 h2 h5
    · exact s.gap sd' h3 h4 h2 h5
    · exact absurd rfl h1

/-- A target whose hour angle is 6.3 radians a day, observed for ten days from when it is on the meridian: it is back there after 2π / 6.3 days, and that is reported. -/
example : ∃ (fuel : ℕ) (events : List (ℝ × Bool)),
    open Classical in findDiscrete 0 10 ⟨fun t : ℝ => decide (WestOfMeridian (6.3 * t)), some 0.4, none⟩ (0.001 : ℝ) 12 fuel = .ok (some events) ∧
    ∃ t, (t, true) ∈ events ∧ 2 * π / 6.3 ≤ t ∧ t ≤ 2 * π / 6.3 + 0.001 := by
  classical
  have hp := pi_gt_three
  have hp' := pi_lt_four
  obtain ⟨fuel, events, h⟩ := exists_search 0 10 (by norm_num) (⟨fun t : ℝ => decide (WestOfMeridian (6.3 * t)), some 0.4, none⟩ : Searchable ℝ Bool)
    (step := 0.4) (epsilon := 0.001) rfl (by norm_num) (by norm_num) 12 (by norm_num)
  have hturn : Turning 6.3 6.3 0 0 10 fun t => 6.3 * t := fun s t _ _ _ => ⟨0, by push_cast; linarith, by push_cast; linarith⟩
  obtain ⟨-, -, -, hw, -⟩ := C114_search (west := true) (east := false) (h := fun t => 6.3 * t) (fun t _ _ hx => decide_eq_true hx)
    (fun t _ _ hx => decide_eq_false hx) (by decide) (by norm_num) rfl (by norm_num) le_rfl (by norm_num) hturn (by norm_num) (by norm_num) le_rfl
    (by norm_num) h
  have hT : 6.3 * (2 * π / 6.3) = 2 * π := by field_simp
  obtain ⟨t, ht, h1, h2⟩ := hw (2 * π / 6.3) (by rw [le_div_iff₀ (by norm_num)]; linarith) (by rw [div_le_iff₀ (by norm_num)]; linarith)
    ⟨1, by beta_reduce; push_cast; linarith, by beta_reduce; push_cast; linarith⟩
  exact ⟨fuel, events, h, t, ht, by linarith, by linarith⟩

end Skyfield
