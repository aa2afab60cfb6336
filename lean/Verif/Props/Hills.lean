import Verif.Lemmas.Hills
import Verif.Props.Maxima

/-
C116: on a function that rises and falls in turn, the searches for maxima and minima find each top and each bottom.
-/
namespace Skyfield
open Spec Set

variable {lo hi d : ℝ} {f : ℝ → ℝ} {low high : ℤ → ℝ}

/-! ### the loop -/

private theorem highs_apart (hU : Undulates lo hi d f low high) (hd : 0 < d) {k k' : ℤ} (h : k < k') : high k + 2 * d ≤ high k' := by
  induction k', (show k + 1 ≤ k' from h) using Int.le_induction with
  | base => linarith [hU.fall k, hU.rise (k + 1)]
  | succ b hb ih => linarith [hU.fall b, hU.rise (b + 1), ih (by omega)]

private theorem high_unique (hU : Undulates lo hi d f low high) (hd : 0 < d) {k k' : ℤ} (h : |high k - high k'| < 2 * d) : k = k' := by
  rw [abs_lt] at h
  rcases lt_trichotomy k k' with c | c | c
  · have := highs_apart hU hd c; linarith
  · exact c
  · have := highs_apart hU hd c; linarith

private theorem mem_dropClose_of_apart {eps : ℝ} {l : List (ℝ × ℝ)} {p : ℝ × ℝ} (hs : l.Pairwise (fun a b => a.1 ≤ b.1)) (hp : p ∈ l)
    (h : ∀ q ∈ l, q.1 ≤ p.1 → q ≠ p → eps < p.1 - q.1) : p ∈ dropClose eps l := by
  have key : ∀ (r : List (ℝ × ℝ)) (a : ℝ × ℝ), (a :: r).Pairwise (fun a b => a.1 ≤ b.1) → a ≠ p → p ∈ r →
      (∀ q ∈ a :: r, q.1 ≤ p.1 → q ≠ p → eps < p.1 - q.1) →
      p ∈ (adjacent (a :: r)).filterMap fun q => if q.2.1 - q.1.1 > eps then some q.2 else none := by
    intro r
    induction r with
    | nil => intro a _ _ hp; simp at hp
    | cons b r ih =>
      intro a hs hne hp hq
      rw [adjacent_cons_cons, List.filterMap_cons]
      by_cases hb : b = p
      · subst hb
        have := hq a List.mem_cons_self ((List.pairwise_cons.1 hs).1 b List.mem_cons_self) hne
        rw [if_pos this]
        exact List.mem_cons_self
      · have hr : p ∈ r := by
          rcases List.mem_cons.1 hp with h' | h'
          · exact absurd h'.symm hb
          · exact h'
        have := ih b (List.pairwise_cons.1 hs).2 hb hr (fun q hq' => hq q (List.mem_cons_of_mem _ hq'))
        split
        · exact this
        · exact List.mem_cons_of_mem _ this
  cases l with
  | nil => simp at hp
  | cons a r =>
    unfold dropClose
    by_cases ha : a = p
    · rw [ha]; exact List.mem_cons_self
    · rcases List.mem_cons.1 hp with h' | h'
      · exact absurd h'.symm ha
      · exact List.mem_cons_of_mem _ (key r a hs ha h' h)

/-- What the loop ends with. -/
private theorem loop_spread (hU : Undulates lo hi d f low high) (t0 t1 eps : ℝ) (n fuel : ℕ) (jd : List ℝ) (w : ℝ) (hw : 0 < w)
    (hd : 2 * w ≤ d) (hs : Spread lo hi f jd w) (found : List (ℝ × ℝ))
    (h : maximaLoop f t0 t1 eps (n + 2) fuel jd = some (some found)) :
    ∃ (samples : List ℝ) (w' : ℝ), 0 < w' ∧ w' ≤ w ∧ Spread lo hi f samples w' ∧
      (found = [] ∨ w' ≤ eps ∧ found = dropClose eps ((identifyMaxima (samples.map fun x => (x, f x))).filter
          fun p => t0 ≤ p.1 ∧ p.1 ≤ t1)) ∧
      ∀ u v z, u ∈ jd → v ∈ jd → z ∈ jd → u < v → v < z → f u < f v → f z < f v →
        (w' ≤ eps ∧ found = dropClose eps ((identifyMaxima (samples.map fun x => (x, f x))).filter
          fun p => t0 ≤ p.1 ∧ p.1 ≤ t1)) ∧
        ∃ u' v' z', u' ∈ samples ∧ v' ∈ samples ∧ z' ∈ samples ∧ u ≤ u' ∧ u' < v' ∧ v' < z' ∧ z' ≤ z ∧
          f u' < f v' ∧ f z' < f v' := by
  induction fuel generalizing jd w with
  | zero => simp [maximaLoop] at h
  | succ fuel ih =>
    unfold maximaLoop at h
    match jd, hs with
    | [], _ => simp [maximaRound] at h
    | [_], _ => simp [maximaRound] at h
    | a :: b :: l, hs =>
      rw [maximaRound_eq] at h
      by_cases h1 : b - a ≤ eps
      · rw [if_pos h1] at h
        simp only [Option.some.injEq] at h
        have hwe : w ≤ eps := by rw [← hs.first a b l rfl]; exact h1
        refine ⟨a :: b :: l, w, hw, le_rfl, hs, Or.inr ⟨hwe, h.symm⟩, ?_⟩
        intro u v z hu hv hz huv hvz e1 e2
        exact ⟨⟨hwe, h.symm⟩, u, v, z, hu, hv, hz, le_refl _, huv, hvz, le_refl _, e1, e2⟩
      · rw [if_neg h1] at h
        by_cases h2 : chooseBrackets ((a :: b :: l).map f) = []
        · rw [if_pos h2] at h
          simp only [Option.some.injEq] at h
          refine ⟨a :: b :: l, w, hw, le_rfl, hs, Or.inl h.symm, ?_⟩
          intro u v z hu hv hz huv hvz e1 e2
          exact absurd h2 (hill_survives f n _ hs.sorted u v z hu hv hz huv hvz e1 e2).1
        · rw [if_neg h2] at h
          simp only at h
          have hn : (0 : ℝ) < n + 1 := by positivity
          have huw : w / (n + 1) ≤ w := div_le_self hw.le (by linarith [(Nat.cast_nonneg n : (0 : ℝ) ≤ n)])
          obtain ⟨samples, w', s0, s1, s2, s3, s4⟩ := ih _ _ (by positivity : 0 < w / (n + 1)) (by linarith) (spread_next hU hw hd hs n) h
          refine ⟨samples, w', s0, by linarith, s2, s3, ?_⟩
          intro u v z hu hv hz huv hvz e1 e2
          obtain ⟨-, u', v', z', m1, m2, m3, q1, q2, q3, q4, q5, q6, q7⟩ :=
            hill_survives f n _ hs.sorted u v z hu hv hz huv hvz e1 e2
          obtain ⟨t1, u2, v2, w2, k1, k2, k3, k4, k5, k6, k7, k8, k9⟩ := s4 u' v' z' m1 m2 m3 q2 q3 q5 q6
          exact ⟨t1, u2, v2, w2, k1, k2, k3, le_trans q1 k4, k5, k6, le_trans k7 q4, k8, k9⟩

/-- The loop started on samples that show a top. -/
private theorem loop_finds (hU : Undulates lo hi d f low high) (t0 t1 eps margin : ℝ) (n fuel : ℕ) (jd : List ℝ) (w : ℝ) (hw : 0 < w)
    (hd : 2 * w ≤ d) (heps : 0 < eps) (hed : 3 * eps < 2 * d) (hm : eps ≤ margin) (hs : Spread lo hi f jd w) (found : List (ℝ × ℝ))
    (h : maximaLoop f t0 t1 eps (n + 2) fuel jd = some (some found))
    (hsee : ∀ k, t0 + margin ≤ high k → high k ≤ t1 - margin → ∃ u v z, u ∈ jd ∧ v ∈ jd ∧ z ∈ jd ∧ u < v ∧ v < z ∧ f u < f v ∧ f z < f v ∧
      high k - 2 * d ≤ u ∧ z ≤ high k + 2 * d) :
    FindsHighs lo hi t0 t1 margin eps f low high found := by
  obtain ⟨samples, w', w0, w1, hs', hf, htrip⟩ := loop_spread hU t0 t1 eps n fuel jd w hw hd hs found h
  have hd0 : 0 < d := by linarith
  have hd' : 2 * w' ≤ d := by linarith
  have hmem : ∀ e ∈ found, w' ≤ eps ∧ t0 ≤ e.1 ∧ e.1 ≤ t1 ∧ ∃ i j, SeenAt f samples i j e.1 e.2 := by
    intro e he
    rcases hf with rfl | ⟨hwe, rfl⟩
    · simp at he
    · have := mem_dropClose _ _ _ he
      rw [List.mem_filter] at this
      have h2 : t0 ≤ e.1 ∧ e.1 ≤ t1 := by simpa using this.2
      refine ⟨hwe, h2.1, h2.2, ?_⟩
      rw [← looks_iff, ← mem_identifyMaxima]
      exact this.1
  have seen_eq : ∀ {i j i' j' : ℕ} {e e' : ℝ × ℝ}, w' ≤ eps → SeenAt f samples i j e.1 e.2 → SeenAt f samples i' j' e'.1 e'.2 →
      |e.1 - e'.1| ≤ 2 * d - 2 * eps - (2 * d - 3 * eps) / 2 → e = e' := by
    intro i j i' j' e e' hwe h1 h2 h3
    obtain ⟨k, k1, k2, k3, -, -⟩ := seen_top hU w0 hd' hs' h1
    obtain ⟨k', q1, q2, q3, -, -⟩ := seen_top hU w0 hd' hs' h2
    have hkk : k = k' := by
      apply high_unique hU hd0
      rw [abs_lt]
      rw [abs_le] at h3 k3 q3
      constructor <;> linarith
    subst hkk
    obtain ⟨a1, a2⟩ := seen_unique hs'.sorted h1 h2 k1 k2 q1 q2
    exact Prod.ext a1 a2
  refine ⟨?_, ?_, ?_⟩
  · intro k g1 g2
    obtain ⟨u, v, z, hu, hv, hz, huv, hvz, e1, e2, b1, b2⟩ := hsee k g1 g2
    obtain ⟨⟨hwe, hfound⟩, u', v', z', m1, m2, m3, q1, q2, q3, q4, q5, q6⟩ := htrip u v z hu hv hz huv hvz e1 e2
    obtain ⟨p, hp⟩ := List.mem_iff_getElem?.1 m1
    obtain ⟨q, hq⟩ := List.mem_iff_getElem?.1 m2
    obtain ⟨r, hr⟩ := List.mem_iff_getElem?.1 m3
    obtain ⟨lp, rfl⟩ := seq_of_get hp
    obtain ⟨lq, rfl⟩ := seq_of_get hq
    obtain ⟨lr, rfl⟩ := seq_of_get hr
    rw [seq_lt_iff hs'.sorted lp lq] at q2
    rw [seq_lt_iff hs'.sorted lq lr] at q3
    obtain ⟨i, j, m, i1, i2, i3, i4, i5, i6, i7⟩ := exists_hill (fun k => f (seq samples k)) p q r q2 q3 q5 q6
    have hseen : SeenAt f samples i j (if j = i + 2 then seq samples (i + 1) else (seq samples i + seq samples j) / 2) m :=
      ⟨by omega, i2, i4, i5, i6, rfl⟩
    generalize htt : (if j = i + 2 then seq samples (i + 1) else (seq samples i + seq samples j) / 2) = t at hseen
    obtain ⟨k', k1, k2, k3, -, -⟩ := seen_top hU w0 hd' hs' hseen
    have s1 : seq samples p ≤ seq samples i := (seq_le_iff hs'.sorted (by omega) (by omega)).2 i1
    have s2 : seq samples j ≤ seq samples r := (seq_le_iff hs'.sorted (by omega) (by omega)).2 i3
    have hkk : k' = k := by
      apply high_unique hU hd0
      rw [abs_lt]
      constructor <;> linarith
    subst hkk
    rw [abs_le] at k3
    have hin : (t, m) ∈ (identifyMaxima (samples.map fun x => (x, f x))).filter fun p => t0 ≤ p.1 ∧ p.1 ≤ t1 := by
      rw [List.mem_filter, mem_identifyMaxima, looks_iff]
      refine ⟨⟨i, j, hseen⟩, ?_⟩
      simp only [decide_eq_true_eq]
      exact ⟨by linarith, by linarith⟩
    refine ⟨(t, m), ⟨?_, ?_⟩, ?_⟩
    · rw [hfound]
      refine mem_dropClose_of_apart (List.Pairwise.filter _ (identifyMaxima_sorted _)) hin ?_
      intro e he hle hne
      by_contra hc
      rw [List.mem_filter, show e = (e.1, e.2) from rfl, mem_identifyMaxima, looks_iff] at he
      obtain ⟨⟨i', j', he⟩, -⟩ := he
      refine hne (seen_eq (e := e) (e' := (t, m)) hwe he hseen ?_)
      have hc := not_lt.1 hc
      simp only at hc hle ⊢
      rw [abs_le]
      constructor <;> linarith
    · rw [abs_le]
      constructor <;> linarith
    · rintro e ⟨he, hek⟩
      obtain ⟨-, -, -, i', j', he'⟩ := hmem e he
      obtain ⟨k2, p1, p2, p3, -, -⟩ := seen_top hU w0 hd' hs' he'
      rw [abs_le] at hek p3
      have : k2 = k' := by
        apply high_unique hU hd0
        rw [abs_lt]
        constructor <;> linarith
      subst this
      obtain ⟨a1, a2⟩ := seen_unique hs'.sorted he' hseen p1 p2 k1 (by assumption)
      exact Prod.ext a1 a2
  · intro e he
    obtain ⟨hwe, g1, g2, i, j, hseen⟩ := hmem e he
    obtain ⟨k, -, -, k3, k4, k5⟩ := seen_top hU w0 hd' hs' hseen
    exact ⟨g1, g2, k, by linarith, k4, fun x x1 x2 x3 x4 x5 => k5 x x1 x2 x3 x4 (by linarith)⟩
  · rcases hf with rfl | ⟨hwe, rfl⟩
    · exact List.Pairwise.nil
    · refine (dropClose_apart _ _ (List.Pairwise.filter _ (identifyMaxima_sorted _))).imp ?_
      intro a b hab
      linarith

/-! ### the first samples -/

private theorem seq_linspace (a b : ℝ) (m i : ℕ) (h : i < m) : seq (npLinspace a b m) i = a + i * ((b - a) / ((m : ℝ) - 1)) := by
  unfold seq npLinspace
  rw [List.getD_eq_getElem?_getD, List.getElem?_map, List.getElem?_range h]
  rfl

private theorem length_linspace (a b : ℝ) (m : ℕ) : (npLinspace a b m).length = m := by
  simp [npLinspace]

/-- Evenly spaced samples show every top that is not before the second or after the last but one. -/
private theorem uniform_finds (hU : Undulates lo hi d f low high) (t0 t1 eps margin a w : ℝ) (m n fuel : ℕ) (hw : 0 < w)
    (hd : 2 * w ≤ d) (heps : 0 < eps) (hed : 3 * eps < 2 * d) (hm : eps ≤ margin) (ha : lo ≤ a) (hb : a + (m + 2 : ℕ) * w ≤ hi)
    (h0 : a + w ≤ t0 + margin) (h1 : t1 - margin ≤ a + (m + 1 : ℕ) * w) (found : List (ℝ × ℝ))
    (h : maximaLoop f t0 t1 eps (n + 2) fuel (npLinspace a (a + (m + 2 : ℕ) * w) (m + 3)) = some (some found)) :
    FindsHighs lo hi t0 t1 margin eps f low high found := by
  have hsp : (a + (m + 2 : ℕ) * w - a) / (((m + 3 : ℕ) : ℝ) - 1) = w := by
    have : ((m : ℝ) + 3 - 1) ≠ 0 := by have : (0 : ℝ) ≤ m := Nat.cast_nonneg m; linarith
    push_cast
    field_simp
    ring
  have hseq : ∀ i, i < m + 3 → seq (npLinspace a (a + (m + 2 : ℕ) * w) (m + 3)) i = a + i * w := by
    intro i hi
    rw [seq_linspace _ _ _ _ hi, hsp]
  have hlen := length_linspace a (a + (m + 2 : ℕ) * w) (m + 3)
  have hmem : ∀ i : ℕ, i < m + 3 → a + i * w ∈ npLinspace a (a + (m + 2 : ℕ) * w) (m + 3) := by
    intro i hi
    rw [← hseq i hi]
    exact seq_mem' (by omega)
  have hlt : a < a + (m + 2 : ℕ) * w := by
    have : (0 : ℝ) < ((m + 2 : ℕ) : ℝ) := by positivity
    have := mul_pos this hw
    linarith
  have hadj : ∀ p ∈ adjacent (npLinspace a (a + (m + 2 : ℕ) * w) (m + 3)), p.2 - p.1 = w := by
    intro p hp
    rw [npLinspace_adjacent _ _ _ p hp, hsp]
  generalize hjd : npLinspace a (a + (m + 2 : ℕ) * w) (m + 3) = jd at *
  have hspread : Spread lo hi f jd w := by
    refine ⟨by rw [← hjd]; exact npLinspace_strict _ _ (m + 1) hlt, ?_, ?_, ?_, ?_⟩
    · intro x hx
      rw [← hjd] at hx
      have := npLinspace_mem _ _ (m + 1) hlt.le x hx
      exact ⟨by linarith [this.1], by linarith [this.2]⟩
    · intro x y l e
      exact hadj (x, y) (by rw [e, adjacent_cons_cons]; exact List.mem_cons_self)
    · intro x y z _ h2 h3
      exact absurd (hadj _ h2) h3
    · intro x y z h2 _ h3
      exact absurd (hadj _ h2) h3
  refine loop_finds hU t0 t1 eps margin n fuel jd w hw hd heps hed hm hspread found h ?_
  intro k g1 g2
  have hr := hU.rise k
  have hf := hU.fall k
  have up : ∀ x y, lo ≤ x → y ≤ hi → high k - d ≤ x → x < y → y ≤ high k → f x < f y := fun x y x1 x2 x3 x4 x5 =>
    undulates_up hU k x1 x2 (by linarith) x5 _ _ le_rfl x4 le_rfl
  have down : ∀ x y, lo ≤ x → y ≤ hi → high k ≤ x → x < y → y ≤ high k + d → f y < f x := fun x y x1 x2 x3 x4 x5 =>
    undulates_down hU k x1 x2 x3 (by linarith) _ _ le_rfl x4 le_rfl
  have hc1 : 1 ≤ ⌈(high k - a) / w⌉ := by
    have : 0 < (high k - a) / w := div_pos (by linarith) hw
    exact Int.one_le_ceil_iff.2 this
  obtain ⟨i, hci⟩ : ∃ i : ℕ, ⌈(high k - a) / w⌉ = (i : ℤ) + 1 := ⟨(⌈(high k - a) / w⌉ - 1).toNat, by omega⟩
  have c1 := Int.le_ceil ((high k - a) / w)
  have c2 := Int.ceil_lt_add_one ((high k - a) / w)
  rw [hci] at c1 c2
  push_cast at c1 c2
  rw [div_le_iff₀ hw] at c1
  have c2' : (i : ℝ) < (high k - a) / w := by linarith
  rw [lt_div_iff₀ hw] at c2'
  have him : i + 1 ≤ m + 1 := by
    have : (i : ℝ) * w < ((m + 1 : ℕ) : ℝ) * w := by linarith
    have := lt_of_mul_lt_mul_right this hw.le
    have : i < m + 1 := by exact_mod_cast this
    omega
  have top : ∀ j : ℕ, j < m + 3 → a + j * w ≤ hi := by
    intro j hj
    have : (j : ℝ) ≤ ((m + 2 : ℕ) : ℝ) := by exact_mod_cast (by omega : j ≤ m + 2)
    have := mul_le_mul_of_nonneg_right this hw.le
    linarith
  have bot : ∀ j : ℕ, lo ≤ a + j * w := by
    intro j
    have : (0 : ℝ) ≤ j * w := by positivity
    linarith
  have b1 := top (i + 1) (by omega)
  have b2 := top (i + 2) (by omega)
  have m0 := hmem i (by omega)
  have m1 := hmem (i + 1) (by omega)
  have m2 := hmem (i + 2) (by omega)
  have l0 := bot i
  have l1 := bot (i + 1)
  push_cast at b1 b2 m1 m2 l1
  have fall : f (a + (i + 2) * w) < f (a + (i + 1) * w) := down _ _ l1 b2 (by linarith) (by linarith) (by linarith)
  rcases Nat.eq_zero_or_pos i with rfl | hpos
  · have e : high k = a + w := by push_cast at c1; linarith
    refine ⟨_, _, _, m0, m1, m2, by linarith, by linarith, ?_, fall, by push_cast; linarith, by push_cast; linarith⟩
    exact up _ _ l0 b1 (by push_cast; linarith) (by linarith) (by push_cast; linarith)
  · obtain ⟨i', rfl⟩ : ∃ i', i = i' + 1 := ⟨i - 1, by omega⟩
    have mm := hmem i' (by omega)
    have lm := bot i'
    push_cast at *
    have rise : f (a + i' * w) < f (a + (i' + 1) * w) := up _ _ lm (by linarith) (by linarith) (by linarith) (by linarith)
    rcases le_or_gt (f (a + (i' + 1 + 1) * w)) (f (a + (i' + 1) * w)) with c | c
    · exact ⟨_, _, _, mm, m0, m2, by linarith, by linarith, rise, by linarith, by linarith, by linarith⟩
    · exact ⟨_, _, _, mm, m1, m2, by linarith, by linarith, by linarith, fall, by linarith, by linarith⟩

/-- **C116.** `find_maxima` with `step_days`, on a function whose rises and falls each last at least two steps: every top between the two
times that is not within `epsilon` or a small margin of them is reported, once, within `epsilon` of its moment, and nothing else is. -/
theorem C116_maxima (t0 t1 eps step : ℝ) (f : Searchable ℝ ℝ) (num fuel n : ℕ) (low high : ℤ → ℝ) (found : List (ℝ × ℝ)) (hnum : 2 ≤ num)
    (hstep : f.stepDays = some step) (h0 : 0 < step) (heps : 0 < eps) (hes : eps ≤ step)
    (hn : n * step ≤ t1 - t0 ∧ t1 - t0 < (n + 1) * step)
    (hU : Undulates (t0 - step) (t1 + step) (2 * step) f.call low high)
    (h : findMaxima t0 t1 f eps num fuel = .ok (some (some found))) :
    FindsHighs (t0 - step) (t1 + step) t0 t1 (max eps ((t1 - t0) / ((n + 3) * (n + 4)))) eps f.call low high found := by
  unfold findMaxima at h
  cases hs : maximaSamples t0 t1 f num with
  | error e => rw [hs] at h; simp at h
  | ok jd =>
    rw [hs] at h
    simp only [Except.ok.injEq] at h
    have hlt : t0 < t1 := by
      by_contra hc
      unfold maximaSamples at hs
      rw [if_pos (by simpa using hc)] at hs
      simp at hs
    obtain ⟨m, rfl⟩ : ∃ m, num = m + 2 := ⟨num - 2, by omega⟩
    have hn0 : (0 : ℝ) ≤ n := Nat.cast_nonneg n
    have hfl : astypeInt ((t1 - t0) / step) = n := by
      unfold astypeInt
      rw [if_pos (div_nonneg (by linarith) h0.le), Int.floor_eq_iff]
      push_cast
      rw [le_div_iff₀ h0, div_lt_iff₀ h0]
      exact hn
    set rs := (t1 - t0) / ((n : ℝ) + 3) with hrs
    have h3 : (0 : ℝ) < n + 3 := by linarith
    have h4 : (0 : ℝ) < n + 4 := by linarith
    have hr0 : 0 < rs := div_pos (by linarith) h3
    have hrm : rs * (n + 3) = t1 - t0 := by rw [hrs]; field_simp
    set w := rs * (n + 5) / (n + 4) with hw
    have hw0 : 0 < w := by positivity
    have hww : w * (n + 4) = rs * (n + 5) := by rw [hw]; field_simp
    have e : maximaSamples t0 t1 f (m + 2) = .ok (npLinspace (t0 - rs) (t1 + rs) (n + 2 + 3)) := by
      unfold maximaSamples
      rw [if_neg (not_le.2 hlt)]
      simp only [hstep, hfl]
      rw [if_neg (by omega), show (((n : ℕ) : ℤ) + 3 + 2).toNat = n + 2 + 3 by omega]
      congr 2
      all_goals (rw [hrs]; push_cast; rfl)
    rw [e, Except.ok.injEq] at hs
    subst hs
    have hend : t1 + rs = t0 - rs + ((n + 2 + 2 : ℕ) : ℝ) * w := by
      push_cast
      rw [show (n : ℝ) + 2 + 2 = n + 4 by ring, mul_comm, hww]
      linarith
    rw [hend] at h
    have hws : w < step := by
      have h5 : rs * (n + 3) < (n + 1) * step := by rw [hrm]; exact hn.2
      have h6 : rs * (n + 5) * (n + 3) < step * (n + 4) * (n + 3) := by nlinarith
      have h7 := lt_of_mul_lt_mul_right h6 h3.le
      rw [← hww] at h7
      exact lt_of_mul_lt_mul_right h7 h4.le
    have hrw : w - rs = (t1 - t0) / ((n + 3) * (n + 4)) := by
      rw [hw, hrs]; field_simp; ring
    have hrsw : rs < w := by
      have : 0 < (t1 - t0) / ((n + 3) * ((n : ℝ) + 4)) := by apply div_pos <;> [linarith; positivity]
      linarith
    refine uniform_finds hU t0 t1 eps _ (t0 - rs) w (n + 2) m fuel hw0 (by linarith) heps (by linarith) (le_max_left _ _) (by linarith)
      (by rw [← hend]; linarith) ?_ ?_ found h
    · have := le_max_right eps ((t1 - t0) / ((n + 3) * ((n : ℝ) + 4)))
      linarith
    · have := le_max_right eps ((t1 - t0) / ((n + 3) * ((n : ℝ) + 4)))
      have h5 : t0 - rs + ((n + 2 + 1 : ℕ) : ℝ) * w = t1 + rs - w := by rw [hend]; push_cast; ring
      rw [h5]
      linarith

/-- **C116.** The same for a function with a `rough_period` and no `step_days`, whose rises and falls each last at least three times that period
divided by `num`. -/
theorem C116_maxima_rough (t0 t1 eps period : ℝ) (f : Searchable ℝ ℝ) (num fuel n : ℕ) (low high : ℤ → ℝ) (found : List (ℝ × ℝ))
    (hnum : 2 ≤ num) (hstep : f.stepDays = none) (hperiod : f.roughPeriod = some period) (h0 : 0 < period) (heps : 0 < eps)
    (hes : eps ≤ period / num) (hn : n * (period / num) ≤ t1 - t0 ∧ t1 - t0 < (n + 1) * (period / num))
    (hU : Undulates (t0 - period / num) (t1 + period / num) (3 * (period / num)) f.call low high)
    (h : findMaxima t0 t1 f eps num fuel = .ok (some (some found))) :
    FindsHighs (t0 - period / num) (t1 + period / num) t0 t1 (max eps (period / num / (n + 2))) eps f.call low high found := by
  unfold findMaxima at h
  cases hs : maximaSamples t0 t1 f num with
  | error e => rw [hs] at h; simp at h
  | ok jd =>
    rw [hs] at h
    simp only [Except.ok.injEq] at h
    have hlt : t0 < t1 := by
      by_contra hc
      unfold maximaSamples at hs
      rw [if_pos (by simpa using hc)] at hs
      simp at hs
    have hp0 : 0 < period / num := div_pos h0 (by exact_mod_cast (by omega : 0 < num))
    have hn0 : (0 : ℝ) ≤ n := Nat.cast_nonneg n
    have hfl : astypeInt ((t1 - t0) / (period / num)) = n := by
      unfold astypeInt
      rw [if_pos (div_nonneg (by linarith) hp0.le), Int.floor_eq_iff]
      push_cast
      rw [le_div_iff₀ hp0, div_lt_iff₀ hp0]
      exact hn
    have e : maximaSamples t0 t1 f num = .ok (npLinspace (t0 - period / num) (t1 + period / num) (n + 3)) := by
      unfold maximaSamples
      rw [if_neg (not_le.2 hlt)]
      simp only [hstep, hperiod, hfl]
      rw [if_neg (by omega), show (((n : ℕ) : ℤ) + 3).toNat = n + 3 by omega]
    rw [e, Except.ok.injEq] at hs
    subst hs
    obtain ⟨m, rfl⟩ : ∃ m, num = m + 2 := ⟨num - 2, by omega⟩
    generalize period / ((m + 2 : ℕ) : ℝ) = bump at *
    set w := (t1 - t0 + 2 * bump) / (n + 2) with hw
    have h2 : (0 : ℝ) < n + 2 := by linarith
    have hww : w * (n + 2) = t1 - t0 + 2 * bump := by rw [hw]; field_simp
    have hend : t1 + bump = t0 - bump + ((n + 2 : ℕ) : ℝ) * w := by
      push_cast
      rw [mul_comm, hww]; ring
    rw [hend] at h
    have hw1 : bump ≤ w := by
      have : bump * (n + 2) ≤ w * (n + 2) := by rw [hww]; linarith [hn.1]
      exact le_of_mul_le_mul_right this h2
    have hw2 : w - bump < bump / (n + 2) := by
      rw [lt_div_iff₀ h2, sub_mul, hww]
      linarith [hn.2]
    have hw3 : 2 * w ≤ 3 * bump := by
      have : bump / (n + 2) ≤ bump / 2 := by apply div_le_div_of_nonneg_left hp0.le (by norm_num); linarith
      linarith
    have hmr := le_max_right eps (bump / ((n : ℝ) + 2))
    refine uniform_finds hU t0 t1 eps _ (t0 - bump) w n m fuel (by linarith) (by linarith) heps (by linarith) (le_max_left _ _) le_rfl
      (by rw [← hend]) (by linarith) ?_ found h
    have h5 : t0 - bump + ((n + 1 : ℕ) : ℝ) * w = t1 + bump - w := by rw [hend]; push_cast; ring
    rw [h5]
    linarith

/-- What goes up and down goes down and up when turned over. -/
theorem undulates_neg (hU : Undulates lo hi d f low high) : Undulates lo hi d (fun t => -f t) high (fun k => low (k + 1)) where
  rise := hU.fall
  fall := fun k => hU.rise (k + 1)
  up := fun k a ha b hb hab => neg_lt_neg (hU.down k ha hb hab)
  down := fun k a ha b hb hab => neg_lt_neg (hU.up (k + 1) ha hb hab)

/-- **C116.** `find_minima` finds the lows in the same way: `k`-th low of the function is the `k`-th high of its negative. -/
theorem C116_minima (t0 t1 eps step : ℝ) (f : Searchable ℝ ℝ) (num fuel n : ℕ) (low high : ℤ → ℝ) (found : List (ℝ × ℝ)) (hnum : 2 ≤ num)
    (hstep : f.stepDays = some step) (h0 : 0 < step) (heps : 0 < eps) (hes : eps ≤ step)
    (hn : n * step ≤ t1 - t0 ∧ t1 - t0 < (n + 1) * step)
    (hU : Undulates (t0 - step) (t1 + step) (2 * step) f.call low high)
    (h : findMinima t0 t1 f eps num fuel = .ok (some (some found))) :
    (∀ k, t0 + max eps ((t1 - t0) / ((n + 3) * (n + 4))) ≤ low k → low k ≤ t1 - max eps ((t1 - t0) / ((n + 3) * (n + 4))) →
      ∃! e, e ∈ found ∧ |e.1 - low k| ≤ eps) ∧
    (∀ e ∈ found, t0 ≤ e.1 ∧ e.1 ≤ t1 ∧ ∃ k, |e.1 - low k| ≤ eps ∧ f.call (low k) ≤ e.2 ∧
      ∀ x, t0 - step ≤ x → x ≤ t1 + step → high (k - 1) ≤ x → x ≤ high k → eps ≤ |x - low k| → e.2 ≤ f.call x) ∧
    found.Pairwise fun a b => a.1 < b.1 := by
  unfold findMinima at h
  cases hm : findMaxima t0 t1 ⟨fun t => -f.call t, f.stepDays, f.roughPeriod⟩ eps num fuel with
  | error e => simp only [hm] at h; simp at h
  | ok r =>
    simp only [hm] at h
    rcases r with _ | _ | l
    · simp at h
    · simp at h
    · simp only [Option.map_some, Except.ok.injEq, Option.some.injEq] at h
      subst h
      have key := C116_maxima t0 t1 eps step ⟨fun t => -f.call t, f.stepDays, f.roughPeriod⟩ num fuel n high (fun k => low (k + 1)) l hnum
        hstep h0 heps hes hn (undulates_neg hU) hm
      refine ⟨?_, ?_, ?_⟩
      · intro k g1 g2
        obtain ⟨e, ⟨e1, e2⟩, e3⟩ := key.each (k - 1) (by simpa using g1) (by simpa using g2)
        simp only [sub_add_cancel] at e2 e3
        refine ⟨(e.1, -e.2), ⟨List.mem_map.2 ⟨e, e1, rfl⟩, e2⟩, ?_⟩
        rintro e' ⟨he', h2⟩
        obtain ⟨e'', h3, rfl⟩ := List.mem_map.1 he'
        rw [e3 e'' ⟨h3, h2⟩]
      · intro e he
        obtain ⟨e', h3, rfl⟩ := List.mem_map.1 he
        obtain ⟨g1, g2, k, g3, g4, g5⟩ := key.only e' h3
        refine ⟨g1, g2, k + 1, g3, by simp only at g4 ⊢; linarith, ?_⟩
        intro x x1 x2 x3 x4 x5
        have := g5 x x1 x2 (by simpa using x3) x4 x5
        simp only at this ⊢
        linarith
      · rw [List.pairwise_map]
        exact key.inOrder

/-! ### what is missed -/

/-- Rises with slope 1 until 3/10 and falls a hundred times as fast from then on. -/
def cliff (x : ℚ) : ℚ := if x ≤ 3/10 then x else 3/10 - 100 * (x - 3/10)

/-- **C116 (finding).** The margin is needed: the samples of a search of 12 days with a step of 12 days start three days early, but the second is
0.6 days late, and a maximum in between may be followed by so steep a fall that the search does not see it.  This function has only one
maximum, 0.3 days after the start, and none is reported. -/
theorem C116_early_maximum_missed :
    findMaxima (0 : ℚ) 12 ⟨cliff, some 12, none⟩ (1/10) 4 5 = .ok (some (some [])) ∧
    (∀ x y : ℚ, x < y → y ≤ 3/10 → cliff x < cliff y) ∧ ∀ x y : ℚ, 3/10 ≤ x → x < y → cliff y < cliff x := by
  refine ⟨by decide +kernel, ?_, ?_⟩
  · intro x y h1 h2
    unfold cliff
    rw [if_pos h2, if_pos (by linarith)]
    exact h1
  · intro x y h1 h2
    unfold cliff
    rw [if_neg (by linarith)]
    split
    · have : x = 3/10 := by linarith
      subst this; linarith
    · linarith

/-- Falls until 2640/187, rises until 2970/187, and falls again. -/
def sawtooth (x : ℚ) : ℚ :=
  if x ≤ 2640/187 then 1000 * (2640/187 - x) else if x ≤ 2970/187 then x - 2640/187 else 330/187 - 1000 * (x - 2970/187)

/-- **C116 (finding).** Two steps are needed: a maximum at the end of a rise of 1.76 steps, in the middle of a search of 30 steps, can be missed. -/
theorem C116_short_rise_missed :
    findMaxima (0 : ℚ) 30 ⟨sawtooth, some 1, none⟩ (1/10) 4 5 = .ok (some (some [])) ∧
    (∀ x y : ℚ, 2640/187 ≤ x → x < y → y ≤ 2970/187 → sawtooth x < sawtooth y) ∧
    (∀ x y : ℚ, 2970/187 ≤ x → x < y → sawtooth y < sawtooth x) ∧ (1.76 : ℚ) < 2970/187 - 2640/187 := by
  refine ⟨by decide +kernel, ?_, ?_, by norm_num⟩
  · intro x y h1 h2 h3
    unfold sawtooth
    rw [if_neg (show ¬ y ≤ 2640/187 by linarith), if_pos h3]
    split
    · have : x = 2640/187 := by linarith
      subst this; linarith
    · rw [if_pos (by linarith)]; linarith
  · intro x y h1 h2
    unfold sawtooth
    rw [if_neg (show ¬ y ≤ 2640/187 by linarith), if_neg (show ¬ y ≤ 2970/187 by linarith), if_neg (show ¬ x ≤ 2640/187 by linarith)]
    split
    · have : x = 2970/187 := by linarith
      subst this; linarith
    · linarith

end Skyfield
