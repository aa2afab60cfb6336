import Verif.Lemmas.MaximaRounds
import Verif.Lemmas.FloatSearch
import Verif.Lemmas.FloatTime
import Verif.Model.FloatMaxima

/- Lemmas for C105: `find_maxima` with rounding. -/
namespace Skyfield
open Spec

variable {fl : ℚ → ℚ}

/-! ### the parts rounding does not change -/

theorem npSign_fl (hf : RoundsToNearest fl) (x : ℚ) : npSign (fl x) = npSign x := by
  rcases lt_trichotomy x 0 with h | h | h
  · have := (fl_neg_iff hf).2 h
    unfold npSign
    rw [if_pos this, if_pos h]
  · rw [h, fl_zero hf]
  · have := fl_pos hf h
    unfold npSign
    rw [if_neg (by linarith), if_pos this, if_neg (by linarith), if_pos h]

theorem diffSignDiffF_eq (hf : RoundsToNearest fl) (y : List ℚ) : diffSignDiffF fl y = diffSignDiff y := by
  unfold diffSignDiffF diffSignDiff
  simp only [npSign_fl hf]

theorem chooseBracketsF_eq (hf : RoundsToNearest fl) (y : List ℚ) : chooseBracketsF fl y = chooseBrackets y := by
  unfold chooseBracketsF chooseBrackets
  rw [diffSignDiffF_eq hf]

theorem identifyMaximaF_eq (hf : RoundsToNearest fl) (xy : List (ℚ × ℚ)) :
    identifyMaximaF fl xy = identifyMaximaWith (fun a b => fl (fl (a + b) / 2)) xy := by
  unfold identifyMaximaF identifyMaximaWith
  rw [diffSignDiffF_eq hf]

theorem sampleDiffF_err (hf : RoundsToNearest fl) {a b : ℚ} (ha : |a| ≤ 2 ^ 22) (hb : |b| ≤ 2 ^ 22) :
    |sampleDiffF fl a b - (b - a)| ≤ 1 / 10 ^ 9 := by
  unfold sampleDiffF
  simp only [divmodF_one]
  have fr : ∀ x : ℚ, |fl (x - ⌊x⌋) - (x - ⌊x⌋)| ≤ 1 / 2 ^ 53 := by
    intro x
    refine fl_err hf (abs_le.2 ⟨?_, ?_⟩)
    · have := Int.floor_le x; linarith
    · have := Int.lt_floor_add_one x; linarith
  have whole : fl ((⌊b⌋ : ℚ) - ⌊a⌋) = (⌊b⌋ : ℚ) - ⌊a⌋ := by
    have h : |⌊b⌋ - ⌊a⌋| ≤ 2 ^ 53 := by
      rw [abs_le] at ha hb
      have b1 : -(2 ^ 22) ≤ ⌊b⌋ := Int.le_floor.2 (by push_cast; exact hb.1)
      have a1 : -(2 ^ 22) ≤ ⌊a⌋ := Int.le_floor.2 (by push_cast; exact ha.1)
      have b2 : ⌊b⌋ ≤ 2 ^ 22 := by
        have : (⌊b⌋ : ℚ) ≤ 2 ^ 22 := (Int.floor_le b).trans hb.2
        exact_mod_cast this
      have a2 : ⌊a⌋ ≤ 2 ^ 22 := by
        have : (⌊a⌋ : ℚ) ≤ 2 ^ 22 := (Int.floor_le a).trans ha.2
        exact_mod_cast this
      rw [abs_le]; constructor <;> linarith
    have := fl_int hf h
    push_cast at this
    exact this
  rw [whole]
  have ea := fr a
  have eb := fr b
  have a1 := Int.floor_le a
  have a2 := Int.lt_floor_add_one a
  have b1 := Int.floor_le b
  have b2 := Int.lt_floor_add_one b
  generalize fl (a - ⌊a⌋) = A at *
  generalize fl (b - ⌊b⌋) = B at *
  generalize (⌊a⌋ : ℚ) = m at *
  generalize (⌊b⌋ : ℚ) = n at *
  rw [abs_le] at ea eb ha hb
  have e1 : |fl (B - A) - (B - A)| ≤ 2 / 2 ^ 53 :=
    fl_err hf (abs_le.2 ⟨by norm_num at *; linarith, by norm_num at *; linarith⟩)
  generalize fl (B - A) = C at *
  rw [abs_le] at e1
  have e2 : |fl (n - m + C) - (n - m + C)| ≤ (2 ^ 23 + 1) / 2 ^ 53 :=
    fl_err hf (abs_le.2 ⟨by norm_num at *; linarith, by norm_num at *; linarith⟩)
  rw [abs_le] at e2 ⊢
  norm_num at *
  constructor <;> linarith

/-! ### one round -/

theorem bracketPointsF_subdivides (hf : RoundsToNearest fl) (n : ℕ) {a b : ℚ} (fa : IsFloat a) (fb : IsFloat b)
    (ha : |a| ≤ 2 ^ 22) (hb : |b| ≤ 2 ^ 22) (hgap : 4 / 10 ^ 9 * ((n:ℚ) + 1) < b - a) :
    Subdivides (bracketPointsF fl (n + 2)) a b := by
  have n0 : (0:ℚ) < (n:ℚ) + 1 := by positivity
  obtain ⟨h1, h2⟩ := bracketPointsF_ends hf n (a, b) fa fb
  refine ⟨?_, h1, h2⟩
  rw [bracketPointsF_eq hf, List.pairwise_map]
  have hstep : ∀ i, i + 1 ≤ n + 1 → refinedF fl n (a, b) i < refinedF fl n (a, b) (i + 1) := by
    intro i hi
    have := refinedF_width hf n (a, b) ha hb i hi
    rw [abs_le] at this
    have h3 : 4 / 10 ^ 9 < (b - a) / ((n:ℚ) + 1) := by rw [lt_div_iff₀ n0]; exact hgap
    simp only at this
    linarith [this.1]
  have hlt : ∀ d i, i + d + 1 ≤ n + 1 → refinedF fl n (a, b) i < refinedF fl n (a, b) (i + d + 1) := by
    intro d
    induction d with
    | zero => intro i hi; exact hstep i hi
    | succ d ih =>
      intro i hi
      exact (ih i (by omega)).trans (hstep (i + d + 1) (by omega))
  refine List.Pairwise.imp_of_mem ?_ List.pairwise_lt_range
  intro i j _ hj hij
  rw [List.mem_range] at hj
  have := hlt (j - i - 1) i (by omega)
  rwa [show i + (j - i - 1) + 1 = j by omega] at this

theorem bracketPointsF_gap (hf : RoundsToNearest fl) (n : ℕ) {a b : ℚ} (ha : |a| ≤ 2 ^ 22) (hb : |b| ≤ 2 ^ 22)
    (p : ℚ × ℚ) (hp : p ∈ adjacent (bracketPointsF fl (n + 2) (a, b))) :
    |p.2 - p.1 - (b - a) / ((n:ℚ) + 1)| ≤ 4 / 10 ^ 9 := by
  rw [bracketPointsF_eq hf, mem_adjacent_map_range] at hp
  obtain ⟨i, hi, rfl⟩ := hp
  exact refinedF_width hf n (a, b) ha hb i (by omega)

theorem bracketPointsF_float (hf : RoundsToNearest fl) (n : ℕ) (b : ℚ × ℚ) (x : ℚ)
    (hx : x ∈ bracketPointsF fl (n + 2) b) : IsFloat x := by
  rw [bracketPointsF_eq hf, List.mem_map] at hx
  obtain ⟨i, -, rfl⟩ := hx
  exact hf.float _

/-- The samples of a round are evenly spaced where it matters: none is closer to the next than `w`, the
first two are `w` apart, and so are those around the first drop, all but for `8e-9` days. -/
structure Spaced (f : ℚ → ℚ) (jd : List ℚ) (w : ℚ) : Prop where
  sorted : jd.Pairwise (· < ·)
  two : 2 ≤ jd.length
  float : ∀ x ∈ jd, IsFloat x
  small : ∀ x ∈ jd, |x| ≤ 2 ^ 22
  gap : ∀ k, k + 1 < jd.length → w - 8 / 10 ^ 9 ≤ seq jd (k + 1) - seq jd k
  first : seq jd 1 - seq jd 0 ≤ w + 8 / 10 ^ 9
  drop : ∀ i, FirstDrop f jd i →
    seq jd (i + 1) - seq jd i ≤ w + 8 / 10 ^ 9 ∧ seq jd (i + 2) - seq jd (i + 1) ≤ w + 8 / 10 ^ 9

theorem seq_mem {jd : List ℚ} {k : ℕ} (h : k < jd.length) : seq jd k ∈ jd := by
  exact List.mem_of_getElem? (seq_get h)

theorem adjacent_seq (l : List ℚ) (k : ℕ) (hk : k + 1 < l.length) : (seq l k, seq l (k + 1)) ∈ adjacent l := by
  rw [mem_adjacent_iff]
  exact ⟨k, seq_get (by omega), seq_get hk⟩

theorem Spaced.subdivides (hf : RoundsToNearest fl) {f : ℚ → ℚ} {jd : List ℚ} {w : ℚ} (h : Spaced f jd w) (n : ℕ)
    (hw : 4 / 10 ^ 9 * ((n:ℚ) + 1) + 8 / 10 ^ 9 < w) : SubdividesAll (bracketPointsF fl (n + 2)) jd := by
  intro k hk
  have m1 := seq_mem (show k < jd.length by omega)
  have m2 := seq_mem hk
  have := h.gap k hk
  exact bracketPointsF_subdivides hf n (h.float _ m1) (h.float _ m2) (h.small _ m1) (h.small _ m2) (by linarith)

private theorem gap_up {n D w : ℚ} (hn : 1 ≤ n) {x : ℚ} (hx : |x - D / (n + 1)| ≤ 4 / 10 ^ 9) (h : D ≤ w + 8 / 10 ^ 9) :
    x ≤ w / (n + 1) + 8 / 10 ^ 9 := by
  have n0 : 0 < n + 1 := by linarith
  have h1 := div_le_div_of_nonneg_right h n0.le
  rw [add_div] at h1
  have h2 : 8 / 10 ^ 9 / (n + 1) ≤ 8 / 10 ^ 9 / 2 := div_le_div_of_nonneg_left (by norm_num) (by norm_num) (by linarith)
  rw [abs_le] at hx
  linarith [hx.2]

private theorem gap_down {n D w : ℚ} (hn : 1 ≤ n) {x : ℚ} (hx : |x - D / (n + 1)| ≤ 4 / 10 ^ 9) (h : w - 8 / 10 ^ 9 ≤ D) :
    w / (n + 1) - 8 / 10 ^ 9 ≤ x := by
  have n0 : 0 < n + 1 := by linarith
  have h1 := div_le_div_of_nonneg_right h n0.le
  rw [sub_div] at h1
  have h2 : 8 / 10 ^ 9 / (n + 1) ≤ 8 / 10 ^ 9 / 2 := div_le_div_of_nonneg_left (by norm_num) (by norm_num) (by linarith)
  rw [abs_le] at hx
  linarith [hx.1]

private theorem gap_far {n a b c w : ℚ} (hn : 1 ≤ n) (w0 : 0 ≤ w) (h : w - 8 / 10 ^ 9 ≤ b - a) (hc : b ≤ c) :
    w / (n + 1) - 8 / 10 ^ 9 ≤ c - a := by
  have : w / (n + 1) ≤ w := div_le_self w0 (by linarith)
  linarith

theorem Spaced.next (hf : RoundsToNearest fl) {f : ℚ → ℚ} {jd : List ℚ} {w : ℚ} (h : Spaced f jd w) (n : ℕ) (hn : 1 ≤ n)
    (hw : 4 / 10 ^ 9 * ((n:ℚ) + 1) + 8 / 10 ^ 9 < w) (hc : chooseBrackets (jd.map f) ≠ []) :
    Spaced f (nextSamplesWith (bracketPointsF fl (n + 2)) f jd) (w / ((n:ℚ) + 1)) := by
  have hp := h.subdivides hf n hw
  have n1 : (1:ℚ) ≤ n := by exact_mod_cast hn
  have n0 : (0:ℚ) < (n:ℚ) + 1 := by linarith
  have w0 : 0 < w := by
    have : 0 < 4 / 10 ^ 9 * ((n:ℚ) + 1) + 8 / 10 ^ 9 := by positivity
    linarith
  obtain ⟨i, hi⟩ := exists_firstDrop f jd hc
  have hlen := ((mem_drop_indices f jd i).1 hi.1).1
  have sm : ∀ k, k < jd.length → |seq jd k| ≤ 2 ^ 22 := fun k hk => h.small _ (seq_mem hk)
  have hB : ∀ p, p ∈ adjacent (bracketPointsF fl (n + 2) (seq jd i, seq jd (i + 1))) ∨
      p ∈ adjacent (bracketPointsF fl (n + 2) (seq jd (i + 1), seq jd (i + 2))) →
      p.2 - p.1 ≤ w / ((n:ℚ) + 1) + 8 / 10 ^ 9 := by
    obtain ⟨d1, d2⟩ := h.drop i hi
    clear hp
    rintro p (hp | hp)
    · exact gap_up n1 (bracketPointsF_gap hf n (sm i (by omega)) (sm (i + 1) (by omega)) p hp) d1
    · exact gap_up n1 (bracketPointsF_gap hf n (sm (i + 1) (by omega)) (sm (i + 2) (by omega)) p hp) d2
  obtain ⟨f1, f2, k, f3, f4, f5⟩ := nextWith_firstDrop f hp h.sorted i hi _ hB
  have inside := nextWith_inside f hp
  have between := nextWith_gap f hp
  have sorted := nextWith_sorted f hp h.sorted
  generalize nextSamplesWith (bracketPointsF fl (n + 2)) f jd = N at *
  refine ⟨sorted, f1, ?_, ?_, ?_, f2, ?_⟩
  · intro x hx
    obtain ⟨k, -, hx, -⟩ := inside x hx
    exact bracketPointsF_float hf n _ x hx
  · intro x hx
    obtain ⟨k, hk, -, l1, l2⟩ := inside x hx
    have s1 := abs_le.1 (sm k (by omega))
    have s2 := abs_le.1 (sm (k + 1) hk)
    exact abs_le.2 ⟨by linarith, by linarith⟩
  · intro k hk
    rcases between _ (adjacent_seq _ k hk) with ⟨j, hj, hm⟩ | ⟨j, j', hjj, hj', e⟩
    · have e := bracketPointsF_gap hf n (sm j (by omega)) (sm (j + 1) hj) (seq N k, seq N (k + 1)) hm
      exact gap_down n1 e (h.gap j hj)
    · rw [Prod.mk.injEq] at e
      rw [e.1, e.2]
      exact gap_far n1 w0.le (h.gap j (by omega)) ((seq_le_iff h.sorted (by omega) hj').2 hjj)
  · intro i' hi'
    have : i' = k := le_antisymm (hi'.2 k f3.1) (f3.2 i' hi'.1)
    rw [this]; exact ⟨f4, f5⟩

/-! ### the loop -/

/-- What a search whose last samples are `samples` reports. -/
def reportF (fl : ℚ → ℚ) (f : ℚ → ℚ) (jd0 jd1 epsilon : ℚ) (samples : List ℚ) : List (ℚ × ℚ) :=
  dropCloseF fl epsilon ((identifyMaximaWith (fun a b => fl (fl (a + b) / 2)) (samples.map fun x => (x, f x))).filter
    fun p => jd0 ≤ p.1 ∧ p.1 ≤ jd1)

theorem maximaRoundF_eq (hf : RoundsToNearest fl) (f : ℚ → ℚ) (jd0 jd1 epsilon : ℚ) (num : ℕ) (a b : ℚ) (l : List ℚ) :
    maximaRoundF fl f jd0 jd1 epsilon num (a :: b :: l) =
      if sampleDiffF fl a b ≤ epsilon then some (.inl (reportF fl f jd0 jd1 epsilon (a :: b :: l)))
      else if chooseBrackets ((a :: b :: l).map f) = [] then some (.inl [])
      else some (.inr (nextSamplesWith (bracketPointsF fl num) f (a :: b :: l))) := by
  unfold maximaRoundF reportF nextSamplesWith roundBrackets
  simp only [identifyMaximaF_eq hf, chooseBracketsF_eq hf]

theorem maximaLoopF_spec (hf : RoundsToNearest fl) (f : ℚ → ℚ) (jd0 jd1 epsilon : ℚ) (n : ℕ) (hn : 1 ≤ n)
    (he : ((n:ℚ) + 2) / 10 ^ 8 ≤ epsilon) (r : ℕ) (jd : List ℚ) (w : ℚ) (h : Spaced f jd w) (hr : w ≤ 2 ^ r * (2 / 10 ^ 8)) :
    ∃ found samples, (∀ extra, maximaLoopF fl f jd0 jd1 epsilon (n + 2) (r + 1 + extra) jd = some (some found)) ∧
      samples.Pairwise (· < ·) ∧ (∀ x ∈ samples, IsFloat x) ∧ (∀ x ∈ samples, |x| ≤ 2 ^ 22) ∧
      (found = [] ∨ found = reportF fl f jd0 jd1 epsilon samples) ∧
      ∀ u v w, u ∈ jd → v ∈ jd → w ∈ jd → u < v → v < w → f u < f v → f w < f v →
        found = reportF fl f jd0 jd1 epsilon samples ∧
        ∃ u' v' w', u' ∈ samples ∧ v' ∈ samples ∧ w' ∈ samples ∧ u ≤ u' ∧ u' < v' ∧ v' < w' ∧ w' ≤ w ∧
          f u' < f v' ∧ f w' < f v' ∧ f v ≤ f v' := by
  induction r generalizing jd w with
  | zero =>
    match jd, h with
    | a :: b :: l, h =>
      have hd : sampleDiffF fl a b ≤ epsilon := by
        have e := sampleDiffF_err hf (h.small a (by simp)) (h.small b (by simp))
        have g := h.first
        have g : b - a ≤ w + 8 / 10 ^ 9 := g
        have n1 : (1:ℚ) ≤ n := by exact_mod_cast hn
        rw [abs_le] at e
        have e2 := e.2
        linarith
      refine ⟨_, a :: b :: l, ?_, h.sorted, h.float, h.small, Or.inr rfl, ?_⟩
      · intro extra
        rw [show 0 + 1 + extra = extra + 1 by omega, maximaLoopF, maximaRoundF_eq hf, if_pos hd]
      · intro u v w hu hv hw huv hvw e1 e2
        exact ⟨rfl, u, v, w, hu, hv, hw, le_refl _, huv, hvw, le_refl _, e1, e2, le_refl _⟩
  | succ r ih =>
    match jd, h with
    | a :: b :: l, h =>
      by_cases hd : sampleDiffF fl a b ≤ epsilon
      · refine ⟨_, a :: b :: l, ?_, h.sorted, h.float, h.small, Or.inr rfl, ?_⟩
        · intro extra
          rw [show r + 1 + 1 + extra = (r + 1 + extra) + 1 by omega, maximaLoopF, maximaRoundF_eq hf, if_pos hd]
        · intro u v w hu hv hw huv hvw e1 e2
          exact ⟨rfl, u, v, w, hu, hv, hw, le_refl _, huv, hvw, le_refl _, e1, e2, le_refl _⟩
      · have n1 : (1:ℚ) ≤ n := by exact_mod_cast hn
        have hw : 4 / 10 ^ 9 * ((n:ℚ) + 1) + 8 / 10 ^ 9 < w := by
          have e := sampleDiffF_err hf (h.small a (by simp)) (h.small b (by simp))
          have g := h.first
          have g : b - a ≤ w + 8 / 10 ^ 9 := g
          rw [abs_le] at e
          have e2 := e.2
          push Not at hd
          linarith
        have hsub := h.subdivides hf n hw
        by_cases hc : chooseBrackets ((a :: b :: l).map f) = []
        · refine ⟨[], a :: b :: l, ?_, h.sorted, h.float, h.small, Or.inl rfl, ?_⟩
          · intro extra
            rw [show r + 1 + 1 + extra = (r + 1 + extra) + 1 by omega, maximaLoopF, maximaRoundF_eq hf, if_neg hd, if_pos hc]
          · intro u v w hu hv hw huv hvw e1 e2
            exact absurd hc (hillWith_survives f hsub h.sorted u v w hu hv hw huv hvw e1 e2).1
        · have hnext := h.next hf n hn hw hc
          have w0 : 0 < w := by
            have : 0 < 4 / 10 ^ 9 * ((n:ℚ) + 1) + 8 / 10 ^ 9 := by positivity
            linarith
          have hw2 : w / ((n:ℚ) + 1) ≤ 2 ^ r * (2 / 10 ^ 8) := by
            have : w / ((n:ℚ) + 1) ≤ w / 2 := div_le_div_of_nonneg_left w0.le (by norm_num) (by linarith)
            rw [pow_succ] at hr
            linarith
          obtain ⟨found, samples, s1, s2, s3, s4, s5, s6⟩ := ih _ _ hnext hw2
          refine ⟨found, samples, ?_, s2, s3, s4, s5, ?_⟩
          · intro extra
            rw [show r + 1 + 1 + extra = (r + 1 + extra) + 1 by omega, maximaLoopF, maximaRoundF_eq hf, if_neg hd, if_neg hc]
            exact s1 extra
          · intro u v w hu hv hw huv hvw e1 e2
            obtain ⟨-, u', v', w', m1, m2, m3, q1, q2, q3, q4, q5, q6, q7⟩ :=
              hillWith_survives f hsub h.sorted u v w hu hv hw huv hvw e1 e2
            obtain ⟨t1, u2, v2, w2, k1, k2, k3, k4, k5, k6, k7, k8, k9, k10⟩ := s6 u' v' w' m1 m2 m3 q2 q3 q5 q6
            exact ⟨t1, u2, v2, w2, k1, k2, k3, le_trans q1 k4, k5, k6, le_trans k7 q4, k8, k9, le_trans q7 k10⟩

/-! ### the first samples -/

theorem samples_spaced (hf : RoundsToNearest fl) (f : ℚ → ℚ) {a b : ℚ} (fb : IsFloat b) (ha : |a| ≤ 2 ^ 22 - 2)
    (hb : |b| ≤ 2 ^ 22 - 2) (n : ℕ) (hw : 1 / 10 ^ 7 ≤ (b - a) / ((n:ℚ) + 1)) :
    Spaced f (linspaceF fl a b (n + 2)) ((b - a) / ((n:ℚ) + 1)) := by
  have n0 : (0:ℚ) < (n:ℚ) + 1 := by positivity
  rw [linspaceF_eq]
  have herr : ∀ i, i ≤ n + 1 → |sampleF fl a b n i - (a + (b - a) * (i / ((n:ℚ) + 1)))| ≤ 4 / 10 ^ 9 :=
    fun i hi => sampleF_err hf n i hi (by linarith) (by linarith)
  have hg : ∀ i, i + 1 ≤ n + 1 →
      |sampleF fl a b n (i + 1) - sampleF fl a b n i - (b - a) / ((n:ℚ) + 1)| ≤ 8 / 10 ^ 9 := by
    intro i hi
    have e1 := herr i (by omega)
    have e2 := herr (i + 1) hi
    push_cast at e2
    have es : (b - a) * (((i:ℚ) + 1) / ((n:ℚ) + 1)) = (b - a) * (i / ((n:ℚ) + 1)) + (b - a) / ((n:ℚ) + 1) := by
      ring
    rw [es] at e2
    rw [abs_le] at e1 e2 ⊢
    constructor <;> linarith
  have hlt : ∀ d i, i + d + 1 ≤ n + 1 → sampleF fl a b n i < sampleF fl a b n (i + d + 1) := by
    have one : ∀ i, i + 1 ≤ n + 1 → sampleF fl a b n i < sampleF fl a b n (i + 1) := by
      intro i hi
      have := (abs_le.1 (hg i hi)).1
      norm_num at *
      linarith
    intro d
    induction d with
    | zero => intro i hi; exact one i hi
    | succ d ih =>
      intro i hi
      exact (ih i (by omega)).trans (one (i + d + 1) (by omega))
  have hseq : ∀ k, k ≤ n + 1 → seq ((List.range (n + 2)).map (sampleF fl a b n)) k = sampleF fl a b n k := by
    intro k hk
    have := (seq_of_get (l := (List.range (n + 2)).map (sampleF fl a b n)) (i := k) (a := sampleF fl a b n k) (by
      rw [List.getElem?_map, List.getElem?_range (by omega)]; rfl)).2
    exact this
  have hlen : ((List.range (n + 2)).map (sampleF fl a b n)).length = n + 2 := by simp
  refine ⟨?_, by omega, ?_, ?_, ?_, ?_, ?_⟩
  · rw [List.pairwise_map]
    refine List.Pairwise.imp_of_mem ?_ List.pairwise_lt_range
    intro i j _ hj hij
    rw [List.mem_range] at hj
    have := hlt (j - i - 1) i (by omega)
    rwa [show i + (j - i - 1) + 1 = j by omega] at this
  · intro x hx
    obtain ⟨i, -, rfl⟩ := List.mem_map.1 hx
    unfold sampleF
    split
    · exact fb
    · exact hf.float _
  · intro x hx
    obtain ⟨i, hi, rfl⟩ := List.mem_map.1 hx
    rw [List.mem_range] at hi
    have e := herr i (by omega)
    have f0 : 0 ≤ (i:ℚ) / ((n:ℚ) + 1) := by positivity
    have f1 : (i:ℚ) / ((n:ℚ) + 1) ≤ 1 := by
      rw [div_le_one n0]; exact_mod_cast (by omega : i ≤ n + 1)
    have hd : 0 ≤ b - a := by
      by_contra hc
      push Not at hc
      have := div_neg_of_neg_of_pos hc n0
      norm_num at hw
      linarith
    have g0 : 0 ≤ (b - a) * ((i:ℚ) / ((n:ℚ) + 1)) := mul_nonneg hd f0
    have g1 : (b - a) * ((i:ℚ) / ((n:ℚ) + 1)) ≤ b - a := by nlinarith
    rw [abs_le] at e ha hb ⊢
    constructor <;> linarith
  · intro k hk
    rw [hlen] at hk
    rw [hseq k (by omega), hseq (k + 1) (by omega)]
    linarith [(abs_le.1 (hg k (by omega))).1]
  · rw [hseq 0 (by omega), hseq 1 (by omega)]
    linarith [(abs_le.1 (hg 0 (by omega))).2]
  · intro i hi
    have hl := ((mem_drop_indices f _ i).1 hi.1).1
    rw [hlen] at hl
    rw [hseq i (by omega), hseq (i + 1) (by omega), hseq (i + 2) (by omega)]
    exact ⟨by linarith [(abs_le.1 (hg i (by omega))).2], by linarith [(abs_le.1 (hg (i + 1) (by omega))).2]⟩

/-! ### the middle of a plateau -/

theorem isFloat_halved {x : ℚ} (h : IsFloat x) : IsFloat (x / 2) := by
  obtain ⟨m, e, h1, h2⟩ := h
  refine ⟨m, e - 1, h1, ?_⟩
  rw [h2, zpow_sub_one₀ (by norm_num)]; ring

theorem isFloat_doubled {x : ℚ} (h : IsFloat x) : IsFloat (2 * x) := by
  obtain ⟨m, e, h1, h2⟩ := h
  refine ⟨m, e + 1, h1, ?_⟩
  rw [h2, zpow_add_one₀ (by norm_num)]; ring

/-- The middle of a plateau is strictly between its ends, and where it should be. -/
theorem midF (hf : RoundsToNearest fl) {a m b : ℚ} (fm : IsFloat m) (ham : a < m) (hmb : m < b) (ha : |a| ≤ 2 ^ 22)
    (hb : |b| ≤ 2 ^ 22) : a < fl (fl (a + b) / 2) ∧ fl (fl (a + b) / 2) < b ∧
      |fl (fl (a + b) / 2) - (a + b) / 2| ≤ 1 / 10 ^ 9 := by
  rw [fl_exact hf (isFloat_halved (hf.float _))]
  have h1 := hf.nearest (a + b) (2 * m) (isFloat_doubled fm)
  have h2 : |2 * m - (a + b)| < b - a := by rw [abs_lt]; constructor <;> linarith
  have h3 := abs_lt.1 (lt_of_le_of_lt h1 h2)
  have h4 : |fl (a + b) - (a + b)| ≤ 2 ^ 23 / 2 ^ 53 := by
    rw [abs_le] at ha hb
    exact fl_err hf (abs_le.2 ⟨by linarith, by linarith⟩)
  refine ⟨by linarith, by linarith, ?_⟩
  rw [abs_le] at h4 ⊢
  norm_num at *
  constructor <;> linarith

/-! ### dropping close ones -/

theorem mem_dropCloseF (eps : ℚ) (l : List (ℚ × ℚ)) (p : ℚ × ℚ) (h : p ∈ dropCloseF fl eps l) : p ∈ l := by
  cases l with
  | nil => simp [dropCloseF] at h
  | cons a l =>
    unfold dropCloseF at h
    rcases List.mem_cons.1 h with rfl | h
    · exact List.mem_cons_self
    · rw [List.mem_filterMap] at h
      obtain ⟨q, hq, e⟩ := h
      split at e
      · simp only [Option.some.injEq] at e
        subst e
        exact (adjacent_mem hq).2
      · simp at e

theorem dropCloseF_or (eps : ℚ) (l : List (ℚ × ℚ)) (p : ℚ × ℚ) (h : p ∈ l) :
    p ∈ dropCloseF fl eps l ∨ ∃ q ∈ l, (q, p) ∈ adjacent l ∧ fl (p.1 - q.1) ≤ eps := by
  cases l with
  | nil => simp at h
  | cons a l =>
    rcases List.mem_cons.1 h with rfl | h
    · left; unfold dropCloseF; exact List.mem_cons_self
    · obtain ⟨i, hi⟩ := List.mem_iff_getElem?.1 h
      have hlen := (List.getElem?_eq_some_iff.1 hi).1
      have hadj : ((a :: l)[i]'(by simp; omega), p) ∈ adjacent (a :: l) := by
        rw [mem_adjacent_iff]
        exact ⟨i, List.getElem?_eq_getElem _, by simpa using hi⟩
      by_cases hc : fl (p.1 - ((a :: l)[i]'(by simp; omega)).1) > eps
      · left
        unfold dropCloseF
        apply List.mem_cons_of_mem
        rw [List.mem_filterMap]
        exact ⟨_, hadj, by simp only; rw [if_pos hc]⟩
      · right
        exact ⟨_, (adjacent_mem hadj).1, hadj, not_lt.1 hc⟩

theorem dropCloseF_apart (hf : RoundsToNearest fl) (eps : ℚ) (he : IsFloat eps) (l : List (ℚ × ℚ))
    (hs : l.Pairwise (fun a b => a.1 ≤ b.1)) :
    (dropCloseF fl eps l).Pairwise (fun a b => eps < b.1 - a.1) := by
  have big : ∀ x : ℚ, fl x > eps → eps < x := by
    intro x hx
    by_contra hc
    push Not at hc
    have := fl_le hf hc he
    linarith
  have key : ∀ l : List (ℚ × ℚ), l.Pairwise (fun a b => a.1 ≤ b.1) →
      ((adjacent l).filterMap fun q => if fl (q.2.1 - q.1.1) > eps then some q.2 else none).Pairwise
        (fun a b => eps < b.1 - a.1) ∧
      ∀ a r, l = a :: r → ∀ b ∈ ((adjacent l).filterMap fun q => if fl (q.2.1 - q.1.1) > eps then some q.2 else none),
        eps < b.1 - a.1 := by
    intro l
    induction l with
    | nil => intro _; exact ⟨by simp [adjacent_nil], by simp⟩
    | cons a l ih =>
      intro hs
      cases l with
      | nil => exact ⟨by simp [adjacent_singleton], by simp [adjacent_singleton]⟩
      | cons b l =>
        obtain ⟨ha, hs'⟩ := List.pairwise_cons.1 hs
        obtain ⟨h1, h2⟩ := ih hs'
        have hab := ha b List.mem_cons_self
        rw [adjacent_cons_cons, List.filterMap_cons]
        by_cases hc : fl (b.1 - a.1) > eps
        · simp only [if_pos hc]
          refine ⟨List.Pairwise.cons (h2 b l rfl) h1, ?_⟩
          intro a' r' e c hcm
          simp only [List.cons.injEq] at e
          obtain ⟨rfl, -⟩ := e
          rcases List.mem_cons.1 hcm with rfl | hcm
          · exact big _ hc
          · have := h2 b l rfl c hcm
            linarith
        · simp only [if_neg hc]
          refine ⟨h1, ?_⟩
          intro a' r' e c hcm
          simp only [List.cons.injEq] at e
          obtain ⟨rfl, -⟩ := e
          have := h2 b l rfl c hcm
          linarith
  cases l with
  | nil => simp [dropCloseF]
  | cons a l =>
    obtain ⟨h1, h2⟩ := key _ hs
    unfold dropCloseF
    exact List.Pairwise.cons (h2 a l rfl) h1

end Skyfield
