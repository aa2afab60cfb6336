import Verif.Spec.Split
import Verif.Props.AlmanacSearch

/-
C120: a search made in two parts.
-/
namespace Skyfield
open _root_.Spec Real

variable {V : Type*} [DecidableEq V]

/-- The moments that a list of events reports, in order. -/
private theorem reports_moments {late : ℝ} : ∀ {events : List (ℝ × V)} {P : ℝ → Prop}, Reports P late events →
    ∃ cs : List ℝ, cs.Pairwise (· < ·) ∧ (∀ c, c ∈ cs ↔ P c) ∧ List.Forall₂ (fun c e => c ≤ e.1 ∧ e.1 ≤ c + late ∧ e ∈ events) cs events
  | [], P, h => ⟨[], .nil, fun c => ⟨fun hc => by simp at hc, fun hc => by obtain ⟨e, ⟨he, -⟩, -⟩ := h.each c hc; simp at he⟩, .nil⟩
  | x :: xs, P, h => by
    obtain ⟨c, ⟨hc, hc1, hc2⟩, hu⟩ := h.only x (by simp)
    have hx := List.pairwise_cons.1 h.inOrder
    have own : ∀ e ∈ x :: xs, c ≤ e.1 → e.1 ≤ c + late → e = x := by
      intro e he h1 h2
      obtain ⟨e0, -, h0⟩ := h.each c hc
      rw [h0 e ⟨he, h1, h2⟩, h0 x ⟨by simp, hc1, hc2⟩]
    have htail : Reports (fun d => P d ∧ d ≠ c) late xs := by
      refine ⟨?_, ?_, hx.2⟩
      · rintro d ⟨hd, hdc⟩
        obtain ⟨e, ⟨he, h1, h2⟩, h3⟩ := h.each d hd
        have hex : e ≠ x := by
          rintro rfl
          exact hdc (hu d ⟨hd, h1, h2⟩)
        refine ⟨e, ⟨(List.mem_cons.1 he).resolve_left hex, h1, h2⟩, ?_⟩
        rintro e' ⟨he', k1, k2⟩
        exact h3 e' ⟨List.mem_cons_of_mem _ he', k1, k2⟩
      · intro e he
        obtain ⟨d, ⟨hd, h1, h2⟩, h3⟩ := h.only e (List.mem_cons_of_mem _ he)
        refine ⟨d, ⟨⟨hd, ?_⟩, h1, h2⟩, ?_⟩
        · rintro rfl
          have := own e (List.mem_cons_of_mem _ he) h1 h2
          have := hx.1 e he
          subst_vars
          exact lt_irrefl _ this
        · rintro d' ⟨⟨hd', -⟩, k1, k2⟩
          exact h3 d' ⟨hd', k1, k2⟩
    obtain ⟨cs, hs, hm, hf⟩ := reports_moments htail
    refine ⟨c :: cs, List.pairwise_cons.2 ⟨?_, hs⟩, ?_, .cons ⟨hc1, hc2, by simp⟩ (hf.imp ?_)⟩
    · intro d hd
      obtain ⟨hPd, hdc⟩ := (hm d).1 hd
      obtain ⟨e, ⟨he, h1, h2⟩, -⟩ := htail.each d ⟨hPd, hdc⟩
      rcases lt_or_gt_of_ne hdc with hlt | hlt
      · have := hu d ⟨hPd, by linarith, by linarith [hx.1 e he]⟩
        exact absurd this hdc
      · exact hlt
    · intro d
      rw [List.mem_cons, hm]
      constructor
      · rintro (rfl | ⟨h1, -⟩)
        · exact hc
        · exact h1
      · intro hd
        by_cases hdc : d = c
        · exact Or.inl hdc
        · exact Or.inr ⟨hd, hdc⟩
    · rintro d e ⟨h1, h2, h3⟩
      exact ⟨h1, h2, List.mem_cons_of_mem _ h3⟩

/-- Two increasing lists with the same members are the same. -/
private theorem increasing_unique {l l' : List ℝ} (h : l.Pairwise (· < ·)) (h' : l'.Pairwise (· < ·)) (hm : ∀ c, c ∈ l ↔ c ∈ l') : l = l' := by
  have n : l.Nodup := h.imp ne_of_lt
  have n' : l'.Nodup := h'.imp ne_of_lt
  have hp : l.Perm l' := (List.perm_ext_iff_of_nodup n n').2 hm
  exact hp.eq_of_pairwise (fun a b _ _ h1 h2 => absurd h1 (lt_asymm h2)) h h'

/-- Reports of the moments up to some date and of those after it are together a report of them all. -/
theorem reports_split {P P1 P2 : ℝ → Prop} {late : ℝ} {events first second : List (ℝ × V)} {value : ℝ → V → Prop}
    (hP : ∀ c, P c ↔ P1 c ∨ P2 c) (hlt : ∀ c c', P1 c → P2 c' → c < c') (h : Reports P late events) (h1 : Reports P1 late first)
    (h2 : Reports P2 late second) (hv : ∀ e ∈ events, ∀ c, P c → c ≤ e.1 → e.1 ≤ c + late → value c e.2)
    (hv1 : ∀ e ∈ first, ∀ c, P1 c → c ≤ e.1 → e.1 ≤ c + late → value c e.2)
    (hv2 : ∀ e ∈ second, ∀ c, P2 c → c ≤ e.1 → e.1 ≤ c + late → value c e.2) (hval : ∀ c, P c → ∀ v v', value c v → value c v' → v = v') :
    SameEvents late (first ++ second) events := by
  obtain ⟨cs, hs, hm, hf⟩ := reports_moments h
  obtain ⟨cs1, hs1, hm1, hf1⟩ := reports_moments h1
  obtain ⟨cs2, hs2, hm2, hf2⟩ := reports_moments h2
  have e : cs1 ++ cs2 = cs := by
    refine increasing_unique ?_ hs ?_
    · exact List.pairwise_append.2 ⟨hs1, hs2, fun a ha b hb => hlt a b ((hm1 a).1 ha) ((hm2 b).1 hb)⟩
    · intro c
      rw [List.mem_append, hm1, hm2, hm, hP]
  have g : ∀ {Q : ℝ → Prop} {l : List ℝ} {es : List (ℝ × V)}, (∀ c ∈ l, Q c) → (∀ e ∈ es, ∀ c, Q c → c ≤ e.1 → e.1 ≤ c + late → value c e.2) →
      (∀ c, Q c → P c) → List.Forall₂ (fun c e => c ≤ e.1 ∧ e.1 ≤ c + late ∧ e ∈ es) l es →
      List.Forall₂ (fun c e => P c ∧ c ≤ e.1 ∧ e.1 ≤ c + late ∧ value c e.2) l es := by
    intro Q l es hq hes hQP hf
    rw [List.forall₂_iff_zip] at hf ⊢
    refine ⟨hf.1, ?_⟩
    intro c e hce
    obtain ⟨a1, a2, a3⟩ := hf.2 hce
    have hc := hq c (List.of_mem_zip hce).1
    exact ⟨hQP c hc, a1, a2, hes e a3 c hc a1 a2⟩
  have k1 := g (Q := P1) (fun c hc => (hm1 c).1 hc) hv1 (fun c hc => (hP c).2 (Or.inl hc)) hf1
  have k2 := g (Q := P2) (fun c hc => (hm2 c).1 hc) hv2 (fun c hc => (hP c).2 (Or.inr hc)) hf2
  have k := g (Q := P) (fun c hc => (hm c).1 hc) hv (fun c hc => hc) hf
  have k12 : List.Forall₂ (fun c e => P c ∧ c ≤ e.1 ∧ e.1 ≤ c + late ∧ value c e.2) (cs1 ++ cs2) (first ++ second) := List.rel_append k1 k2
  rw [e] at k12
  unfold SameEvents
  have hlen : (first ++ second).length = events.length := by
    rw [← k12.length_eq, ← k.length_eq]
  clear hf hf1 hf2 k1 k2 g hv hv1 hv2 h h1 h2 hm hm1 hm2 hs hs1 hs2 hlen
  generalize first ++ second = l at k12
  subst e
  generalize cs1 ++ cs2 = cs at k k12
  induction k12 generalizing events with
  | nil => cases k; exact .nil
  | cons hx hrest ih =>
    cases k with
    | cons hy hrest' =>
      refine .cons ⟨?_, hval _ hx.1 _ _ hx.2.2.2 hy.2.2.2⟩ (ih hrest')
      rw [abs_le]
      constructor <;> linarith [hx.2.1, hx.2.2.1, hy.2.1, hy.2.2.1]

/-- Spells begin in order, more than `epsilon` apart. -/
private theorem begins_apart {epsilon d : ℝ} {N : ℝ → ℤ} (hsmall : ∀ s t, s ≤ t → t - s < d → N t ≤ N s + 1) (hd : epsilon < d) {n m : ℤ} {c c' : ℝ}
    (hnm : n < m) (hc : Begins N n c) (hc' : Begins N m c') : epsilon < c' - c := by
  by_contra hcon
  set δ := (d - epsilon) / 3 with hδ
  have hδ0 : 0 < δ := by rw [hδ]; linarith
  obtain ⟨t, ht, -, htc⟩ := hc'.exists_between (show c' < c' + δ by linarith)
  have hs : N (c - δ) < n := by
    by_contra hk
    have := hc.1 (show c - δ ∈ {t | n ≤ N t} from not_lt.1 hk)
    linarith
  have hcc : c ≤ c' := hc'.2 fun t ht => hc.1 (show n ≤ N t from hnm.le.trans ht)
  have ht' : c' ≤ t := hc'.1 ht
  have := hsmall (c - δ) t (by linarith) (by linarith)
  have hmt : m ≤ N t := ht
  omega

/-! ### The theorems -/

/-- **C120.**  Let the values of a search function come in spells, numbered by `N`, that its step can tell apart, as in C115.  A search from `a` to `m` and one from `m` to
`b` report together the same events, in the same order, with the same values and within the same precision, as one search from `a` to `b`. -/
theorem C120_split {a m b epsilon step d : ℝ} {N : ℝ → ℤ} (hN : Monotone N) {f : Searchable ℝ V} {F : ℤ → V} (hf : ∀ t, a ≤ t → t ≤ b → f.call t = F (N t))
    (hdiff : ∀ s t, a ≤ s → s < t → t ≤ b → t - s < step → N s ≠ N t → F (N s) ≠ F (N t)) (hsmall : ∀ s t, s ≤ t → t - s < d → N t ≤ N s + 1)
    (heps : 0 < epsilon) (hd : epsilon < d) (hstep : f.stepDays = some step) (hpos : 0 < step) (ham : a ≤ m) (hmb : m ≤ b) {num fuel num1 fuel1 num2 fuel2 : ℕ}
    (hnum : 2 ≤ num) (hnum1 : 2 ≤ num1) (hnum2 : 2 ≤ num2) {events first second : List (ℝ × V)}
    (h : findDiscrete a b f epsilon num fuel = .ok (some events)) (h1 : findDiscrete a m f epsilon num1 fuel1 = .ok (some first))
    (h2 : findDiscrete m b f epsilon num2 fuel2 = .ok (some second)) : SameEvents epsilon (first ++ second) events := by
  obtain ⟨r, v⟩ := C115_spells hN hf hdiff hsmall heps hd hnum hstep hpos h
  obtain ⟨r1, v1⟩ := C115_spells hN (fun t k1 k2 => hf t k1 (k2.trans hmb)) (fun s t k1 k2 k3 => hdiff s t k1 k2 (k3.trans hmb)) hsmall heps hd hnum1 hstep hpos h1
  obtain ⟨r2, v2⟩ := C115_spells hN (fun t k1 k2 => hf t (ham.trans k1) k2) (fun s t k1 k2 k3 => hdiff s t (ham.trans k1) k2 k3) hsmall heps hd hnum2 hstep hpos h2
  have n1 := hN ham
  have n2 := hN hmb
  have hsame : ∀ n n' c, Begins N n c → Begins N n' c → n = n' := by
    intro n n' c i1 i2
    rcases lt_trichotomy n n' with i | i | i
    · linarith [begins_apart hsmall hd i i1 i2]
    · exact i
    · linarith [begins_apart hsmall hd i i2 i1]
  refine reports_split (value := fun c v => ∀ n, N a < n → n ≤ N b → Begins N n c → v = F n) ?_ ?_ r r1 r2 ?_ ?_ ?_ ?_
  · intro c
    constructor
    · rintro ⟨n, k1, k2, k3⟩
      rcases le_or_gt n (N m) with k | k
      · exact Or.inl ⟨n, k1, k, k3⟩
      · exact Or.inr ⟨n, k, k2, k3⟩
    · rintro (⟨n, k1, k2, k3⟩ | ⟨n, k1, k2, k3⟩)
      · exact ⟨n, k1, k2.trans n2, k3⟩
      · exact ⟨n, by omega, k2, k3⟩
  · rintro c c' ⟨n, k1, k2, k3⟩ ⟨n', k1', k2', k3'⟩
    linarith [begins_apart hsmall hd (show n < n' by omega) k3 k3']
  · intro e he c _ k1 k2 n j1 j2 j3
    exact (v e he c n j1 j2 j3 k1 k2).1
  · rintro e he c ⟨n', j1', j2', j3'⟩ k1 k2 n j1 j2 j3
    rw [hsame n n' c j3 j3']
    exact (v1 e he c n' j1' j2' j3' k1 k2).1
  · rintro e he c ⟨n', j1', j2', j3'⟩ k1 k2 n j1 j2 j3
    rw [hsame n n' c j3 j3']
    exact (v2 e he c n' j1' j2' j3' k1 k2).1
  · rintro c ⟨n, k1, k2, k3⟩ x y hx hy
    rw [hx n k1 k2 k3, hy n k1 k2 k3]

/-! ### Equinoxes, phases, terms, oppositions -/

private theorem growing_within {lo hi lo' hi' : ℝ} {L : ℝ → ℝ} (h : Growing lo hi L) (h1 : lo ≤ lo') (h2 : hi' ≤ hi) : Growing lo' hi' L :=
  ⟨h.continuous.mono (Set.Icc_subset_Icc h1 h2), fun s t k1 k2 k3 => h.increasing s t (h1.trans k1) k2 (k3.trans h2)⟩

private theorem gainsLess_within {lo hi lo' hi' d g : ℝ} {L : ℝ → ℝ} (h : GainsLess lo hi d g L) (h1 : lo ≤ lo') (h2 : hi' ≤ hi) : GainsLess lo' hi' d g L :=
  fun s t k1 k2 k3 => h s t (h1.trans k1) k2 (k3.trans h2)

private theorem isAngle_within {ts : Timescale ℝ} {series : NutationSeries} {lo hi lo' hi' : ℝ} {q : ℝ → SkyTime → ℝ} {L : ℝ → ℝ}
    (h : IsAngle ts series lo hi q L) (h1 : lo ≤ lo') (h2 : hi' ≤ hi) : IsAngle ts series lo' hi' q L :=
  fun jd s k1 k2 => h jd s (h1.trans k1) (k2.trans h2)

private theorem marks_split {a m b epsilon w : ℝ} {L : ℝ → ℝ} (hw : w ≠ 0) {k : ℤ → Option ℤ} (ham : a ≤ m) (hmb : m ≤ b) {events first second : List (ℝ × Option ℤ)}
    (h : Reports (fun c => a < c ∧ c ≤ b ∧ ∃ n : ℤ, L c = w * n) epsilon events ∧
      ∀ e ∈ events, ∀ c, ∀ n : ℤ, a < c → c ≤ b → L c = w * n → c ≤ e.1 → e.1 ≤ c + epsilon → e.2 = k n)
    (h1 : Reports (fun c => a < c ∧ c ≤ m ∧ ∃ n : ℤ, L c = w * n) epsilon first ∧
      ∀ e ∈ first, ∀ c, ∀ n : ℤ, a < c → c ≤ m → L c = w * n → c ≤ e.1 → e.1 ≤ c + epsilon → e.2 = k n)
    (h2 : Reports (fun c => m < c ∧ c ≤ b ∧ ∃ n : ℤ, L c = w * n) epsilon second ∧
      ∀ e ∈ second, ∀ c, ∀ n : ℤ, m < c → c ≤ b → L c = w * n → c ≤ e.1 → e.1 ≤ c + epsilon → e.2 = k n) : SameEvents epsilon (first ++ second) events := by
  have huniq : ∀ (n n' : ℤ) (x : ℝ), x = w * n → x = w * n' → n = n' := by
    intro n n' x i1 i2
    exact_mod_cast mul_left_cancel₀ hw (i1.symm.trans i2)
  refine reports_split (value := fun c v => ∀ n : ℤ, L c = w * n → v = k n) ?_ ?_ h.1 h1.1 h2.1 ?_ ?_ ?_ ?_
  · intro c
    constructor
    · rintro ⟨k1, k2, k3⟩
      rcases le_or_gt c m with i | i
      · exact Or.inl ⟨k1, i, k3⟩
      · exact Or.inr ⟨i, k2, k3⟩
    · rintro (⟨k1, k2, k3⟩ | ⟨k1, k2, k3⟩)
      · exact ⟨k1, k2.trans hmb, k3⟩
      · exact ⟨ham.trans_lt k1, k2, k3⟩
  · rintro c c' ⟨-, k2, -⟩ ⟨k1, -, -⟩
    exact k2.trans_lt k1
  · rintro e he c ⟨k1, k2, -⟩ i1 i2 n hn
    exact h.2 e he c n k1 k2 hn i1 i2
  · rintro e he c ⟨k1, k2, -⟩ i1 i2 n hn
    exact h1.2 e he c n k1 k2 hn i1 i2
  · rintro e he c ⟨k1, k2, -⟩ i1 i2 n hn
    exact h2.2 e he c n k1 k2 hn i1 i2
  · rintro c ⟨-, -, n, hn⟩ x y hx hy
    rw [hx n hn, hy n hn]

/-- **C120.**  Two searches of `seasons`, one from where the other ended, find together what one search finds. -/
theorem C120_seasons (ts : Timescale ℝ) (sun : ℝ → Vec3) {a m b epsilon d : ℝ} {L : ℝ → ℝ} (hlon : IsAngle ts .iau2000b a b (fun jd s => eclipticLon s (sun jd)) L)
    (hL : Growing a b L) (hgain : GainsLess a b 90 (3 * π / 2) L) (hsmall : GainsLess a b d (π / 2) L) (hd : epsilon < d) (ham : a ≤ m) (hmb : m ≤ b)
    {num fuel num1 fuel1 num2 fuel2 : ℕ} (hnum : 2 ≤ num) (hnum1 : 2 ≤ num1) (hnum2 : 2 ≤ num2) {events first second : List (ℝ × Option ℤ)}
    (h : findDiscrete a b (seasons ts sun) epsilon num fuel = .ok (some events)) (h1 : findDiscrete a m (seasons ts sun) epsilon num1 fuel1 = .ok (some first))
    (h2 : findDiscrete m b (seasons ts sun) epsilon num2 fuel2 = .ok (some second)) : SameEvents epsilon (first ++ second) events := by
  refine marks_split (w := π / 2) (by positivity) ham hmb (C115_seasons ts sun hlon hL hgain hsmall hd hnum h) (C115_seasons ts sun (isAngle_within hlon le_rfl hmb) (growing_within hL le_rfl hmb) (gainsLess_within hgain le_rfl hmb) (gainsLess_within hsmall le_rfl hmb) hd hnum1 h1)
    (C115_seasons ts sun (isAngle_within hlon ham le_rfl) (growing_within hL ham le_rfl) (gainsLess_within hgain ham le_rfl) (gainsLess_within hsmall ham le_rfl) hd hnum2 h2)

/-- **C120.**  The same of `moon_phases`. -/
theorem C120_moon_phases (ts : Timescale ℝ) (moon sun : ℝ → Vec3) {a m b epsilon d : ℝ} {L : ℝ → ℝ}
    (hlon : IsAngle ts .iau2000b a b (fun jd s => eclipticLon s (moon jd) - eclipticLon s (sun jd)) L) (hL : Growing a b L) (hgain : GainsLess a b 7 (3 * π / 2) L)
    (hsmall : GainsLess a b d (π / 2) L) (hd : epsilon < d) (ham : a ≤ m) (hmb : m ≤ b) {num fuel num1 fuel1 num2 fuel2 : ℕ} (hnum : 2 ≤ num) (hnum1 : 2 ≤ num1)
    (hnum2 : 2 ≤ num2) {events first second : List (ℝ × Option ℤ)} (h : findDiscrete a b (moonPhases ts moon sun) epsilon num fuel = .ok (some events))
    (h1 : findDiscrete a m (moonPhases ts moon sun) epsilon num1 fuel1 = .ok (some first))
    (h2 : findDiscrete m b (moonPhases ts moon sun) epsilon num2 fuel2 = .ok (some second)) : SameEvents epsilon (first ++ second) events := by
  refine marks_split (w := π / 2) (by positivity) ham hmb (C115_moon_phases ts moon sun hlon hL hgain hsmall hd hnum h)
    (C115_moon_phases ts moon sun (isAngle_within hlon le_rfl hmb) (growing_within hL le_rfl hmb) (gainsLess_within hgain le_rfl hmb) (gainsLess_within hsmall le_rfl hmb) hd hnum1 h1)
    (C115_moon_phases ts moon sun (isAngle_within hlon ham le_rfl) (growing_within hL ham le_rfl) (gainsLess_within hgain ham le_rfl) (gainsLess_within hsmall ham le_rfl) hd hnum2 h2)

/-- **C120.**  The same of `solar_terms`. -/
theorem C120_solar_terms (ts : Timescale ℝ) (sun : ℝ → Vec3) {a m b epsilon d : ℝ} {L : ℝ → ℝ} (hlon : IsAngle ts .iau2000b a b (fun jd s => eclipticLon s (sun jd)) L)
    (hL : Growing a b L) (hgain : GainsLess a b 14 (23 * π / 12) L) (hsmall : GainsLess a b d (π / 12) L) (hd : epsilon < d) (ham : a ≤ m) (hmb : m ≤ b)
    {num fuel num1 fuel1 num2 fuel2 : ℕ} (hnum : 2 ≤ num) (hnum1 : 2 ≤ num1) (hnum2 : 2 ≤ num2) {events first second : List (ℝ × Option ℤ)}
    (h : findDiscrete a b (solarTerms ts sun) epsilon num fuel = .ok (some events)) (h1 : findDiscrete a m (solarTerms ts sun) epsilon num1 fuel1 = .ok (some first))
    (h2 : findDiscrete m b (solarTerms ts sun) epsilon num2 fuel2 = .ok (some second)) : SameEvents epsilon (first ++ second) events := by
  refine marks_split (w := π / 12) (by positivity) ham hmb (C115_solar_terms ts sun hlon hL hgain hsmall hd hnum h)
    (C115_solar_terms ts sun (isAngle_within hlon le_rfl hmb) (growing_within hL le_rfl hmb) (gainsLess_within hgain le_rfl hmb) (gainsLess_within hsmall le_rfl hmb) hd hnum1 h1)
    (C115_solar_terms ts sun (isAngle_within hlon ham le_rfl) (growing_within hL ham le_rfl) (gainsLess_within hgain ham le_rfl) (gainsLess_within hsmall ham le_rfl) hd hnum2 h2)

/-- **C120.**  The same of `oppositions_conjunctions`, for a target on which the Sun gains. -/
theorem C120_oppositions (ts : Timescale ℝ) {code : ℤ} (hcode : code ≠ 301) (target sun : ℝ → Vec3) {a m b epsilon d : ℝ} {L : ℝ → ℝ}
    (hlon : IsAngle ts .iau2000a a b (fun jd s => eclipticLon s (sun jd) - eclipticLon s (target jd)) L) (hL : Growing a b L) (hgain : GainsLess a b 40 π L)
    (hsmall : GainsLess a b d π L) (hd : epsilon < d) (ham : a ≤ m) (hmb : m ≤ b) {num fuel num1 fuel1 num2 fuel2 : ℕ} (hnum : 2 ≤ num) (hnum1 : 2 ≤ num1)
    (hnum2 : 2 ≤ num2) {events first second : List (ℝ × Option ℤ)} (h : findDiscrete a b (oppositionsConjunctions ts code target sun) epsilon num fuel = .ok (some events))
    (h1 : findDiscrete a m (oppositionsConjunctions ts code target sun) epsilon num1 fuel1 = .ok (some first))
    (h2 : findDiscrete m b (oppositionsConjunctions ts code target sun) epsilon num2 fuel2 = .ok (some second)) : SameEvents epsilon (first ++ second) events := by
  refine marks_split (w := π) (by positivity) ham hmb (C115_oppositions ts hcode target sun hlon hL hgain hsmall hd hnum h)
    (C115_oppositions ts hcode target sun (isAngle_within hlon le_rfl hmb) (growing_within hL le_rfl hmb) (gainsLess_within hgain le_rfl hmb) (gainsLess_within hsmall le_rfl hmb) hd hnum1 h1)
    (C115_oppositions ts hcode target sun (isAngle_within hlon ham le_rfl) (growing_within hL ham le_rfl) (gainsLess_within hgain ham le_rfl) (gainsLess_within hsmall ham le_rfl) hd hnum2 h2)

/-- **C120.**  The same of `moon_nodes`, even if they are split at the very moment the Moon passes a node. -/
theorem C120_moon_nodes (ts : Timescale ℝ) (moon : ℝ → Vec3) {a m b epsilon d : ℝ} {u : ℝ → ℝ}
    (hlat : ∀ jd s, a ≤ jd → jd ≤ b → (ts.ttJd jd none).sky = some s → (0 < eclipticLat s (moon jd) ↔ 0 < sin (u jd))) (hu : Growing a b u)
    (hgain : GainsLess a b 12 π u) (hsmall : GainsLess a b d π u) (hd : epsilon < d) (ham : a ≤ m) (hmb : m ≤ b) {num fuel num1 fuel1 num2 fuel2 : ℕ}
    (hnum : 2 ≤ num) (hnum1 : 2 ≤ num1) (hnum2 : 2 ≤ num2) {events first second : List (ℝ × Option Bool)}
    (h : findDiscrete a b (moonNodes ts moon) epsilon num fuel = .ok (some events)) (h1 : findDiscrete a m (moonNodes ts moon) epsilon num1 fuel1 = .ok (some first))
    (h2 : findDiscrete m b (moonNodes ts moon) epsilon num2 fuel2 = .ok (some second)) : SameEvents epsilon (first ++ second) events := by
  obtain ⟨r, v⟩ := C115_moon_nodes ts moon hlat hu hgain hsmall hd hnum h
  obtain ⟨r1, v1⟩ := C115_moon_nodes ts moon (fun jd s k1 k2 => hlat jd s k1 (k2.trans hmb)) (growing_within hu le_rfl hmb) (gainsLess_within hgain le_rfl hmb)
    (gainsLess_within hsmall le_rfl hmb) hd hnum1 h1
  obtain ⟨r2, v2⟩ := C115_moon_nodes ts moon (fun jd s k1 k2 => hlat jd s (ham.trans k1) k2) (growing_within hu ham le_rfl) (gainsLess_within hgain ham le_rfl)
    (gainsLess_within hsmall ham le_rfl) hd hnum2 h2
  have hparity : ∀ (n n' : ℤ) (x : ℝ), x = 2 * π * n → x = 2 * π * n' + π → False := by
    intro n n' x i1 i2
    have hp := pi_pos
    have : (2 * n : ℝ) = 2 * n' + 1 := by
      have := i1.symm.trans i2
      apply mul_left_cancel₀ hp.ne'
      linarith
    have : 2 * n = 2 * n' + 1 := by exact_mod_cast this
    omega
  refine reports_split (value := fun c v => (∀ n : ℤ, u c = 2 * π * n → v = some true) ∧ ∀ n : ℤ, u c = 2 * π * n + π → v = some false) ?_ ?_ r r1 r2 ?_ ?_ ?_ ?_
  · intro c
    constructor
    · rintro (⟨k1, k2, k3⟩ | ⟨k1, k2, k3⟩)
      · rcases lt_or_ge c m with i | i
        · exact Or.inl (Or.inl ⟨k1, i, k3⟩)
        · exact Or.inr (Or.inl ⟨i, k2, k3⟩)
      · rcases le_or_gt c m with i | i
        · exact Or.inl (Or.inr ⟨k1, i, k3⟩)
        · exact Or.inr (Or.inr ⟨i, k2, k3⟩)
    · rintro ((⟨k1, k2, k3⟩ | ⟨k1, k2, k3⟩) | (⟨k1, k2, k3⟩ | ⟨k1, k2, k3⟩))
      · exact Or.inl ⟨k1, k2.trans_le hmb, k3⟩
      · exact Or.inr ⟨k1, k2.trans hmb, k3⟩
      · exact Or.inl ⟨ham.trans k1, k2, k3⟩
      · exact Or.inr ⟨ham.trans_lt k1, k2, k3⟩
  · rintro c c' (⟨-, k2, -⟩ | ⟨-, k2, n, k3⟩) (⟨j1, -, n', j3⟩ | ⟨j1, -, -⟩)
    · exact k2.trans_le j1
    · exact k2.trans j1
    · refine lt_of_le_of_ne (k2.trans j1) ?_
      rintro rfl
      exact hparity n' n _ j3 k3
    · exact k2.trans_lt j1
  · rintro e he c (⟨k1, k2, n', k3⟩ | ⟨k1, k2, n', k3⟩) i1 i2
    · exact ⟨fun n hn => (v e he c n i1 i2).1 k1 k2 hn, fun n hn => (hparity n' n _ k3 hn).elim⟩
    · exact ⟨fun n hn => (hparity n n' _ hn k3).elim, fun n hn => (v e he c n i1 i2).2 k1 k2 hn⟩
  · rintro e he c (⟨k1, k2, n', k3⟩ | ⟨k1, k2, n', k3⟩) i1 i2
    · exact ⟨fun n hn => (v1 e he c n i1 i2).1 k1 k2 hn, fun n hn => (hparity n' n _ k3 hn).elim⟩
    · exact ⟨fun n hn => (hparity n n' _ hn k3).elim, fun n hn => (v1 e he c n i1 i2).2 k1 k2 hn⟩
  · rintro e he c (⟨k1, k2, n', k3⟩ | ⟨k1, k2, n', k3⟩) i1 i2
    · exact ⟨fun n hn => (v2 e he c n i1 i2).1 k1 k2 hn, fun n hn => (hparity n' n _ k3 hn).elim⟩
    · exact ⟨fun n hn => (hparity n n' _ hn k3).elim, fun n hn => (v2 e he c n i1 i2).2 k1 k2 hn⟩
  · rintro c (⟨-, -, n, hn⟩ | ⟨-, -, n, hn⟩) x y hx hy
    · rw [hx.1 n hn, hy.1 n hn]
    · rw [hx.2 n hn, hy.2 n hn]

private theorem parities_differ {N : ℝ → ℤ} (hN : Monotone N) {step : ℝ} (hspell : ∀ s t, s ≤ t → t - s < step → N t ≤ N s + 1) {s t : ℝ} (h2 : s < t) (h4 : t - s < step)
    (h5 : N s ≠ N t) : decide (Even (N s)) ≠ decide (Even (N t)) := by
  have e1 := hspell s t h2.le h4
  have e2 := hN h2.le
  have e3 : N t = N s + 1 := by omega
  simp only [e3, Int.even_add_one, ne_eq]
  by_cases he : Even (N s) <;> simp [he]

/-- **C120.**  The same of `sunrise_sunset`, if no day or night is shorter than 0.04 days. -/
theorem C120_sunrise {degrees : ℝ → ℝ} {a m b epsilon : ℝ} {N : ℝ → ℤ} (hN : Monotone N) (hup : ∀ t, a ≤ t → t ≤ b → (-0.8333 ≤ degrees t ↔ Even (N t)))
    (hspell : ∀ s t, s ≤ t → t - s < 0.04 → N t ≤ N s + 1) (heps : 0 < epsilon) (heps' : epsilon < 0.04) (ham : a ≤ m) (hmb : m ≤ b)
    {num fuel num1 fuel1 num2 fuel2 : ℕ} (hnum : 2 ≤ num) (hnum1 : 2 ≤ num1) (hnum2 : 2 ≤ num2) {events first second : List (ℝ × Bool)}
    (h : findDiscrete a b (sunriseSunset degrees) epsilon num fuel = .ok (some events))
    (h1 : findDiscrete a m (sunriseSunset degrees) epsilon num1 fuel1 = .ok (some first))
    (h2 : findDiscrete m b (sunriseSunset degrees) epsilon num2 fuel2 = .ok (some second)) : SameEvents epsilon (first ++ second) events := by
  refine C120_split hN (F := fun n : ℤ => decide (Even n)) (step := 0.04) ?_ (fun s t _ k2 _ => parities_differ hN hspell k2) hspell heps heps' rfl (by norm_num) ham hmb hnum
    hnum1 hnum2 h h1 h2
  intro t k1 k2
  unfold sunriseSunset isSunUpAt
  simp only [ge_iff_le, hup t k1 k2]

/-- **C120.**  The same of `risings_and_settings`, if the body stays neither up nor down for less than 0.25 days. -/
theorem C120_risings {degrees : ℝ → ℝ} {horizon radius a m b epsilon : ℝ} {N : ℝ → ℤ} (hN : Monotone N)
    (hup : ∀ t, a ≤ t → t ≤ b → (horizon < degrees t + radius ↔ Even (N t))) (hspell : ∀ s t, s ≤ t → t - s < 0.25 → N t ≤ N s + 1) (heps : 0 < epsilon)
    (heps' : epsilon < 0.25) (ham : a ≤ m) (hmb : m ≤ b) {num fuel num1 fuel1 num2 fuel2 : ℕ} (hnum : 2 ≤ num) (hnum1 : 2 ≤ num1) (hnum2 : 2 ≤ num2)
    {events first second : List (ℝ × Bool)} (h : findDiscrete a b (risingsAndSettings horizon radius degrees) epsilon num fuel = .ok (some events))
    (h1 : findDiscrete a m (risingsAndSettings horizon radius degrees) epsilon num1 fuel1 = .ok (some first))
    (h2 : findDiscrete m b (risingsAndSettings horizon radius degrees) epsilon num2 fuel2 = .ok (some second)) : SameEvents epsilon (first ++ second) events := by
  refine C120_split hN (F := fun n : ℤ => decide (Even n)) (step := 0.25) ?_ (fun s t _ k2 _ => parities_differ hN hspell k2) hspell heps heps' rfl (by norm_num) ham hmb hnum
    hnum1 hnum2 h h1 h2
  intro t k1 k2
  unfold risingsAndSettings
  simp only [C47_body_up, hup t k1 k2]

/-- **C120.**  The same of `dark_twilight_day`, if the light does not return within 0.04 days to what it was. -/
theorem C120_twilight {degrees : ℝ → ℝ} {a m b epsilon d : ℝ} {N : ℝ → ℤ} (hN : Monotone N) {F : ℤ → ℕ} (hF : ∀ t, a ≤ t → t ≤ b → darkTwilightDayAt (degrees t) = F (N t))
    (hreturn : ∀ s t, a ≤ s → s < t → t ≤ b → t - s < 0.04 → N s ≠ N t → F (N s) ≠ F (N t)) (hspell : ∀ s t, s ≤ t → t - s < d → N t ≤ N s + 1) (heps : 0 < epsilon)
    (heps' : epsilon < d) (ham : a ≤ m) (hmb : m ≤ b) {num fuel num1 fuel1 num2 fuel2 : ℕ} (hnum : 2 ≤ num) (hnum1 : 2 ≤ num1) (hnum2 : 2 ≤ num2)
    {events first second : List (ℝ × ℕ)} (h : findDiscrete a b (darkTwilightDay degrees) epsilon num fuel = .ok (some events))
    (h1 : findDiscrete a m (darkTwilightDay degrees) epsilon num1 fuel1 = .ok (some first))
    (h2 : findDiscrete m b (darkTwilightDay degrees) epsilon num2 fuel2 = .ok (some second)) : SameEvents epsilon (first ++ second) events :=
  C120_split hN (f := darkTwilightDay degrees) hF hreturn hspell heps heps' rfl (by norm_num) ham hmb hnum hnum1 hnum2 h h1 h2

/-! ### Without the hypotheses -/

/-- A search of a stretch shorter than a step, at whose ends the values differ, finds something. -/
private theorem short_search_finds {a b step epsilon : ℝ} {f : Searchable ℝ V} (hstep : f.stepDays = some step) (heps : 0 < epsilon) (hlt : a < b)
    (hshort : b - a < step) (hne : f.call a ≠ f.call b) {num : ℕ} (hnum : 3 ≤ num) :
    ∃ fuel events, findDiscrete a b f epsilon num fuel = .ok (some events) ∧ ∃ e ∈ events, a < e.1 ∧ e.1 ≤ b := by
  have hpos : 0 < step := by linarith
  obtain ⟨fuel, events, h⟩ := exists_search a b hlt f hstep hpos heps num hnum
  have hs : discreteSamples a b f num = .ok [a, b] := by
    unfold discreteSamples
    rw [if_neg (not_le.2 hlt)]
    have ha : astypeInt ((b - a) / step) = 0 := by
      unfold astypeInt
      rw [if_pos (by apply div_nonneg <;> linarith), Int.floor_eq_zero_iff, Set.mem_Ico]
      constructor
      · apply div_nonneg <;> linarith
      · rw [div_lt_one (by linarith)]; exact hshort
    simp only [hstep, ha]
    rw [if_neg (by norm_num)]
    congr 1
    have : npLinspace a b (0 + 2) = _ := npLinspace_succ a b 0
    rw [show ((0 : ℤ) + 2).toNat = 0 + 2 from rfl, this]
    simp
  exact ⟨fuel, events, h, C16_no_change_missed a b f epsilon num fuel events [a, b] (by omega) (by rintro s e; rw [hstep] at e; cases e; exact hpos) hs h a b (by simp) (by simp) hlt hne⟩

/-- **C120.**  Finding: if the value at `m` differs from those at `a` and `b`, which are the same and less than a step apart, then the search from `a` to `b` finds nothing,
but the search from `a` to `m` finds a change, and so does the search from `m` to `b`. -/
theorem C120_short_spell {a m b step epsilon : ℝ} {f : Searchable ℝ V} (hstep : f.stepDays = some step) (heps : 0 < epsilon) (ham : a < m) (hmb : m < b)
    (hshort : b - a < step) (hsame : f.call a = f.call b) (hne : f.call m ≠ f.call a) {num : ℕ} (hnum : 3 ≤ num) :
    (∀ fuel, findDiscrete a b f epsilon num (fuel + 1) = .ok (some [])) ∧
      (∃ fuel first, findDiscrete a m f epsilon num fuel = .ok (some first) ∧ ∃ e ∈ first, a < e.1 ∧ e.1 ≤ m) ∧
      ∃ fuel second, findDiscrete m b f epsilon num fuel = .ok (some second) ∧ ∃ e ∈ second, m < e.1 ∧ e.1 ≤ b :=
  ⟨fun fuel => C115_short_spell_missed hstep (ham.trans hmb) hshort hsame epsilon num fuel,
    short_search_finds hstep heps ham (by linarith) (Ne.symm hne) hnum, short_search_finds hstep heps hmb (by linarith) (by rwa [← hsame]) hnum⟩

/-! ### Cases that meet the hypotheses -/

/-- A clock that counts whole days, searched from half a day before a change to two days after, in parts that meet at the change and elsewhere. -/
example (m : ℝ) (h0 : 0.5 < m) (h1 : m < 3) : ∃ (f : Searchable ℝ ℤ) (fuel fuel1 fuel2 : ℕ) (events first second : List (ℝ × ℤ)),
    findDiscrete 0.5 3 f 0.001 8 fuel = .ok (some events) ∧ findDiscrete 0.5 m f 0.001 8 fuel1 = .ok (some first) ∧
      findDiscrete m 3 f 0.001 8 fuel2 = .ok (some second) ∧ SameEvents 0.001 (first ++ second) events ∧ events ≠ [] := by
  let f : Searchable ℝ ℤ := ⟨fun t => ⌊t⌋, some 1, none⟩
  obtain ⟨fuel, events, h⟩ := exists_search (0.5 : ℝ) 3 (by norm_num) f (step := 1) (epsilon := 0.001) rfl (by norm_num) (by norm_num) 8 (by norm_num)
  obtain ⟨fuel1, first, h1'⟩ := exists_search (0.5 : ℝ) m h0 f (step := 1) (epsilon := 0.001) rfl (by norm_num) (by norm_num) 8 (by norm_num)
  obtain ⟨fuel2, second, h2⟩ := exists_search m 3 h1 f (step := 1) (epsilon := 0.001) rfl (by norm_num) (by norm_num) 8 (by norm_num)
  have hsmall : ∀ s t : ℝ, s ≤ t → t - s < 1 → ⌊t⌋ ≤ ⌊s⌋ + 1 := by
    intro s t _ k
    have := Int.floor_le_floor (show t ≤ s + 1 by linarith)
    rwa [Int.floor_add_one] at this
  refine ⟨f, fuel, fuel1, fuel2, events, first, second, h, h1', h2,
    C120_split (N := fun t => ⌊t⌋) (F := fun n => n) (d := 1) (step := 1) Int.floor_mono (fun _ _ _ => rfl) (fun _ _ _ _ _ _ k => k) hsmall (by norm_num) (by norm_num) rfl (by norm_num) h0.le h1.le
      (by norm_num) (by norm_num) (by norm_num) h h1' h2, ?_⟩
  rintro rfl
  have := (C115_spells (N := fun t : ℝ => ⌊t⌋) (F := fun n => n) (d := 1) (step := 1) Int.floor_mono (fun _ _ _ => rfl) (fun _ _ _ _ _ _ k => k) hsmall (by norm_num) (by norm_num) (by norm_num) rfl (by norm_num) h).1.each 1
    ⟨1, by norm_num, by norm_num, by
      constructor
      · intro t ht
        have : (1 : ℤ) ≤ ⌊t⌋ := ht
        rw [Int.le_floor] at this
        exact_mod_cast this
      · intro t ht
        exact ht (show (1 : ℤ) ≤ ⌊(1 : ℝ)⌋ by simp)⟩
  obtain ⟨e, ⟨he, -⟩, -⟩ := this
  simp at he

/-- A spell of a fifth of a day, and a step of half a day. -/
example : ∃ f : Searchable ℝ ℤ, f.stepDays = some 0.5 ∧ f.call 0 = f.call 0.4 ∧ f.call 0.2 ≠ f.call 0 :=
  ⟨⟨fun t => if 0.1 ≤ t ∧ t < 0.3 then 1 else 0, some 0.5, none⟩, rfl, by norm_num, by norm_num⟩

end Skyfield
