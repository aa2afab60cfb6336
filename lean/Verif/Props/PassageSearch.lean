import Verif.Props.SettlingSearch
import Verif.Spec.Passages
import Mathlib.Analysis.Real.Pi.Bounds

/-
C118, first part: a search for the passages of a turning angle from each part of the turn to the next.
-/
namespace Skyfield
open _root_.Spec Real

section
variable {V : Type*} [DecidableEq V] {k : ℕ} {F : ℤ → V} {slow fast jitter lo hi : ℝ} {L : ℝ → ℝ}

private theorem part_pos (hk : 2 ≤ k) : 0 < 2 * π / (k : ℝ) ∧ (k : ℝ) * (2 * π / k) = 2 * π := by
  have hk0 : (0 : ℝ) < k := by exact_mod_cast (by omega : 0 < k)
  have := pi_pos
  exact ⟨by positivity, by field_simp⟩

/-- Numbers of parts within less than one part are the same. -/
private theorem int_lt_of {w : ℝ} (hw : 0 < w) {a b : ℤ} (h : w * a < w * b) : a < b := by
  exact_mod_cast lt_of_mul_lt_mul_left h hw.le

private theorem names_shift (hF : Names k F) (n z : ℤ) : F (n + k * z) = F n := (hF _ _).2 ⟨z, by ring⟩

/-- **C118.** An angle that turns steadily, but for jumps of `jitter`, and in under `long` by less than a turn and a part short of it, does not leave a part of the turn and
come back to it within `long`, but for flickering at the border. -/
theorem C118_parts_settle (hk : 2 ≤ k) (hF : Names k F) (hturn : Turning slow fast jitter lo hi L) {f : ℝ → V} (hf : InParts k F lo hi L f)
    {long tiny : ℝ} (hfast : 0 ≤ fast) (hj : 0 ≤ jitter) (hslow : 0 < slow) (htiny : jitter ≤ slow * tiny)
    (hlong : fast * long + 2 * jitter < 2 * π - 2 * π / k) : Settles long tiny lo hi f := by
  intro s u w h0 h1 h2 h3 h4 h5
  obtain ⟨hW, hkW⟩ := part_pos hk
  obtain ⟨a, a1, a2, a3⟩ := hf s h0 (by linarith)
  obtain ⟨b, b1, b2, b3⟩ := hf u (by linarith) (by linarith)
  obtain ⟨c, c1, c2, c3⟩ := hf w (by linarith) h3
  obtain ⟨x, x1, x2⟩ := hturn s u h0 h1.le (by linarith)
  obtain ⟨y, y1, y2⟩ := hturn u w (by linarith) h2.le h3
  have hg : fast * (u - s) + fast * (w - u) ≤ fast * long := by
    rw [← mul_add]
    exact mul_le_mul_of_nonneg_left (by linarith) hfast
  have p1 : 0 ≤ slow * (u - s) := mul_nonneg hslow.le (by linarith)
  have p2 : 0 ≤ slow * (w - u) := mul_nonneg hslow.le (by linarith)
  rw [a3, c3, hF] at h5
  obtain ⟨z, hz⟩ := h5
  set W := 2 * π / (k : ℝ) with hWd
  have hz' : (c : ℝ) = a - k * z := by exact_mod_cast (by omega : c = a - k * z)
  have turn : ∀ r : ℝ, 2 * π * r = W * (k * r) := fun r => by rw [← hkW]; ring
  rw [turn] at x1 x2 y1 y2
  rw [← hkW] at hlong
  have hkr : (2 : ℝ) ≤ k := by exact_mod_cast hk
  -- the part at the end is the part at the start, with no turn between
  have hzxy : z + x + y = 0 := by
    have hkp : 0 < W * (k : ℝ) := by positivity
    rw [hz'] at c1 c2
    have l1 : W * k * ((z + x + y : ℤ) : ℝ) < W * k * ((1 : ℤ) : ℝ) := by push_cast; nlinarith
    have l2 : W * k * ((-1 : ℤ) : ℝ) < W * k * ((z + x + y : ℤ) : ℝ) := by push_cast; nlinarith
    have := int_lt_of hkp l1
    have := int_lt_of hkp l2
    omega
  have hb : b - k * x = a ∨ b - k * x + 1 ≤ a ∨ a + 1 ≤ b - k * x := by omega
  rcases hb with hb | hb | hb
  · left
    rw [b3, a3, hF]
    exact ⟨x, by omega⟩
  · right; left
    have hb' : (b : ℝ) - k * x + 1 ≤ a := by exact_mod_cast hb
    have : W * ((b : ℝ) - k * x + 1) ≤ W * a := mul_le_mul_of_nonneg_left hb' hW.le
    have hle : slow * (u - s) ≤ slow * tiny := by nlinarith
    exact le_of_mul_le_mul_left hle hslow
  · right; right
    have hb' : (a : ℝ) + 1 ≤ b - k * x := by exact_mod_cast hb
    have h6 : W * ((a : ℝ) + 1) ≤ W * (b - k * x) := mul_le_mul_of_nonneg_left hb' hW.le
    have hzr : (z : ℝ) = -x - y := by exact_mod_cast (by omega : z = -x - y)
    rw [hz', hzr] at c2
    have hle : slow * (w - u) ≤ slow * tiny := by nlinarith
    exact le_of_mul_le_mul_left hle hslow

/-- A change over a short while is a passage into the next part. -/
private theorem passage (hk : 2 ≤ k) (hF : Names k F) (hturn : Turning slow fast jitter lo hi L) {f : ℝ → V} (hf : InParts k F lo hi L f)
    {s e epsilon : ℝ} (h0 : lo ≤ s) (h1 : s ≤ e) (h2 : e ≤ hi) (h3 : e - s ≤ epsilon) (hfast : 0 ≤ fast) (hgain : jitter < slow * (e - s))
    (hsmall : fast * epsilon + jitter < 2 * π / k) (hne : f s ≠ f e) :
    ∃ n : ℤ, f s = F (n - 1) ∧ f e = F n ∧ PastBy (2 * π / k * n) 0 (fast * epsilon + jitter) (L e) := by
  obtain ⟨hW, hkW⟩ := part_pos hk
  obtain ⟨a, a1, a2, a3⟩ := hf s h0 (by linarith)
  obtain ⟨b, b1, b2, b3⟩ := hf e (by linarith) h2
  obtain ⟨x, x1, x2⟩ := hturn s e h0 h1 h2
  have hg : fast * (e - s) ≤ fast * epsilon := mul_le_mul_of_nonneg_left h3 hfast
  set W := 2 * π / (k : ℝ) with hWd
  have turn : ∀ r : ℝ, 2 * π * r = W * (k * r) := fun r => by rw [← hkW]; ring
  have hne' : b - k * x ≠ a := by
    intro h
    apply hne
    rw [a3, b3, hF]
    exact ⟨-x, by rw [← h]; ring⟩
  rw [turn] at x1 x2
  have l1 : W * (a : ℝ) < W * ((b - k * x + 1 : ℤ) : ℝ) := by push_cast; nlinarith
  have l2 : W * ((b - k * x : ℤ) : ℝ) < W * ((a + 2 : ℤ) : ℝ) := by push_cast; nlinarith
  have l1 := int_lt_of hW l1
  have l2 := int_lt_of hW l2
  have hb : b = a + 1 + k * x := by omega
  refine ⟨a + 1, by rw [a3, add_sub_cancel_right], by rw [b3, hb, names_shift hF], x, ?_, ?_⟩
  · rw [turn]
    rw [hb] at b1
    push_cast at b1 ⊢
    nlinarith
  · rw [turn]
    push_cast
    nlinarith

private theorem latest_same {v : V} {u u' : ℝ} : ∀ {events : List (ℝ × V)}, (∀ e ∈ events, e.1 ≤ u ↔ e.1 ≤ u') → latest v events u = latest v events u' := by
  intro events
  induction events generalizing v with
  | nil => intro _; rfl
  | cons e l ih =>
    intro h
    unfold latest
    have h1 := h e (by simp)
    rw [ih fun x hx => h x (List.mem_cons_of_mem _ hx)]
    by_cases h2 : e.1 ≤ u
    · rw [if_pos h2, if_pos (h1.1 h2)]
    · rw [if_neg h2, if_neg fun h3 => h2 (h1.2 h3)]

/-- The part named a little after, or before, the beginning of one. -/
private theorem named (hk : 2 ≤ k) (hF : Names k F) {f : ℝ → V} (hf : InParts k F lo hi L f) {t : ℝ} (h0 : lo ≤ t) (h1 : t ≤ hi) {n x : ℤ}
    (h2 : 2 * π / k * n < L t - 2 * π * x) (h3 : L t - 2 * π * x < 2 * π / k * (n + 1)) : f t = F n := by
  obtain ⟨hW, hkW⟩ := part_pos hk
  obtain ⟨a, a1, a2, a3⟩ := hf t h0 h1
  set W := 2 * π / (k : ℝ) with hWd
  have turn : ∀ r : ℝ, 2 * π * r = W * (k * r) := fun r => by rw [← hkW]; ring
  rw [turn] at h2 h3
  have l1 : W * (n : ℝ) < W * ((a - k * x + 1 : ℤ) : ℝ) := by push_cast; nlinarith
  have l2 : W * ((a - k * x : ℤ) : ℝ) < W * ((n + 1 : ℤ) : ℝ) := by push_cast; nlinarith
  have l1 := int_lt_of hW l1
  have l2 := int_lt_of hW l2
  rw [a3, show a = n + k * x by omega, names_shift hF]

private theorem gain_near (hturn : Turning slow fast jitter lo hi L) (hfast : 0 ≤ fast) (hslow : 0 ≤ slow) {T e before after : ℝ} (h1 : lo ≤ T) (h2 : T ≤ hi)
    (h3 : lo ≤ e) (h4 : e ≤ hi) (hb : 0 ≤ before) (ha : 0 ≤ after) (h5 : T - before ≤ e) (h6 : e ≤ T + after) :
    ∃ z : ℤ, -(fast * before + jitter) ≤ L e - L T - 2 * π * z ∧ L e - L T - 2 * π * z ≤ fast * after + jitter := by
  have p1 := mul_nonneg hfast hb
  have p2 := mul_nonneg hfast ha
  rcases le_total T e with ho | ho
  · obtain ⟨z, z1, z2⟩ := hturn T e h1 ho h4
    have q1 : 0 ≤ slow * (e - T) := mul_nonneg hslow (by linarith)
    have q2 : fast * (e - T) ≤ fast * after := mul_le_mul_of_nonneg_left (by linarith) hfast
    exact ⟨z, by linarith, by linarith⟩
  · obtain ⟨z, z1, z2⟩ := hturn e T h3 ho h2
    have q1 : 0 ≤ slow * (T - e) := mul_nonneg hslow (by linarith)
    have q2 : fast * (T - e) ≤ fast * before := mul_le_mul_of_nonneg_left (by linarith) hfast
    exact ⟨-z, by push_cast; linarith, by push_cast; linarith⟩

private theorem same_part (hk : 2 ≤ k) {m n x y z : ℤ} {A B past near low high : ℝ} (x1 : -near ≤ A - 2 * π / k * n - 2 * π * x)
    (x2 : A - 2 * π / k * n - 2 * π * x ≤ near) (y1 : 0 ≤ B - 2 * π / k * m - 2 * π * y) (y2 : B - 2 * π / k * m - 2 * π * y ≤ past)
    (z1 : -low ≤ B - A - 2 * π * z) (z2 : B - A - 2 * π * z ≤ high) (h1 : near + high < 2 * π / k) (h2 : past + near + low < 2 * π / k) :
    (k : ℤ) ∣ n - m := by
  obtain ⟨hW, hkW⟩ := part_pos hk
  set W := 2 * π / (k : ℝ) with hWd
  have turn : ∀ r : ℝ, 2 * π * r = W * (k * r) := fun r => by rw [← hkW]; ring
  rw [turn] at x1 x2 y1 y2 z1 z2
  have l1 : W * ((m + k * y - (n + k * x) - k * z : ℤ) : ℝ) < W * ((1 : ℤ) : ℝ) := by push_cast; linarith
  have l2 : W * ((-1 : ℤ) : ℝ) < W * ((m + k * y - (n + k * x) - k * z : ℤ) : ℝ) := by push_cast; linarith
  have l1 := int_lt_of hW l1
  have l2 := int_lt_of hW l2
  exact ⟨y - x - z, by rw [mul_sub, mul_sub]; omega⟩

/-- **C118.** A search with `find_discrete` for the part of the turn that an angle is in, where the angle turns steadily but for jumps of `jitter`, small against what it
gains in `epsilon`, and gains less than a turn short of a part in a step: the search reports the angle's passages from each part to the next, all of them and in turn. -/
theorem C118_search (hk : 2 ≤ k) (hF : Names k F) (hturn : Turning slow fast jitter lo hi L) {f : Searchable ℝ V} (hf : InParts k F lo hi L f.call)
    {step epsilon tiny : ℝ} {num fuel : ℕ} {events : List (ℝ × V)} (hnum : 2 ≤ num) (hstep : f.stepDays = some step) (heps : 0 < epsilon)
    (heps' : 2 * epsilon ≤ step) (hspan : lo + epsilon ≤ hi) (hj : 0 < jitter) (hslow : 0 < slow) (hfast : 0 ≤ fast) (htiny : jitter ≤ slow * tiny)
    (hfine : 8 * tiny * (num - 1) < epsilon) (hlong : fast * (step + 4 * tiny) + 2 * jitter < 2 * π - 2 * π / k)
    (hsmall : fast * (2 * epsilon + 7 * tiny) + 4 * jitter < 2 * π / k) (h : findDiscrete lo hi f epsilon num fuel = .ok (some events)) :
    ReportsPassages k F (fast * epsilon + jitter) jitter (7 * tiny) (epsilon + 7 * tiny) lo hi L events := by
  obtain ⟨hW, hkW⟩ := part_pos hk
  have ht0 : 0 < tiny := by
    by_contra hc
    push Not at hc
    nlinarith
  have hnum' : (2 : ℝ) ≤ num := by exact_mod_cast hnum
  have hfe : 0 ≤ fast * epsilon := mul_nonneg hfast heps.le
  have hft : 0 ≤ fast * tiny := mul_nonneg hfast ht0.le
  have hsmall1 : fast * epsilon + jitter < 2 * π / k := by nlinarith
  have hwide : ∀ x : ℝ, epsilon / (num - 1) ≤ x → jitter < slow * x := by
    intro x hx
    have : 8 * tiny < epsilon / (num - 1) := by rw [lt_div_iff₀ (by linarith)]; exact hfine
    nlinarith
  have hset := C118_parts_settle hk hF hturn hf hfast hj.le hslow htiny hlong
  obtain ⟨c1, c2, c3⟩ := C117_search_values hset hnum hstep heps heps' hspan ht0 hfine le_rfl h
  have hep : 0 < epsilon / ((num : ℝ) - 1) := div_pos heps (by linarith)
  have hhap : ∀ e ∈ events, lo < e.1 ∧ e.1 ≤ hi ∧ ∃ n : ℤ, e.2 = F n ∧ PastBy (2 * π / k * n) 0 (fast * epsilon + jitter) (L e.1) := by
    intro e he
    obtain ⟨a1, a2, a3, s, b1, b2, b3, b4⟩ := c1 e he
    obtain ⟨n, -, n2, n3⟩ := passage hk hF hturn hf b1 (by linarith) a2 b3 hfast (hwide _ b2) hsmall1 (by rw [a3]; exact b4)
    exact ⟨a1, a2, n, a3 ▸ n2, n3⟩
  refine ⟨hhap, ?_, ?_⟩
  · intro T n hT hT' hn
    obtain ⟨x, x1, x2⟩ := hn
    have hsome : ∃ e ∈ events, T - 7 * tiny ≤ e.1 ∧ e.1 ≤ T + (epsilon + 7 * tiny) := by
      by_contra hno
      push Not at hno
      have far : ∀ e ∈ events, e.1 < T - 7 * tiny ∨ T + (epsilon + 7 * tiny) < e.1 := by
        intro e he
        rcases lt_or_ge e.1 (T - 7 * tiny) with h' | h'
        · exact .inl h'
        · exact .inr (hno e he h')
      have t1 := c2 (T - 3 * tiny) (by linarith) (by linarith) (by
        intro e he
        rcases far e he with h' | h'
        · right; linarith
        · left; linarith)
      have t2 := c2 (T + 3 * tiny) (by linarith) (by linarith) (by
        intro e he
        rcases far e he with h' | h'
        · right; linarith
        · left; linarith)
      rw [latest_same (u := T - 3 * tiny) (u' := T + 3 * tiny) (by
        intro e he
        rcases far e he with h' | h' <;> constructor <;> intro <;> linarith), ← t2] at t1
      obtain ⟨y, y1, y2⟩ := hturn (T - 3 * tiny) T (by linarith) (by linarith) (by linarith)
      obtain ⟨z, z1, z2⟩ := hturn T (T + 3 * tiny) (by linarith) (by linarith) (by linarith)
      rw [sub_sub_cancel] at y1 y2
      rw [add_sub_cancel_left] at z1 z2
      rw [named hk hF hf (t := T - 3 * tiny) (n := n - 1) (x := x - y) (by linarith) (by linarith)
          (by push_cast; nlinarith) (by push_cast; nlinarith),
        named hk hF hf (t := T + 3 * tiny) (n := n) (x := x + z) (by linarith) (by linarith)
          (by push_cast; nlinarith) (by push_cast; nlinarith), hF] at t1
      obtain ⟨q, hq⟩ := t1
      have h1 : (k : ℤ) * -q = 1 := by linarith
      have := Int.eq_one_or_neg_one_of_mul_eq_one h1
      omega
    obtain ⟨e, he, e1, e2⟩ := hsome
    obtain ⟨h1, h2, m, hm, y, y1, y2⟩ := hhap e he
    refine ⟨e.1, ?_, e1, e2⟩
    suffices hs : F n = e.2 by rw [hs]; exact he
    rw [hm, hF]
    obtain ⟨z, z1, z2⟩ := gain_near hturn hfast hslow.le (by linarith : lo ≤ T) (by linarith : T ≤ hi) h1.le h2 (by linarith) (by linarith) e1 e2
    have g1 : fast * (epsilon + 7 * tiny) = fast * epsilon + 7 * (fast * tiny) := by ring
    have g2 : fast * (7 * tiny) = 7 * (fast * tiny) := by ring
    have g3 : fast * (2 * epsilon + 7 * tiny) = 2 * (fast * epsilon) + 7 * (fast * tiny) := by ring
    exact same_part hk (y1 := y1) (y2 := y2) x1 x2 z1 z2 (by linarith) (by linarith)
  · intro x hx
    obtain ⟨d1, d2, s, d3, d4, d5, d6, d7⟩ := c3 x hx
    obtain ⟨m1, m2⟩ := List.of_mem_zip hx
    obtain ⟨a1, a2, a3, -⟩ := c1 x.1 m1
    obtain ⟨a4, a5, a6, -⟩ := c1 x.2 (List.mem_of_mem_tail m2)
    obtain ⟨n, n1, n2, -⟩ := passage hk hF hturn hf (s := s) (e := x.2.1) (by linarith) d4.le a5 d6 hfast (hwide _ d5) hsmall1
      (by rw [d7, a6]; exact d1)
    refine ⟨d2, n - 1, d7 ▸ n1, ?_⟩
    rw [← a6, n2, sub_add_cancel]

end

/-- An angle that grows by a radian a day with a ripple of at most a millionth, in quarters of the turn, from day 0 to day 20, with a step of two days. -/
example : ∃ (L : ℝ → ℝ) (fuel : ℕ) (events : List (ℝ × ℤ)), Turning 1 1 0.000001 0 20 L ∧ ¬ Monotone L ∧
    InParts 4 (fun n : ℤ => n % 4) 0 20 L (fun t => ⌊L t / (2 * π / (4 : ℕ))⌋ % 4) ∧
    findDiscrete 0 20 ⟨fun t => ⌊L t / (2 * π / (4 : ℕ))⌋ % 4, some 2, none⟩ (0.01 : ℝ) 12 fuel = .ok (some events) ∧
    ReportsPassages 4 (fun n : ℤ => n % 4) (1 * 0.01 + 0.000001) 0.000001 (7 * 0.000001) (0.01 + 7 * 0.000001) 0 20 L events := by
  have hp := pi_gt_three
  have hp' := pi_lt_four
  set L : ℝ → ℝ := fun t => if t = 1 then t - 0.000001 else t with hL
  have hn : ∀ t, t - 0.000001 ≤ L t ∧ L t ≤ t := fun t => by
    simp only [hL]
    split <;> constructor <;> linarith
  have hturn : Turning 1 1 0.000001 0 20 L := fun s t _ _ _ =>
    ⟨0, by push_cast; linarith [(hn s).2, (hn t).1], by push_cast; linarith [(hn s).1, (hn t).2]⟩
  have hparts : InParts 4 (fun n : ℤ => n % 4) 0 20 L (fun t => ⌊L t / (2 * π / (4 : ℕ))⌋ % 4) := by
    intro t _ _
    have hw : 0 < 2 * π / ((4 : ℕ) : ℝ) := by positivity
    refine ⟨⌊L t / (2 * π / (4 : ℕ))⌋, ?_, ?_, rfl⟩
    · have := Int.floor_le (L t / (2 * π / (4 : ℕ)))
      rw [le_div_iff₀ hw] at this
      linarith
    · have := (Int.lt_floor_add_one (L t / (2 * π / (4 : ℕ)))).le
      rw [div_le_iff₀ hw] at this
      linarith
  have hF : Names 4 (fun n : ℤ => n % 4) := fun m n => ⟨fun h => by push_cast; beta_reduce at h; omega, fun h => by push_cast at h; beta_reduce; omega⟩
  obtain ⟨fuel, events, h⟩ := exists_search 0 20 (by norm_num) (⟨fun t => ⌊L t / (2 * π / (4 : ℕ))⌋ % 4, some 2, none⟩ : Searchable ℝ ℤ)
    (step := 2) (epsilon := 0.01) rfl (by norm_num) (by norm_num) 12 (by norm_num)
  refine ⟨L, fuel, events, hturn, fun hm => ?_, hparts, h, C118_search (by norm_num) hF hturn hparts (tiny := 0.000001) (by norm_num) rfl (by norm_num) (by norm_num)
    (by norm_num) (by norm_num) (by norm_num) (by norm_num) (by norm_num) (by norm_num) (by push_cast; linarith) (by push_cast; linarith) h⟩
  have h1 := hm (show (1 - 0.0000001 : ℝ) ≤ 1 by norm_num)
  simp only [hL] at h1
  norm_num at h1

end Skyfield
