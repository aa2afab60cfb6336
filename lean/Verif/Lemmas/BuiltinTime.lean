import Verif.Lemmas.BuiltinRows
import Verif.Lemmas.DeltaTSteps
import Mathlib.Tactic.NormNum
import Mathlib.Tactic.Positivity

/-
Lemmas for C113: the bundled daily table as rows of real numbers, and straight lines between them.
-/
namespace Skyfield

/-! ### The check, pair by pair -/

theorem countLe_zero (l : List ℕ) (d : ℕ) (h : ∀ n ∈ l, d < n) : countLe l d = 0 := by
  induction l with
  | nil => rfl
  | cons n l ih =>
    have : Nat.ble n d = false := by
      rw [Bool.eq_false_iff]
      intro hc
      have := h n List.mem_cons_self
      have := Nat.le_of_ble_eq_true hc
      omega
    simp only [countLe, this, Bool.toNat_false, ih fun m hm => h m (List.mem_cons_of_mem _ hm)]

/-- What the walk through the rows keeps true at day `d`. -/
structure LeapsTo (d o : ℕ) (leaps : List ℕ) : Prop where
  later : ∀ n ∈ leaps, d < n
  sorted : leaps.Pairwise (· < ·)
  offset : ∀ e, d ≤ e → builtinOffset e = o + countLe leaps e

theorem LeapsTo.now {d o : ℕ} {leaps : List ℕ} (h : LeapsTo d o leaps) : builtinOffset d = o := by
  rw [h.offset d le_rfl, countLe_zero leaps d h.later, add_zero]

theorem LeapsTo.next {d o : ℕ} {leaps : List ℕ} (h : LeapsTo d o leaps) :
    LeapsTo (d + 1) (nextOffset o leaps (d + 1)).1 (nextOffset o leaps (d + 1)).2 := by
  obtain ⟨h1, h2, h3⟩ := h
  cases leaps with
  | nil => exact ⟨by simp [nextOffset], by simp [nextOffset], fun e he => h3 e (by omega)⟩
  | cons n l =>
    obtain ⟨h4, h5⟩ := List.pairwise_cons.1 h2
    have hn := h1 n List.mem_cons_self
    unfold nextOffset
    simp only
    cases hb : Nat.ble n (d + 1) with
    | true =>
      have := Nat.le_of_ble_eq_true hb
      refine ⟨fun m hm => by have := h4 m hm; show d + 1 < m; omega, h5, ?_⟩
      intro e he
      rw [h3 e (by omega)]
      have : Nat.ble n e = true := Nat.ble_eq_true_of_le (by omega)
      simp only [countLe, this, Bool.toNat_true]
      omega
    | false =>
      have hlt : d + 1 < n := by
        by_contra hc
        rw [Nat.ble_eq_true_of_le (by omega)] at hb
        exact absurd hb (by simp)
      refine ⟨fun m hm => ?_, h2, fun e he => h3 e (by omega)⟩
      rcases List.mem_cons.1 hm with rfl | hm
      · exact hlt
      · have := h4 m hm
        omega

theorem chkRows_pair (i o0 o1 : ℕ) (leaps : List ℕ) (r : ℕ × ℕ) (rest : List (ℕ × ℕ)) (h : chkRows i o0 o1 leaps r rest = true)
    (h0 : o0 = builtinOffset (2441684 + i)) (h1 : LeapsTo (2441685 + i) o1 leaps)
    (pre post : List (ℕ × ℕ)) (u v : ℕ × ℕ) (e : r :: rest = pre ++ u :: v :: post) :
    rowsOk (i + pre.length) (builtinOffset (2441684 + (i + pre.length))) (builtinOffset (2441686 + (i + pre.length))) u v = true := by
  induction rest generalizing i o0 o1 leaps r pre with
  | nil =>
    have := congrArg List.length e
    simp at this
    omega
  | cons s rest ih =>
    have hnext := h1.next
    rw [show 2441685 + i + 1 = 2441686 + i by omega] at hnext
    have h' : rowsOk i o0 (nextOffset o1 leaps (2441686 + i)).1 r s = true ∧
        chkRows (i + 1) o1 (nextOffset o1 leaps (2441686 + i)).1 (nextOffset o1 leaps (2441686 + i)).2 s rest = true := by
      rw [← Bool.and_eq_true]
      exact h
    cases pre with
    | nil =>
      simp only [List.nil_append, List.cons.injEq] at e
      obtain ⟨rfl, rfl, -⟩ := e
      rw [List.length_nil, add_zero, ← h0, hnext.now]
      exact h'.1
    | cons a pre =>
      simp only [List.cons_append, List.cons.injEq] at e
      have := ih (i + 1) o1 _ _ s h'.2 (by rw [show 2441684 + (i + 1) = 2441685 + i by omega]; exact h1.now.symm)
        (by rw [show 2441685 + (i + 1) = 2441686 + i by omega]; exact hnext) pre e.2
      rw [List.length_cons, show i + (pre.length + 1) = i + 1 + pre.length by omega]
      exact this

theorem leapsTo_start : LeapsTo 2441685 12 (builtinLeapDays.drop 2) := by
  refine ⟨by decide, by decide, ?_⟩
  intro e he
  have e1 : builtinLeapDays = 2441500 :: 2441684 :: builtinLeapDays.drop 2 := by decide
  unfold builtinOffset
  rw [e1]
  have a1 : Nat.ble 2441500 e = true := Nat.ble_eq_true_of_le (by omega)
  have a2 : Nat.ble 2441684 e = true := Nat.ble_eq_true_of_le (by omega)
  simp only [countLe, a1, a2, Bool.toNat_true, List.drop_succ_cons, List.drop_zero]
  omega

theorem builtin_pair (pre post : List (ℕ × ℕ)) (u v : ℕ × ℕ) (e : builtinRows = pre ++ u :: v :: post) :
    rowsOk pre.length (builtinOffset (2441684 + pre.length)) (builtinOffset (2441686 + pre.length)) u v = true := by
  have h := builtin_chk
  have h2 : ∃ r rest, builtinRows = r :: rest := by
    cases hb : builtinRows with
    | nil => rw [hb] at h; exact absurd h (by simp [chkAll])
    | cons r rest => exact ⟨r, rest, rfl⟩
  obtain ⟨r, rest, hr⟩ := h2
  rw [hr] at h e
  have := chkRows_pair 0 12 12 _ r rest h (by decide) leapsTo_start pre post u v e
  rw [zero_add] at this
  exact this

/-! ### Rows as real numbers -/

/-- Row `i` as TT (Julian date) and ∆T (seconds). -/
noncomputable def realRow (i : ℕ) (r : ℕ × ℕ) : ℝ × ℝ := ((r.1 : ℝ) / 2 ^ 31 + i, (r.2 : ℝ) / 10 ^ 7)

noncomputable def realRows (i : ℕ) : List (ℕ × ℕ) → List (ℝ × ℝ)
  | [] => []
  | r :: rest => realRow i r :: realRows (i + 1) rest

theorem realRows_append (i : ℕ) (a b : List (ℕ × ℕ)) : realRows i (a ++ b) = realRows i a ++ realRows (i + a.length) b := by
  induction a generalizing i with
  | nil => simp [realRows]
  | cons r a ih => simp only [List.cons_append, realRows, ih, List.length_cons, show i + (a.length + 1) = i + 1 + a.length by omega]

theorem realRows_length (i : ℕ) (a : List (ℕ × ℕ)) : (realRows i a).length = a.length := by
  induction a generalizing i with
  | nil => rfl
  | cons r a ih => simp [realRows, ih]

theorem realRows_zip (round7 : ℝ → ℝ) (h7 : ∀ n : ℕ, round7 ((n : ℝ) / 10 ^ 7) = (n : ℝ) / 10 ^ 7) (i : ℕ) (a b : List ℕ) :
    ((((a.map fun n : ℕ => (n : ℝ) / 2 ^ 31).zipIdx i).map fun p => p.1 + (p.2 : ℝ)).zip
      ((b.map fun n : ℕ => (n : ℝ)).map fun d => round7 (d / 10 ^ 7))) = realRows i (a.zip b) := by
  induction a generalizing i b with
  | nil => simp [realRows]
  | cons n a ih =>
    cases b with
    | nil => simp [realRows]
    | cons m b =>
      simp only [List.map_cons, List.zipIdx_cons, List.zip_cons_cons, realRows, realRow, h7]
      rw [ih]

/-! What `rowsOk` says -/

structure RowFacts (i o0 o2 : ℕ) (u v : ℝ × ℝ) : Prop where
  order : u.1 < v.1
  up : v.2 - u.2 ≤ 0.004029 * (v.1 - u.1)
  down : u.2 - v.2 ≤ 0.004029 * (v.1 - u.1)
  low : 32.184 + o2 - u.2 ≤ 0.9
  low' : 32.184 + o2 - v.2 ≤ 0.9
  high : -0.9 ≤ 32.184 + o0 - u.2
  high' : -0.9 ≤ 32.184 + o0 - v.2
  after : 86400 * (2441684 + i) - 43200 + o0 ≤ 86400 * u.1 - 32.184
  before : 86400 * v.1 - 32.184 < 86400 * (2441686 + i) - 43200 + o2 + 1

theorem rowsOk_facts {i o0 o2 : ℕ} {r s : ℕ × ℕ} (h : rowsOk i o0 o2 r s = true) : RowFacts i o0 o2 (realRow i r) (realRow (i + 1) s) := by
  unfold rowsOk at h
  simp only [Bool.and_eq_true, Nat.ble_eq] at h
  obtain ⟨h1, h2, h3, h4, h5, h6, h7, h8, h9⟩ := h
  have c1 : (r.1 : ℝ) + 1 ≤ s.1 + 2147483648 := by exact_mod_cast h1
  have c2 : (s.2 : ℝ) * 2147483648 + 40290 * r.1 ≤ r.2 * 2147483648 + 40290 * (s.1 + 2147483648) := by exact_mod_cast h2
  have c3 : (r.2 : ℝ) * 2147483648 + 40290 * r.1 ≤ s.2 * 2147483648 + 40290 * (s.1 + 2147483648) := by exact_mod_cast h3
  have c4 : (321840000 : ℝ) + 10000000 * o2 ≤ r.2 + 9000000 := by exact_mod_cast h4
  have c5 : (321840000 : ℝ) + 10000000 * o2 ≤ s.2 + 9000000 := by exact_mod_cast h5
  have c6 : (r.2 : ℝ) ≤ 321840000 + 10000000 * o0 + 9000000 := by exact_mod_cast h6
  have c7 : (s.2 : ℝ) ≤ 321840000 + 10000000 * o0 + 9000000 := by exact_mod_cast h7
  have c8 : (2147483648 : ℝ) * (86400000 * (2441684 + i) + 32184 + 1000 * o0) ≤ (r.1 + i * 2147483648) * 86400000 + 2147483648 * 43200000 := by
    exact_mod_cast h8
  have c9 : ((s.1 : ℝ) + (i + 1) * 2147483648) * 86400000 + 2147483648 * 43200000 ≤ 2147483648 * (86400000 * (2441686 + i) + 32184 + 1000 * o2 + 1) := by
    exact_mod_cast h9
  clear h1 h2 h3 h4 h5 h6 h7 h8 h9
  unfold realRow
  generalize (r.1 : ℝ) = r1 at *
  generalize (r.2 : ℝ) = r2 at *
  generalize (s.1 : ℝ) = s1 at *
  generalize (s.2 : ℝ) = s2 at *
  have e1 : s1 / 2 ^ 31 + ((i + 1 : ℕ) : ℝ) - (r1 / 2 ^ 31 + i) = (s1 + 2147483648 - r1) / 2147483648 := by push_cast; ring
  refine ⟨?_, ?_, ?_, ?_, ?_, ?_, ?_, ?_, ?_⟩
  · show r1 / 2 ^ 31 + i < s1 / 2 ^ 31 + ((i + 1 : ℕ) : ℝ)
    rw [← sub_pos, e1]
    exact div_pos (by linarith) (by norm_num)
  · show s2 / 10 ^ 7 - r2 / 10 ^ 7 ≤ 0.004029 * (s1 / 2 ^ 31 + ((i + 1 : ℕ) : ℝ) - (r1 / 2 ^ 31 + i))
    rw [e1]
    linarith
  · show r2 / 10 ^ 7 - s2 / 10 ^ 7 ≤ 0.004029 * (s1 / 2 ^ 31 + ((i + 1 : ℕ) : ℝ) - (r1 / 2 ^ 31 + i))
    rw [e1]
    linarith
  · show 32.184 + (o2 : ℝ) - r2 / 10 ^ 7 ≤ 0.9
    linarith
  · show 32.184 + (o2 : ℝ) - s2 / 10 ^ 7 ≤ 0.9
    linarith
  · show -0.9 ≤ 32.184 + (o0 : ℝ) - r2 / 10 ^ 7
    linarith
  · show -0.9 ≤ 32.184 + (o0 : ℝ) - s2 / 10 ^ 7
    linarith
  · show 86400 * (2441684 + (i : ℝ)) - 43200 + o0 ≤ 86400 * (r1 / 2 ^ 31 + i) - 32.184
    linarith
  · show 86400 * (s1 / 2 ^ 31 + ((i + 1 : ℕ) : ℝ)) - 32.184 < 86400 * (2441686 + (i : ℝ)) - 43200 + o2 + 1
    push_cast
    linarith

/-- Between rows: for every time in the table there is a pair of neighbours with the time between them. -/
theorem locate (i : ℕ) (r : ℕ × ℕ) (rest : List (ℕ × ℕ)) (hne : rest ≠ []) (x : ℝ) (h0 : (realRow i r).1 ≤ x)
    (h1 : x ≤ ((realRows i (r :: rest)).getLast (by simp [realRows])).1) :
    ∃ pre post u v, r :: rest = pre ++ u :: v :: post ∧ (realRow (i + pre.length) u).1 ≤ x ∧ x ≤ (realRow (i + pre.length + 1) v).1 := by
  induction rest generalizing i r with
  | nil => exact absurd rfl hne
  | cons s rest ih =>
    rcases le_or_gt x (realRow (i + 1) s).1 with h | h
    · exact ⟨[], rest, r, s, rfl, by simpa using h0, by simpa using h⟩
    · have hne' : rest ≠ [] := by
        rintro rfl
        simp only [realRows, List.getLast_cons_cons, List.getLast_singleton] at h1
        linarith
      have h1' : x ≤ ((realRows (i + 1) (s :: rest)).getLast (by simp [realRows])).1 := by
        simpa only [realRows, List.getLast_cons_cons] using h1
      obtain ⟨pre, post, u, v, e, a, b⟩ := ih (i + 1) s hne' h.le h1'
      refine ⟨r :: pre, post, u, v, by rw [e]; rfl, ?_, ?_⟩
      · rw [List.length_cons, show i + (pre.length + 1) = i + 1 + pre.length by omega]; exact a
      · rw [List.length_cons, show i + (pre.length + 1) = i + 1 + pre.length by omega]; exact b

/-! ### Straight lines between rows -/

theorem interpGo_lipschitz {c : ℝ} (hc : 0 ≤ c) (p : ℝ × ℝ) (l : List (ℝ × ℝ))
    (h : (p :: l).IsChain fun a b => a.1 < b.1 ∧ |b.2 - a.2| ≤ c * (b.1 - a.1)) {x y : ℝ} (hxy : x ≤ y) :
    |interpGo p l y - interpGo p l x| ≤ c * (y - x) := by
  induction l generalizing p x y with
  | nil =>
    simp only [interpGo, sub_self, abs_zero]
    exact mul_nonneg hc (by linarith)
  | cons q r ih =>
    obtain ⟨⟨hpq, hslope⟩, hchain⟩ := List.isChain_cons_cons.1 h
    have hsort : (q :: r).Pairwise (fun a b : ℝ × ℝ => a.1 < b.1) := by
      have h2 : (q :: r).IsChain (fun a b : ℝ × ℝ => a.1 < b.1) := hchain.imp fun a b hab => hab.1
      have : IsTrans (ℝ × ℝ) (fun a b => a.1 < b.1) := ⟨fun a b c h1 h2 => lt_trans h1 h2⟩
      exact List.isChain_iff_pairwise.1 h2
    have hw : 0 < q.1 - p.1 := by linarith
    -- the line, held fixed before its start
    have line : ∀ z w : ℝ, z ≤ w → |(if w ≤ p.1 then p.2 else p.2 + (q.2 - p.2) / (q.1 - p.1) * (w - p.1)) -
        (if z ≤ p.1 then p.2 else p.2 + (q.2 - p.2) / (q.1 - p.1) * (z - p.1))| ≤ c * (w - z) := by
      intro z w hzw
      have hs : |(q.2 - p.2) / (q.1 - p.1)| ≤ c := by
        rw [abs_div, abs_of_pos hw, div_le_iff₀ hw]; exact hslope
      have key : ∀ a : ℝ, 0 ≤ a → |(q.2 - p.2) / (q.1 - p.1) * a| ≤ c * a := by
        intro a ha
        rw [abs_mul, abs_of_nonneg ha]
        exact mul_le_mul_of_nonneg_right hs ha
      by_cases hwp : w ≤ p.1
      · rw [if_pos hwp, if_pos (hzw.trans hwp), sub_self, abs_zero]
        exact mul_nonneg hc (by linarith)
      · rw [if_neg hwp]
        push Not at hwp
        by_cases hzp : z ≤ p.1
        · rw [if_pos hzp, add_sub_cancel_left]
          refine (key _ (by linarith)).trans ?_
          exact mul_le_mul_of_nonneg_left (by linarith) hc
        · rw [if_neg hzp]
          have e : p.2 + (q.2 - p.2) / (q.1 - p.1) * (w - p.1) - (p.2 + (q.2 - p.2) / (q.1 - p.1) * (z - p.1)) =
              (q.2 - p.2) / (q.1 - p.1) * (w - z) := by ring
          rw [e]
          exact key _ (by linarith)
    simp only [interpGo]
    by_cases hy : y < q.1
    · rw [if_pos hy, if_pos (lt_of_le_of_lt hxy hy)]
      exact line x y hxy
    · rw [if_neg hy]
      push Not at hy
      by_cases hx : x < q.1
      · rw [if_pos hx]
        have h1 := ih q hchain hy
        rw [interpGo_start q r hsort] at h1
        have h2 := line x q.1 hx.le
        rw [if_neg (not_le.2 hpq), div_mul_cancel₀ _ hw.ne', add_sub_cancel] at h2
        have h3 := abs_add_le (interpGo q r y - q.2) (q.2 - (if x ≤ p.1 then p.2 else p.2 + (q.2 - p.2) / (q.1 - p.1) * (x - p.1)))
        rw [sub_add_sub_cancel] at h3
        linarith
      · rw [if_neg hx]
        exact ih q hchain hxy

end Skyfield
