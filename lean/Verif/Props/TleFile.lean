import Verif.Model.TleFile
import Mathlib.Tactic.Common
import Mathlib.Data.List.Range

/-
C29: satellite element files.
-/
namespace Skyfield

/-! ### Specification: pairs by position -/

/-- Lines `i - 1` and `i` of the file are the first and second line of an element set. -/
def pairAt (lines : List Line) (i : ℕ) : Prop :=
  1 ≤ i ∧ ∃ l1 l2, lines[i - 1]? = some l1 ∧ lines[i]? = some l2 ∧ isLine1 l1 = true ∧ isLine2 l2 = true

instance (lines : List Line) (i : ℕ) : Decidable (pairAt lines i) := by
  unfold pairAt
  cases h1 : lines[i - 1]? with
  | none => exact isFalse (by simp)
  | some l1 =>
    cases h2 : lines[i]? with
    | none => exact isFalse (by simp)
    | some l2 => exact decidable_of_iff (1 ≤ i ∧ isLine1 l1 = true ∧ isLine2 l2 = true) (by simp)

/-- The name line of the pair ending at line `i`: the line before it, if there is one, it is not empty and it is not
itself the end of a pair. -/
def nameLineAt (lines : List Line) (i : ℕ) : Option Line :=
  if 2 ≤ i ∧ ¬ pairAt lines (i - 2) then lines[i - 2]?.filter (· ≠ []) else none

/-- The element set ending at line `i`. -/
def elementsAt (skipNames : Bool) (lines : List Line) (i : ℕ) : Option Elements :=
  if pairAt lines i then
    match lines[i - 1]?, lines[i]? with
    | some l1, some l2 =>
        some ⟨if skipNames then none else (nameLineAt lines i).map cleanName, l1, l2⟩
    | _, _ => none
  else none

/-! ### Lemmas -/

theorem not_line1_of_line2 (b : Line) (h : isLine2 b = true) : isLine1 b = false := by
  unfold isLine1 isLine2 at *
  cases b with
  | nil => rfl
  | cons c cs =>
    simp only [Bool.and_eq_true, List.isPrefixOf] at h
    by_contra hc
    simp only [Bool.not_eq_false, Bool.and_eq_true, List.isPrefixOf] at hc
    have h1 := h.1
    have h2 := hc.1
    simp [List.isPrefixOf] at h1 h2
    rw [← h1.1] at h2
    exact absurd h2.1 (by decide)

/-- The state of the loop after the lines `done`: the line before the last, and the last, each blank if it does
not exist or belongs to a finished pair. -/
def loopState (done : List Line) : Line × Line :=
  let n := done.length
  let last := if n = 0 ∨ pairAt done (n - 1) then [] else (done[n - 1]?).getD []
  let before := if n ≤ 1 ∨ pairAt done (n - 1) ∨ pairAt done (n - 2) then [] else (done[n - 2]?).getD []
  (before, last)

theorem pairAt_append (done rest : List Line) (i : ℕ) (h : i < done.length) :
    pairAt (done ++ rest) i ↔ pairAt done i := by
  unfold pairAt
  rw [List.getElem?_append_left (by omega : i - 1 < done.length), List.getElem?_append_left h]

theorem elementsAt_append (skip : Bool) (done rest : List Line) (i : ℕ) (h : i < done.length) :
    elementsAt skip (done ++ rest) i = elementsAt skip done i := by
  unfold elementsAt nameLineAt
  simp only [pairAt_append done rest i h, pairAt_append done rest (i - 2) (by omega),
    List.getElem?_append_left (by omega : i - 1 < done.length), List.getElem?_append_left h,
    List.getElem?_append_left (by omega : i - 2 < done.length)]

theorem not_pair_succ (lines : List Line) (i : ℕ) (h : pairAt lines i) : ¬ pairAt lines (i + 1) := by
  rintro ⟨-, l1, l2, h1, -, h3, -⟩
  obtain ⟨-, m1, m2, -, k2, -, k4⟩ := h
  rw [Nat.add_sub_cancel, k2, Option.some.injEq] at h1
  subst h1
  rw [not_line1_of_line2 _ k4] at h3
  cases h3

/-- Whether the next line completes a pair, in terms of the loop's state. -/
theorem pairAt_next (done : List Line) (b2 : Line) :
    pairAt (done ++ [b2]) done.length ↔ (isLine2 b2 && isLine1 (loopState done).2) = true := by
  rw [Bool.and_eq_true]
  unfold loopState
  simp only
  constructor
  · rintro ⟨hn, l1, l2, h1, h2, h3, h4⟩
    rw [List.getElem?_append_left (by omega)] at h1
    rw [List.getElem?_append_right (le_refl _), Nat.sub_self] at h2
    simp only [List.getElem?_cons_zero, Option.some.injEq] at h2
    subst h2
    refine ⟨h4, ?_⟩
    rw [if_neg, h1]
    · exact h3
    · rintro (h | h)
      · omega
      · obtain ⟨-, m1, m2, -, k2, -, k4⟩ := h
        rw [h1, Option.some.injEq] at k2
        subst k2
        rw [not_line1_of_line2 _ k4] at h3
        cases h3
  · rintro ⟨h4, h3⟩
    split_ifs at h3 with hc
    · cases h3
    · rw [not_or] at hc
      have hlt : done.length - 1 < done.length := by omega
      rw [List.getElem?_eq_getElem hlt, Option.getD_some] at h3
      refine ⟨by omega, done[done.length - 1], b2, ?_, ?_, h3, h4⟩
      · rw [List.getElem?_append_left hlt, List.getElem?_eq_getElem hlt]
      · rw [List.getElem?_append_right (le_refl _), Nat.sub_self]; rfl

theorem loopState_next (done : List Line) (b2 : Line) :
    loopState (done ++ [b2]) =
      if pairAt (done ++ [b2]) done.length then ([], []) else ((loopState done).2, b2) := by
  have hlen : (done ++ [b2]).length = done.length + 1 := by simp
  by_cases hp : pairAt (done ++ [b2]) done.length
  · rw [if_pos hp]
    unfold loopState
    simp only [hlen, Nat.add_sub_cancel]
    rw [if_pos (Or.inr (Or.inl hp)), if_pos (Or.inr hp)]
  · rw [if_neg hp]
    unfold loopState
    simp only [hlen, Nat.add_sub_cancel]
    have e2 : done.length + 1 - 2 = done.length - 1 := by omega
    rw [e2]
    refine Prod.ext ?_ ?_
    · show (if _ then _ else _) = (if _ then _ else _)
      by_cases h0 : done.length = 0
      · rw [if_pos (Or.inl (by omega)), if_pos (Or.inl h0)]
      · have hlt : done.length - 1 < done.length := by omega
        have e3 : pairAt (done ++ [b2]) (done.length - 1) ↔ pairAt done (done.length - 1) :=
          pairAt_append done [b2] _ hlt
        by_cases h1 : pairAt done (done.length - 1)
        · rw [if_pos (Or.inr (Or.inr (e3.2 h1))), if_pos (Or.inr h1)]
        · rw [if_neg, if_neg]
          · rw [List.getElem?_append_left hlt]
          · rw [not_or]; exact ⟨h0, h1⟩
          · rintro (h | h | h)
            · omega
            · exact hp h
            · exact h1 (e3.1 h)
    · show (if _ then _ else _) = b2
      rw [if_neg]
      · rw [List.getElem?_append_right (le_refl _), Nat.sub_self]; rfl
      · rintro (h | h)
        · omega
        · exact hp h

theorem nameOf_state (skip : Bool) (done : List Line) (b2 : Line)
    (hp : pairAt (done ++ [b2]) done.length) :
    nameOf skip (loopState done).1 =
      if skip then none else (nameLineAt (done ++ [b2]) done.length).map cleanName := by
  have hn : ¬ pairAt done (done.length - 1) := by
    intro h
    have hlt : done.length - 1 < done.length := by have := hp.1; omega
    have h' := (pairAt_append done [b2] _ hlt).2 h
    have := not_pair_succ _ _ h'
    rw [Nat.sub_add_cancel hp.1] at this
    exact this hp
  cases skip with
  | true => simp [nameOf]
  | false =>
    simp only [Bool.false_eq_true, if_false]
    have st : (loopState done).1 = if done.length ≤ 1 ∨ pairAt done (done.length - 1) ∨
        pairAt done (done.length - 2) then [] else (done[done.length - 2]?).getD [] := rfl
    have nn : nameOf false [] = none := rfl
    unfold nameLineAt
    by_cases h1 : done.length ≤ 1
    · rw [st, if_pos (Or.inl h1), if_neg (by omega), nn]; rfl
    · have e3 : pairAt (done ++ [b2]) (done.length - 2) ↔ pairAt done (done.length - 2) :=
        pairAt_append done [b2] _ (by omega)
      by_cases h2 : pairAt done (done.length - 2)
      · rw [st, if_pos (Or.inr (Or.inr h2)), if_neg (by rw [e3]; tauto), nn]; rfl
      · have hlt : done.length - 2 < done.length := by omega
        rw [st, if_neg (by rw [not_or, not_or]; exact ⟨h1, hn, h2⟩), if_pos ⟨by omega, by rw [e3]; exact h2⟩,
          List.getElem?_append_left hlt, List.getElem?_eq_getElem hlt, Option.getD_some]
        unfold nameOf
        by_cases h3 : done[done.length - 2] = []
        · simp [h3, Option.filter]
        · simp [h3, Option.filter]

theorem makeSatellite_ok {E Sat : Type*} (build : Line → Line → Option Line → Except E Sat) (e : Elements)
    (s : Sat) (h : makeSatellite build e = .ok s) : build e.line1 e.line2 e.name = .ok s := by
  unfold makeSatellite at h
  split_ifs at h
  split at h
  · rename_i s' hs
    rw [Except.ok.injEq] at h
    rw [hs, h]
  · cases h

theorem tlePairs_state (skip : Bool) (rest : List Line) : ∀ done : List Line,
    tlePairs skip (loopState done).1 (loopState done).2 rest =
      (List.range' done.length rest.length).filterMap (elementsAt skip (done ++ rest)) := by
  induction rest with
  | nil => intro done; rfl
  | cons b2 rest ih =>
    intro done
    have happ : done ++ b2 :: rest = (done ++ [b2]) ++ rest := by simp
    have hlen : (done ++ [b2]).length = done.length + 1 := by simp
    have ih' := ih (done ++ [b2])
    rw [loopState_next, hlen, ← happ] at ih'
    rw [List.length_cons, List.range'_succ, List.filterMap_cons, tlePairs]
    have hel : elementsAt skip (done ++ b2 :: rest) done.length =
        elementsAt skip (done ++ [b2]) done.length := by
      rw [happ]; exact elementsAt_append skip _ _ _ (by omega)
    rw [hel]
    by_cases hp : pairAt (done ++ [b2]) done.length
    · rw [if_pos ((pairAt_next done b2).1 hp)]
      rw [if_pos hp] at ih'
      have hlast : (done ++ [b2])[done.length - 1]? = some (loopState done).2 := by
        obtain ⟨hn, l1, l2, h1, h2, h3, h4⟩ := hp
        rw [h1]
        unfold loopState
        simp only
        rw [List.getElem?_append_left (by omega)] at h1
        rw [if_neg, h1, Option.getD_some]
        rintro (h | h)
        · omega
        · obtain ⟨-, m1, m2, -, k2, -, k4⟩ := h
          rw [h1, Option.some.injEq] at k2
          subst k2
          rw [not_line1_of_line2 _ k4] at h3
          cases h3
      have hthis : (done ++ [b2])[done.length]? = some b2 := by
        rw [List.getElem?_append_right (le_refl _), Nat.sub_self]; rfl
      have : elementsAt skip (done ++ [b2]) done.length =
          some ⟨nameOf skip (loopState done).1, (loopState done).2, b2⟩ := by
        unfold elementsAt
        rw [if_pos hp, hlast, hthis, nameOf_state skip done b2 hp]
      rw [this]
      simp only
      rw [ih']
    · rw [if_neg (fun h => hp ((pairAt_next done b2).2 h))]
      rw [if_neg hp] at ih'
      have : elementsAt skip (done ++ [b2]) done.length = none := by
        unfold elementsAt; rw [if_neg hp]
      rw [this]
      simp only
      rw [ih']

/-! ### C29 -/

/-- **C29.** The satellites of a file are, in order, those of the positions `i` at which a first line is followed
immediately by a second line; each is made from these two lines, with the name on the line before if that
is neither empty nor the end of another pair (and never a name if names are to be skipped).  All other
lines are skipped. -/
theorem C29_pairs (skipNames : Bool) (lines : List Line) :
    tlePairs skipNames [] [] lines = (List.range lines.length).filterMap (elementsAt skipNames lines) := by
  have := tlePairs_state skipNames lines []
  rw [List.nil_append, List.length_nil] at this
  rw [List.range_eq_range']
  exact this

/-- **C29.** A satellite is made for every such position, whatever surrounds it. -/
theorem C29_every_pair (skipNames : Bool) (lines : List Line) (i : ℕ) (h : pairAt lines i) :
    ∃ e ∈ tlePairs skipNames [] [] lines, lines[i - 1]? = some e.line1 ∧ lines[i]? = some e.line2 := by
  obtain ⟨hi, l1, l2, h1, h2, -⟩ := id h
  have hlt : i < lines.length := by
    by_contra hc
    rw [List.getElem?_eq_none (by omega)] at h2; cases h2
  refine ⟨⟨if skipNames then none else (nameLineAt lines i).map cleanName, l1, l2⟩, ?_, h1, h2⟩
  rw [C29_pairs, List.mem_filterMap]
  refine ⟨i, List.mem_range.2 hlt, ?_⟩
  unfold elementsAt
  rw [if_pos h, h1, h2]

/-- **C29.** No line is used twice: of two pairs, the later one's lines, and its name line if it has one, all come
after the lines of the earlier one. -/
theorem C29_no_line_twice (lines : List Line) (i j : ℕ) (hi : pairAt lines i) (hj : pairAt lines j)
    (hij : i < j) : i < j - 1 ∧ ((nameLineAt lines j).isSome = true → i < j - 2) := by
  have h1 : j ≠ i + 1 := by rintro rfl; exact not_pair_succ lines i hi hj
  refine ⟨by omega, ?_⟩
  intro h
  unfold nameLineAt at h
  split_ifs at h with hc
  · have : j - 2 ≠ i := by intro e; rw [e] at hc; exact hc.2 hi
    omega
  · cases h

/-- **C29.** `tle_file` returns one satellite for each pair, made by the constructor from those lines, in order. -/
theorem C29_satellites {E Sat : Type*} (build : Line → Line → Option Line → Except E Sat) (skipNames : Bool)
    (lines : List Line) (sats : List Sat) (h : parseTleFile build skipNames lines = .ok sats) :
    List.Forall₂ (fun i sat => ∃ e, elementsAt skipNames lines i = some e ∧
        build e.line1 e.line2 e.name = .ok sat)
      ((List.range lines.length).filter (pairAt lines ·)) sats := by
  unfold parseTleFile at h
  rw [C29_pairs] at h
  generalize List.range lines.length = is at h ⊢
  induction is generalizing sats with
  | nil =>
    simp only [List.filterMap_nil, List.mapM_nil] at h
    cases h
    exact List.Forall₂.nil
  | cons i is ih =>
    rw [List.filterMap_cons] at h
    by_cases hp : pairAt lines i
    · obtain ⟨hi, l1, l2, h1, h2, -⟩ := id hp
      have hel : elementsAt skipNames lines i =
          some ⟨if skipNames then none else (nameLineAt lines i).map cleanName, l1, l2⟩ := by
        unfold elementsAt; rw [if_pos hp, h1, h2]
      rw [hel] at h
      simp only [List.mapM_cons] at h
      generalize hm : makeSatellite build _ = r at h
      cases r with
      | error e => cases h
      | ok s =>
        generalize hrest : List.mapM (makeSatellite build) (List.filterMap (elementsAt skipNames lines) is) = rest at h
        cases rest with
        | error e => cases h
        | ok ss =>
          have : sats = s :: ss := by cases h; rfl
          subst this
          rw [List.filter_cons_of_pos (by simpa using hp)]
          refine List.Forall₂.cons ⟨_, hel, ?_⟩ (ih ss hrest)
          exact makeSatellite_ok build _ s hm
    · have hel : elementsAt skipNames lines i = none := by unfold elementsAt; rw [if_neg hp]
      rw [hel] at h
      simp only at h
      rw [List.filter_cons_of_neg (by simpa using hp)]
      exact ih sats h

theorem makeSatellite_ok_iff {E Sat : Type*} (build : Line → Line → Option Line → Except E Sat) (e : Elements) (s : Sat) :
    makeSatellite build e = .ok s ↔
      ((∀ n, e.name = some n → ∀ c ∈ n, c.toNat < 128) ∧ (∀ c ∈ e.line1, c.toNat < 128) ∧ (∀ c ∈ e.line2, c.toNat < 128)) ∧
      build e.line1 e.line2 e.name = .ok s := by
  have hc : ((e.name.all isAscii) && isAscii e.line1 && isAscii e.line2) = true ↔
      ((∀ n, e.name = some n → ∀ c ∈ n, c.toNat < 128) ∧ (∀ c ∈ e.line1, c.toNat < 128) ∧
        (∀ c ∈ e.line2, c.toNat < 128)) := by
    cases e.name <;> simp [isAscii, and_assoc]
  unfold makeSatellite
  by_cases h : ((e.name.all isAscii) && isAscii e.line1 && isAscii e.line2) = true
  · rw [if_pos h]
    have hh := hc.1 h
    simp only [iff_true_intro hh, true_and]
    cases hb : build e.line1 e.line2 e.name <;> simp
  · rw [if_neg h]
    simp only [reduceCtorEq, false_iff, not_and]
    intro hh
    exact absurd (hc.2 hh) h

theorem mapM_ok_iff {A B E : Type*} (f : A → Except E B) (l : List A) :
    (∃ r, l.mapM f = Except.ok r) ↔ ∀ a ∈ l, ∃ b, f a = .ok b := by
  induction l with
  | nil => simp [pure, Except.pure]
  | cons a l ih =>
    rw [List.mapM_cons, List.forall_mem_cons, ← ih]
    cases f a with
    | error e => simp [bind, Except.bind]
    | ok b =>
      cases List.mapM f l with
      | error e => simp [bind, Except.bind]
      | ok r => simp [bind, Except.bind, pure, Except.pure]

/-- **C29.** A file is accepted exactly if each pair (and its name) is plain ASCII and the constructor accepts it. -/
theorem C29_accepted {E Sat : Type*} (build : Line → Line → Option Line → Except E Sat) (skipNames : Bool)
    (lines : List Line) :
    (∃ sats, parseTleFile build skipNames lines = .ok sats) ↔
      ∀ i e, elementsAt skipNames lines i = some e →
        ((∀ n, e.name = some n → ∀ c ∈ n, c.toNat < 128) ∧ (∀ c ∈ e.line1, c.toNat < 128) ∧
          (∀ c ∈ e.line2, c.toNat < 128)) ∧ ∃ s, build e.line1 e.line2 e.name = .ok s := by
  unfold parseTleFile
  rw [mapM_ok_iff, C29_pairs]
  simp only [makeSatellite_ok_iff, List.mem_filterMap, List.mem_range, exists_and_left]
  constructor
  · intro h i e he
    refine h e ⟨i, ?_, he⟩
    unfold elementsAt at he
    split at he
    · rename_i hp
      obtain ⟨-, -, l2, -, h2, -⟩ := hp
      by_contra hc
      rw [List.getElem?_eq_none (by omega)] at h2; cases h2
    · cases he
  · rintro h e ⟨i, -, he⟩
    exact h i e he

theorem splitParen_plain (n : Line) (h : ¬ [' ', '('] <:+: n) : splitParen n = [n] := by
  induction n with
  | nil => rfl
  | cons c n ih =>
    have h' : ¬ [' ', '('] <:+: n := fun hh => h (hh.trans (List.suffix_cons c n).isInfix)
    rw [splitParen.eq_3]
    · rw [ih h']
    · intro rest hc hn
      subst hc hn
      exact h ⟨[], rest, rfl⟩

theorem splitParen_append (a b : Line) (h : ¬ [' ', '('] <:+: a) :
    splitParen (a ++ ' ' :: '(' :: b) = a :: splitParen b := by
  induction a with
  | nil => rw [List.nil_append, splitParen]
  | cons c a ih =>
    have h' : ¬ [' ', '('] <:+: a := fun hh => h (hh.trans (List.suffix_cons c a).isInfix)
    rw [List.cons_append, splitParen.eq_3]
    · rw [ih h']
    · intro rest hc hn
      subst hc
      cases a with
      | nil => simp at hn
      | cons d a =>
        rw [List.cons_append, List.cons.injEq] at hn
        rw [hn.1] at h
        exact h ⟨[], a, rfl⟩

/-- **C29.** The names under which the deprecated `Loader.tle` lists a satellite: none if it has no name; its name if there
is no parenthesis after a space in it; of a name `a (b)` the whole, `a`, and `b` without closing parentheses. -/
theorem C29_names (n a b : Line) (ha : ¬ [' ', '('] <:+: a) (hb : ¬ [' ', '('] <:+: b) (hn : ¬ [' ', '('] <:+: n)
    (hn0 : n ≠ []) (hlast : b.getLast? ≠ some ')') (k : ℕ) :
    tleNames none = some [] ∧ tleNames (some []) = some [] ∧ tleNames (some n) = some [n] ∧
    tleNames (some (a ++ ' ' :: '(' :: (b ++ List.replicate k ')'))) =
      some [a ++ ' ' :: '(' :: (b ++ List.replicate k ')'), a, b] := by
  refine ⟨rfl, rfl, ?_, ?_⟩
  · unfold tleNames
    split
    · rename_i h; cases h
    · rename_i h; cases h; exact absurd rfl hn0
    · rename_i h; cases h; rw [splitParen_plain n hn]
  · have hb' : ¬ [' ', '('] <:+: b ++ List.replicate k ')' := by
      rintro ⟨s, t, e⟩
      rw [List.append_assoc, List.append_eq_append_iff] at e
      rcases e with ⟨w, e1, e2⟩ | ⟨w, e1, e2⟩
      · have e3 := e2
        rw [List.append_eq_append_iff] at e3
        rcases e3 with ⟨w', e4, e5⟩ | ⟨w', e4, e5⟩
        · exact hb ⟨s, w', by rw [e1, e4, List.append_assoc]⟩
        · have hm : ∀ x ∈ w', x = ')' := fun x hx => List.eq_of_mem_replicate (by rw [e5]; exact List.mem_append_left _ hx)
          match w, w', e4, hm with
          | [], w', e4, hm => have := hm ' ' (by rw [← List.nil_append w', ← e4]; simp); simp at this
          | [x], w', e4, hm => have := hm '(' (by
                                  simp at e4
                                  rw [← e4.2]; simp); simp at this
          | [x, y], w', e4, hm =>
            simp at e4
            have h1 : [' ', '('] = [x, y] := by rw [← e4.1, ← e4.2.1]
            exact hb ⟨s, [], by rw [List.append_nil, e1, h1]⟩
          | x :: y :: z :: w, w', e4, hm => simp at e4
      · have hm : ∀ x ∈ [' ', '('] ++ t, x = ')' := fun x hx =>
          List.eq_of_mem_replicate (by rw [e2]; exact List.mem_append_right _ hx)
        have := hm ' ' (by simp)
        simp at this
    have hs : splitParen (a ++ ' ' :: '(' :: (b ++ List.replicate k ')')) = [a, b ++ List.replicate k ')'] := by
      rw [splitParen_append a _ ha, splitParen_plain _ hb']
    have hd : ((b ++ List.replicate k ')').reverse.dropWhile (· = ')')).reverse = b := by
      rw [List.reverse_append, List.reverse_replicate]
      have : ∀ k, List.dropWhile (fun x : Char => decide (x = ')')) (List.replicate k ')' ++ b.reverse) = b.reverse := by
        intro k
        induction k with
        | zero =>
          rw [List.replicate_zero, List.nil_append]
          cases hr : b.reverse with
          | nil => rfl
          | cons x xs =>
            have : b.getLast? = some x := by rw [List.getLast?_eq_head?_reverse, hr]; rfl
            rw [List.dropWhile_cons_of_neg]
            simp only [decide_eq_true_eq]
            rintro rfl
            exact hlast this
        | succ k ih => rw [List.replicate_succ, List.cons_append, List.dropWhile_cons_of_pos (by simp), ih]
      rw [this, List.reverse_reverse]
    unfold tleNames
    split
    · rename_i h; cases h
    · rename_i h; simp at h
    · rename_i h; cases h; rw [hs]; simp only; rw [hd]

/-- **C29, limitation.** The deprecated `Loader.tle` raises on a name with two parenthesised parts. -/
theorem C29_two_parentheses : tleNames (some "AO-7 (PHASE-II) (OSCAR 7)".toList) = none := by decide

/-! ### Non-vacuity -/

/-- A 69-character line. -/
def sampleLine (c : Char) : Line := c :: ' ' :: List.replicate 67 'x'

example : tlePairs false [] [] ["ISS (ZARYA)  \n".toList, sampleLine '1', sampleLine '2', sampleLine '1', sampleLine '2',
      "# stray".toList, sampleLine '2', "0 VANGUARD 1\r\n".toList, sampleLine '1', sampleLine '2'] =
    [⟨some "ISS (ZARYA)".toList, sampleLine '1', sampleLine '2'⟩, ⟨none, sampleLine '1', sampleLine '2'⟩,
      ⟨some "VANGUARD 1".toList, sampleLine '1', sampleLine '2'⟩] := by decide +kernel

example : ¬ [' ', '('] <:+: ['I', 'S', 'S'] ∧ ¬ [' ', '('] <:+: ['Z', ' ', 'A'] ∧ ['Z', ' ', 'A'].getLast? ≠ some ')' := by
  refine ⟨by decide, by decide, by decide⟩

example : tleNames (some "HTV-6 (KOUNOTORI 6)".toList) =
    some ["HTV-6 (KOUNOTORI 6)".toList, "HTV-6".toList, "KOUNOTORI 6".toList] := by decide

end Skyfield
