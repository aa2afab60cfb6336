import Verif.Model.DataFiles
import Verif.Spec.DataFiles
import Mathlib.Data.List.TakeWhile
import Mathlib.Tactic

/-
C91: reading the data files of constellations, star names, comets and stars.
-/
namespace Skyfield
open Spec

private theorem strip_iff (c : Char) : isStripChar c = true ↔ Blank c := by
  simp [isStripChar, Blank, or_assoc]

private theorem dropWhile_gap {gap rest : List Char} (h : ∀ c ∈ gap, Blank c) (hr : ∀ c r, rest = c :: r → ¬ Blank c) :
    (gap ++ rest).dropWhile isStripChar = rest := by
  induction gap with
  | nil =>
    cases rest with
    | nil => rfl
    | cons c r =>
      have : isStripChar c = false := by
        rw [Bool.eq_false_iff]
        exact fun k => hr c r rfl ((strip_iff c).mp k)
      simp [List.dropWhile_cons, this]
  | cons c gap ih =>
    have : isStripChar c = true := (strip_iff c).mpr (h c (by simp))
    simp only [List.cons_append, List.dropWhile_cons, this, if_true]
    exact ih fun c hc => h c (by simp [hc])

private theorem takeWhile_word {w rest : List Char} (hc : ∀ c ∈ w, ¬ Blank c) (hr : rest = [] ∨ ∃ c r, rest = c :: r ∧ Blank c) :
    (w ++ rest).takeWhile (fun c => !isStripChar c) = w ∧ (w ++ rest).dropWhile (fun c => !isStripChar c) = rest := by
  induction w with
  | nil =>
    rcases hr with rfl | ⟨c, r, rfl, hb⟩
    · exact ⟨rfl, rfl⟩
    · simp [(strip_iff c).mpr hb]
  | cons c w ih =>
    have : isStripChar c = false := by
      rw [Bool.eq_false_iff]
      exact fun k => hc c (by simp) ((strip_iff c).mp k)
    obtain ⟨i1, i2⟩ := ih fun c h => hc c (by simp [h])
    simp [this, i1, i2]

private theorem wordsOf_words {l : List Char} {ws : List (List Char)} (h : Words l ws) : ∀ fuel, l.length < fuel → wordsOf fuel l = ws := by
  induction h with
  | done gap h =>
    intro fuel hf
    obtain ⟨k, rfl⟩ : ∃ k, fuel = k + 1 := ⟨fuel - 1, by omega⟩
    have := dropWhile_gap (rest := []) h (by simp)
    rw [List.append_nil] at this
    simp [wordsOf, this]
  | word gap w rest ws h hw hc hr more ih =>
    intro fuel hf
    obtain ⟨k, rfl⟩ : ∃ k, fuel = k + 1 := ⟨fuel - 1, by omega⟩
    obtain ⟨c, w', rfl⟩ := List.exists_cons_of_ne_nil hw
    have e : (gap ++ (c :: w') ++ rest).dropWhile isStripChar = c :: w' ++ rest := by
      rw [List.append_assoc]
      apply dropWhile_gap h
      intro d r hd
      simp only [List.cons_append, List.cons.injEq] at hd
      rw [← hd.1]
      exact hc c (by simp)
    obtain ⟨t1, t2⟩ := takeWhile_word hc hr
    simp only [wordsOf, e]
    simp only [List.cons_append] at t1 t2 ⊢
    rw [t1, t2, ih k (by simp only [List.length_append, List.length_cons] at hf; omega)]

theorem pySplit_words {l : List Char} {ws : List (List Char)} (h : Words l ws) : pySplit l = ws :=
  wordsOf_words h _ (Nat.lt_succ_self _)

/-- Blanks at the start of a line do not matter. -/
private theorem words_lstrip {l : List Char} {w : List Char} {ws : List (List Char)} (h : Words l (w :: ws)) :
    Words (l.dropWhile isStripChar) (w :: ws) ∧ (l.dropWhile isStripChar).head? = w.head? := by
  cases h with
  | word gap w rest ws h hw hc hr more =>
    obtain ⟨c, w', rfl⟩ := List.exists_cons_of_ne_nil hw
    have e : (gap ++ (c :: w') ++ rest).dropWhile isStripChar = [] ++ (c :: w') ++ rest := by
      rw [List.append_assoc]
      apply dropWhile_gap h
      intro d r hd
      simp only [List.cons_append, List.cons.injEq] at hd
      rw [← hd.1]
      exact hc c (by simp)
    rw [e]
    exact ⟨.word [] _ rest ws (by simp) hw hc hr more, by simp⟩

private theorem starPairs_pairs {toInt : List Char → Option ℤ} {ws : List (List Char)} {ps : List (ℤ × ℤ)} (h : NumberPairs toInt ws ps) :
    starPairs toInt ws = .ok ps := by
  induction h with
  | nil => rfl
  | cons a b x y ws ps ha hb more ih => simp [starPairs, intOf, ha, hb, ih, bind, Except.bind, pure, Except.pure]

private theorem constellation_step {toInt : List Char → Option ℤ} {line : List Char} {item : Option (List Char × List (ℤ × ℤ))}
    (h : ConstellationLine toInt line item) (lines : List (List Char)) :
    parseConstellations toInt (line :: lines) =
      (parseConstellations toInt lines).map fun more => item.toList ++ more := by
  have id' : ∀ x : Except DataError (List (List Char × List (ℤ × ℤ))), (x.map fun more => more) = x := by intro x; cases x <;> rfl
  cases h with
  | comment gap rest h =>
    have e : (gap ++ '#' :: rest).dropWhile isStripChar = '#' :: rest := dropWhile_gap h (by
      intro c r hc
      simp only [List.cons.injEq] at hc
      rw [← hc.1]
      simp [Blank])
    rw [parseConstellations, e]
    simp [id']
  | empty _ h =>
    have e := dropWhile_gap (rest := []) h (by simp)
    rw [List.append_nil] at e
    rw [parseConstellations, e]
    simp [pySplit, wordsOf, id']
  | figure _ name count stars edges h hn he =>
    obtain ⟨hw, hh⟩ := words_lstrip h
    rw [parseConstellations, hh, if_neg hn, pySplit_words hw]
    simp only [List.drop_succ_cons, List.drop_zero, starPairs_pairs he]
    cases parseConstellations toInt lines <;> rfl

/-- **C91**: `parse_constellations` returns the figures of the file, in order, each with its lines between stars; comments and empty
lines are passed over, however the words are spaced. -/
theorem C91_constellations (toInt : List Char → Option ℤ) (lines : List (List Char)) (items : List (Option (List Char × List (ℤ × ℤ))))
    (h : List.Forall₂ (ConstellationLine toInt) lines items) : parseConstellations toInt lines = .ok (items.filterMap id) := by
  induction h with
  | nil => rfl
  | @cons line item lines items h _ ih =>
    rw [constellation_step h, ih]
    cases item <;> rfl

/-- **C91**: a figure with a star left over makes `parse_constellations` fail, whatever follows. -/
theorem C91_constellation_left_over (toInt : List Char → Option ℤ) (before after : List (List Char))
    (items : List (Option (List Char × List (ℤ × ℤ)))) (h : List.Forall₂ (ConstellationLine toInt) before items)
    (line name count last : List Char) (stars : List (List Char)) (edges : List (ℤ × ℤ)) (x : ℤ)
    (hw : Words line (name :: count :: (stars ++ [last]))) (hn : name.head? ≠ some '#') (he : NumberPairs toInt stars edges)
    (hx : toInt last = some x) : parseConstellations toInt (before ++ line :: after) = .error .indexError := by
  induction h with
  | nil =>
    obtain ⟨hw, hh⟩ := words_lstrip hw
    have e : ∀ ws ps, NumberPairs toInt ws ps → starPairs toInt (ws ++ [last]) = .error .indexError := by
      intro ws ps h
      induction h with
      | nil => simp [starPairs, intOf, hx, bind, Except.bind]
      | cons a b x y ws ps ha hb more ih => simp [starPairs, intOf, ha, hb, ih, bind, Except.bind]
    rw [List.nil_append, parseConstellations, hh, if_neg hn, pySplit_words hw]
    simp [e _ _ he, bind, Except.bind]
  | @cons l item lines items h _ ih =>
    rw [List.cons_append, constellation_step h, ih]
    rfl

private theorem words_trailing {l : List Char} {ws : List (List Char)} (h : Words l ws) :
    ∃ core tail, l = core ++ tail ∧ (∀ c ∈ tail, Blank c) ∧ Words core ws ∧ (ws = [] → core = []) ∧
      (ws ≠ [] → ∃ k c, core = k ++ [c] ∧ ¬ Blank c) := by
  induction h with
  | done gap h => exact ⟨[], gap, rfl, h, .done [] (by simp), fun _ => rfl, fun k => absurd rfl k⟩
  | word gap w rest ws h hw hc hr more ih =>
    obtain ⟨core, tail, e, ht, hW, h0, h1⟩ := ih
    refine ⟨gap ++ w ++ core, tail, by rw [e]; simp, ht, .word gap w core ws h hw hc ?_ hW, by simp, fun _ => ?_⟩
    · cases core with
      | nil => exact Or.inl rfl
      | cons c k =>
        refine Or.inr ⟨c, k, rfl, ?_⟩
        rcases hr with hr | ⟨c', r, hr, hb⟩
        · rw [hr] at e; simp at e
        · rw [hr] at e
          simp only [List.cons_append, List.cons.injEq] at e
          rw [← e.1]
          exact hb
    · by_cases hws : ws = []
      · rw [h0 hws, List.append_nil]
        obtain ⟨k, c, rfl⟩ : ∃ k c, w = k ++ [c] := ⟨w.dropLast, w.getLast hw, (List.dropLast_append_getLast hw).symm⟩
        exact ⟨gap ++ k, c, by simp, hc c (by simp)⟩
      · obtain ⟨k, c, hk, hb⟩ := h1 hws
        exact ⟨gap ++ w ++ k, c, by rw [hk]; simp, hb⟩

private theorem words_strip {l w : List Char} {ws : List (List Char)} (h : Words l (w :: ws)) :
    Words (pyStrip l) (w :: ws) ∧ (pyStrip l).head? = w.head? ∧ pyStrip l ≠ [] := by
  have key : ∀ l', Words l' (w :: ws) → l'.head? = w.head? → ∃ core, ((l'.reverse.dropWhile isStripChar).reverse) = core ∧
      Words core (w :: ws) ∧ core.head? = w.head? ∧ core ≠ [] := by
    intro l' h' hh
    obtain ⟨core, tail, e, ht, hW, -, h1⟩ := words_trailing h'
    obtain ⟨k, c, hk, hb⟩ := h1 (by simp)
    refine ⟨core, ?_, hW, ?_, by rw [hk]; simp⟩
    · have : l'.reverse = tail.reverse ++ core.reverse := by rw [e, List.reverse_append]
      rw [this, dropWhile_gap (by simpa using ht) (by
        intro d r hd
        rw [hk, List.reverse_append] at hd
        simp only [List.reverse_cons, List.reverse_nil, List.nil_append, List.singleton_append, List.cons.injEq] at hd
        rw [← hd.1]
        exact hb), List.reverse_reverse]
    · rw [← hh, e, hk]
      cases k <;> simp
  obtain ⟨hW, hh⟩ := words_lstrip h
  obtain ⟨core, e, r⟩ := key _ hW hh
  unfold pyStrip
  rw [e]
  exact r

private theorem pyStrip_blank {l : List Char} (h : ∀ c ∈ l, Blank c) : pyStrip l = [] := by
  have e := dropWhile_gap (rest := []) h (by simp)
  rw [List.append_nil] at e
  simp [pyStrip, e]

private theorem pyStrip_comment {gap rest : List Char} (h : ∀ c ∈ gap, Blank c) : (pyStrip (gap ++ '#' :: rest)).head? = some '#' := by
  have e : (gap ++ '#' :: rest).dropWhile isStripChar = '#' :: rest := dropWhile_gap h (by
      intro c r hc
      simp only [List.cons.injEq] at hc
      rw [← hc.1]
      simp [Blank])
  have : ∀ m : List Char, ∃ m', ((m ++ ['#']).dropWhile isStripChar) = m' ++ ['#'] := by
    intro m
    induction m with
    | nil => exact ⟨[], by decide⟩
    | cons c m ih =>
      rw [List.cons_append, List.dropWhile_cons]
      split_ifs
      · exact ih
      · exact ⟨c :: m, rfl⟩
  obtain ⟨m', hm⟩ := this rest.reverse
  simp only [pyStrip, e, List.reverse_cons, hm, List.reverse_append]
  simp

private theorem splitChar_none {c : Char} {l : List Char} (h : c ∉ l) : splitChar c l = [l] := by
  induction l with
  | nil => rfl
  | cons x l ih =>
    simp only [List.mem_cons, not_or] at h
    rw [splitChar, if_neg (Ne.symm h.1), ih h.2]

private theorem splitChar_cons {c : Char} {l : List Char} (h : c ∉ l) (rest : List Char) :
    splitChar c (l ++ c :: rest) = l :: splitChar c rest := by
  induction l with
  | nil => simp [splitChar]
  | cons x l ih =>
    simp only [List.mem_cons, not_or] at h
    rw [List.cons_append, splitChar, if_neg (Ne.symm h.1), ih h.2]

private theorem nameMark_iff (c : Char) : isNameMark c = true ↔ NameMark c := by simp [isNameMark, NameMark, or_assoc]

private theorem dropWhile_marks {m rest : List Char} (h : ∀ c ∈ m, NameMark c) (hr : ∃ c r, rest = c :: r ∧ ¬ NameMark c) :
    (m ++ rest).dropWhile isNameMark = rest := by
  induction m with
  | nil =>
    obtain ⟨c, r, rfl, hc⟩ := hr
    have : isNameMark c = false := by
      rw [Bool.eq_false_iff]
      exact fun k => hc ((nameMark_iff c).mp k)
    simp [this]
  | cons c m ih =>
    have : isNameMark c = true := (nameMark_iff c).mpr (h c (by simp))
    simp only [List.cons_append, List.dropWhile_cons, this, if_true]
    exact ih fun c hc => h c (by simp [hc])

private theorem stripNameMarks_name {a b name : List Char} (ha : ∀ c ∈ a, NameMark c) (hb : ∀ c ∈ b, NameMark c) (hp : PlainName name) :
    stripNameMarks (a ++ name ++ b) = name := by
  obtain ⟨⟨c, l, e, hc⟩, ⟨d, k, e', hd⟩⟩ := hp
  unfold stripNameMarks
  rw [List.append_assoc, dropWhile_marks ha ⟨c, l ++ b, by rw [e]; rfl, hc⟩, List.reverse_append,
    dropWhile_marks (by simpa using hb) ⟨d, k.reverse, by rw [e']; simp, hd⟩, List.reverse_reverse]

private theorem starName_word {toInt : List Char → Option ℤ} {hip marks name b : List Char} {n : ℤ} {line : List Char} {others : List (List Char)}
    (h : Words line ((hip ++ '|' :: (marks ++ name ++ b)) :: others)) (hh : hip.head? ≠ some '#') (h1 : '|' ∉ hip)
    (h2 : '|' ∉ marks ++ name ++ b) (ha : ∀ c ∈ marks, NameMark c) (hb : ∀ c ∈ b, NameMark c) (hp : PlainName name)
    (hn : toInt hip = some n) (lines : List (List Char)) :
    parseStarNames toInt (line :: lines) = (parseStarNames toInt lines).map fun more => (n, name) :: more := by
  obtain ⟨hw, hd, h0⟩ := words_strip h
  have hd' : (pyStrip line).head? ≠ some '#' := by
    rw [hd]
    cases hip with
    | nil => simp
    | cons c l => simpa using hh
  rw [parseStarNames, if_neg (by tauto), pySplit_words hw]
  simp only [List.map_cons, splitChar_cons h1, splitChar_none h2, intOf, hn, stripNameMarks_name ha hb hp]
  cases parseStarNames toInt lines <;> rfl

private theorem starName_step {toInt : List Char → Option ℤ} {line : List Char} {item : Option (ℤ × List Char)}
    (h : StarNameLine toInt line item) (lines : List (List Char)) :
    parseStarNames toInt (line :: lines) = (parseStarNames toInt lines).map fun more => item.toList ++ more := by
  have id' : ∀ x : Except DataError (List (ℤ × List Char)), (x.map fun more => more) = x := by intro x; cases x <;> rfl
  cases h with
  | comment gap rest h =>
    rw [parseStarNames, if_pos (Or.inr (pyStrip_comment h))]
    simp [id']
  | empty _ h =>
    rw [parseStarNames, if_pos (Or.inl (pyStrip_blank h))]
    simp [id']
  | named _ hip name n others h hh h1 h2 hp hn =>
    have e : hip ++ "|_(\"".toList ++ name ++ "\")".toList = hip ++ '|' :: ("_(\"".toList ++ name ++ "\")".toList) := by simp
    rw [e] at h
    rw [starName_word h hh h1 (by simp [h2]) (by simp [NameMark]) (by simp [NameMark]) hp hn]
    rfl

/-- **C91**: `parse_star_names` returns the stars of the file with their names, in order, when the names have no blanks in them. -/
theorem C91_star_names (toInt : List Char → Option ℤ) (lines : List (List Char)) (items : List (Option (ℤ × List Char)))
    (h : List.Forall₂ (StarNameLine toInt) lines items) : parseStarNames toInt lines = .ok (items.filterMap id) := by
  induction h with
  | nil => rfl
  | @cons line item lines items h _ ih =>
    rw [starName_step h, ih]
    cases item <;> rfl

/-- Every line has words. -/
private theorem exists_words (l : List Char) : ∃ ws, Words l ws := by
  induction hn : l.length using Nat.strong_induction_on generalizing l with
  | _ n ih =>
    have hg : ∀ c ∈ l.takeWhile isStripChar, Blank c := fun c hc => (strip_iff c).mp (List.mem_takeWhile_imp hc)
    have e := List.takeWhile_append_dropWhile (p := isStripChar) (l := l)
    by_cases h : l.dropWhile isStripChar = []
    · rw [h, List.append_nil] at e
      rw [← e]
      exact ⟨[], .done _ hg⟩
    · obtain ⟨c, r, hr⟩ := List.exists_cons_of_ne_nil h
      have hc : isStripChar c = false := by
        have := List.head_dropWhile_not isStripChar h
        simp only [hr, List.head_cons] at this
        exact this
      have e2 := List.takeWhile_append_dropWhile (p := fun c => !isStripChar c) (l := l.dropWhile isStripChar)
      have w0 : (l.dropWhile isStripChar).takeWhile (fun c => !isStripChar c) ≠ [] := by rw [hr]; simp [hc]
      obtain ⟨ws, hw⟩ := ih _ (by
        have l1 := congrArg List.length e
        have l2 := congrArg List.length e2
        have l3 := List.length_pos_iff.mpr w0
        simp only [List.length_append] at l1 l2
        omega) ((l.dropWhile isStripChar).dropWhile fun c => !isStripChar c) rfl
      refine ⟨(l.dropWhile isStripChar).takeWhile (fun c => !isStripChar c) :: ws, ?_⟩
      have e3 : l.takeWhile isStripChar ++ (l.dropWhile isStripChar).takeWhile (fun c => !isStripChar c) ++
          (l.dropWhile isStripChar).dropWhile (fun c => !isStripChar c) = l := by rw [List.append_assoc, e2, e]
      have key := Words.word (l.takeWhile isStripChar) _ _ ws hg w0 (fun c hc => ?_) ?_ hw
      · rwa [e3] at key
      · have := List.mem_takeWhile_imp hc
        intro hb
        simp [(strip_iff c).mpr hb] at this
      · by_cases h' : (l.dropWhile isStripChar).dropWhile (fun c => !isStripChar c) = []
        · exact Or.inl h'
        · obtain ⟨d, q, hq⟩ := List.exists_cons_of_ne_nil h'
          refine Or.inr ⟨d, q, hq, (strip_iff d).mp ?_⟩
          have := List.head_dropWhile_not (fun c => !isStripChar c) h'
          simp only [hq, List.head_cons] at this
          simpa using this

/-- **C91** (finding): a name of several words is cut off after the first: `71683|_("Rigil Kentaurus")` gives `Rigil`. -/
theorem C91_star_name_cut (toInt : List Char → Option ℤ) (hip first more : List Char) (n : ℤ) (h : ∀ c ∈ hip ++ first, ¬ Blank c)
    (hh : hip.head? ≠ some '#') (h1 : '|' ∉ hip) (h2 : '|' ∉ first) (hp : PlainName first) (hn : toInt hip = some n) :
    parseStarNames toInt [hip ++ "|_(\"".toList ++ first ++ ' ' :: more ++ "\")".toList] = .ok [(n, first)] := by
  obtain ⟨others, ho⟩ := exists_words (' ' :: more ++ "\")".toList)
  have w : Words (hip ++ "|_(\"".toList ++ first ++ ' ' :: more ++ "\")".toList) ((hip ++ '|' :: ("_(\"".toList ++ first ++ [])) :: others) := by
    have := Words.word [] (hip ++ '|' :: ("_(\"".toList ++ first ++ [])) (' ' :: more ++ "\")".toList) others (by simp) (by simp) (by
      intro c hc
      simp only [List.append_nil, List.mem_append, List.mem_cons] at hc
      rcases hc with hc | rfl | hc | hc
      · exact h c (by simp [hc])
      · simp [Blank]
      · have : c = '_' ∨ c = '(' ∨ c = '"' := by simpa using hc
        rcases this with rfl | rfl | rfl <;> simp [Blank]
      · exact h c (by simp [hc])) (Or.inr ⟨' ', _, rfl, Or.inl rfl⟩) ho
    simpa using this
  rw [starName_word w hh h1 (by simp [h2]) (by simp [NameMark]) (by simp) hp hn]
  rfl

private theorem match_skip {ps : List CometPiece} {a l : List Char} {as : List (List Char)} {n : ℕ} (h : a.length = n) :
    matchComet (.skip n :: ps) ((a :: as).flatten ++ l) = matchComet ps (as.flatten ++ l) := by
  subst h
  simp [matchComet]

private theorem match_keep {ps : List CometPiece} {a l : List Char} {as : List (List Char)} {n : ℕ} (h : a.length = n) :
    matchComet (.keep n :: ps) ((a :: as).flatten ++ l) = (matchComet ps (as.flatten ++ l)).map (a :: ·) := by
  subst h
  simp [matchComet]

private theorem match_blanks0 {ps : List CometPiece} {l : List Char} : matchComet (.blanks 0 :: ps) l = matchComet ps l := by
  simp [matchComet]

private theorem match_blanks1 {ps : List CometPiece} {l : List Char} {as : List (List Char)} :
    matchComet (.blanks 1 :: ps) (([' '] :: as).flatten ++ l) = matchComet ps (as.flatten ++ l) := by
  simp [matchComet]

private theorem match_blanks2 {ps : List CometPiece} {l : List Char} {as : List (List Char)} :
    matchComet (.blanks 2 :: ps) (([' ', ' '] :: as).flatten ++ l) = matchComet ps (as.flatten ++ l) := by
  simp [matchComet, List.replicate]

/-- The pattern on the beginning of a record. -/
private theorem match_start (r : CometRecord) (l : List Char) :
    matchComet cometPattern (r.pieces.flatten ++ l) = (splitAtTwoBlanks l).map fun p =>
      [r.year, r.month, r.day, r.distance, r.eccentricity, r.argument, r.node, r.inclination, r.magnitudeG, r.magnitudeK, p.1, p.2] := by
  have hp : cometPattern = [.skip 4, .blanks 0, .skip 1, .blanks 0, .skip 7, .blanks 2, .keep 4, .blanks 1, .keep 2, .blanks 1, .keep 7,
    .blanks 1, .keep 9, .blanks 2, .keep 8, .blanks 2, .keep 8, .blanks 2, .keep 8, .blanks 2, .keep 8, .blanks 2, .skip 4, .blanks 0,
    .skip 2, .blanks 0, .skip 2, .blanks 2, .keep 4, .blanks 1, .keep 4, .blanks 2, .ending] := by
    simp [cometPattern, cometPatternFrom, cometColumns, cometFastColumns]
  rw [hp, CometRecord.pieces]
  rw [match_skip r.number_length, match_blanks0, match_skip r.orbitType_length, match_blanks0, match_skip r.packed_length, match_blanks2,
    match_keep r.year_length, match_blanks1, match_keep r.month_length, match_blanks1, match_keep r.day_length, match_blanks1,
    match_keep r.distance_length, match_blanks2, match_keep r.eccentricity_length, match_blanks2, match_keep r.argument_length,
    match_blanks2, match_keep r.node_length, match_blanks2, match_keep r.inclination_length, match_blanks2, match_skip r.epochYear_length,
    match_blanks0, match_skip r.epochMonth_length, match_blanks0, match_skip r.epochDay_length, match_blanks2,
    match_keep r.magnitudeG_length, match_blanks1, match_keep r.magnitudeK_length, match_blanks2]
  cases h : splitAtTwoBlanks l <;> simp [matchComet, h]

private theorem splitAtTwoBlanks_none {l : List Char} (h : NoTwoBlanks l) : splitAtTwoBlanks l = none := by
  induction l with
  | nil => rfl
  | cons c l ih =>
    have h' : NoTwoBlanks l := fun a b e => h (c :: a) b (by rw [e]; rfl)
    rw [splitAtTwoBlanks, ih h']
    · rfl
    · rintro l' rfl rfl
      exact h [] l' rfl

private theorem splitAtTwoBlanks_at {a rest : List Char} (ha : NoTwoBlanks a) (he : ∀ k, a ≠ k ++ [' ']) :
    splitAtTwoBlanks (a ++ ' ' :: ' ' :: rest) = some (a, rest.dropWhile (· == ' ')) := by
  induction a with
  | nil => simp [splitAtTwoBlanks]
  | cons c a ih =>
    have h' : NoTwoBlanks a := fun x y e => ha (c :: x) y (by rw [e]; rfl)
    rw [List.cons_append, splitAtTwoBlanks, ih h' (fun k e => he (c :: k) (by rw [e]; rfl))]
    · rfl
    · rintro l' rfl hl
      cases a with
      | nil => exact he [] rfl
      | cons d a =>
        simp only [List.cons_append, List.cons.injEq] at hl
        exact ha [] a (by rw [hl.1]; rfl)

private theorem splitChar_join {c : Char} {ws : List (List Char)} (h0 : ws ≠ []) (h : ∀ w ∈ ws, c ∉ w) :
    splitChar c (joinChar c ws) = ws := by
  induction ws with
  | nil => exact absurd rfl h0
  | cons w ws ih =>
    cases ws with
    | nil => exact splitChar_none (h w (by simp))
    | cons v ws =>
      rw [joinChar.eq_3 _ _ _ (by simp), splitChar_cons (h w (by simp)), ih (by simp) (fun x hx => h x (by simp [hx]))]

/-- **C91**: `load_comets_dataframe` takes every field from its documented columns, when the designation leaves its last column free and has no
two blanks inside; the designation is returned without the blanks after it. -/
theorem C91_comets_fast (r : CometRecord) (name : List Char) (hs : cometSep ∉ r.line) (h1 : NoTwoBlanks name) (h2 : ∀ k, name ≠ k ++ [' '])
    (hl : name.length ≤ 55) (hd : r.designation = name ++ List.replicate (56 - name.length) ' ') (hr : r.reference.head? ≠ some ' ') :
    fastCometRow r.line = [("perihelion_year", r.year), ("perihelion_month", r.month), ("perihelion_day", r.day),
      ("perihelion_distance_au", r.distance), ("eccentricity", r.eccentricity), ("argument_of_perihelion_degrees", r.argument),
      ("longitude_of_ascending_node_degrees", r.node), ("inclination_degrees", r.inclination), ("magnitude_g", r.magnitudeG),
      ("magnitude_k", r.magnitudeK), ("designation", name), ("reference", r.reference)] := by
  obtain ⟨k, hk⟩ : ∃ k, 56 - name.length = k + 1 := ⟨55 - name.length, by omega⟩
  have e : r.designation ++ [' '] ++ r.reference = name ++ ' ' :: ' ' :: (List.replicate k ' ' ++ r.reference) := by
    rw [hd, hk, List.replicate_succ]
    have : ∀ l : List Char, List.replicate k ' ' ++ ' ' :: l = ' ' :: (List.replicate k ' ' ++ l) := by
      intro l
      have := List.replicate_succ' (n := k) (a := ' ')
      rw [show List.replicate k ' ' ++ ' ' :: l = (List.replicate k ' ' ++ [' ']) ++ l by simp, ← this, List.replicate_succ]
      rfl
    simp [this]
  have hdw : (List.replicate k ' ' ++ r.reference).dropWhile (· == ' ') = r.reference := by
    clear hk e
    induction k with
    | zero =>
      rw [List.replicate_zero, List.nil_append]
      cases hq : r.reference with
      | nil => rfl
      | cons c l =>
        rw [hq] at hr
        have : (c == ' ') = false := by simpa using hr
        simp [this]
    | succ k ih => simpa [List.replicate_succ] using ih
  have hm : matchComet cometPattern r.line = some [r.year, r.month, r.day, r.distance, r.eccentricity, r.argument, r.node, r.inclination,
      r.magnitudeG, r.magnitudeK, name, r.reference] := by
    rw [CometRecord.line, match_start, e,
      splitAtTwoBlanks_at h1 h2, hdw]
    rfl
  unfold fastCometRow fastCometLine
  rw [hm]
  simp only
  rw [splitChar_join (by simp)]
  · simp only [cometFastColumns, List.zip_cons_cons, List.zip_nil_left]
  · have hn : cometSep ∉ name := fun h => hs (by simp [CometRecord.line, hd, h])
    have hr' : cometSep ∉ r.reference := fun h => hs (by simp [CometRecord.line, h])
    have hp : ∀ w ∈ r.pieces, cometSep ∉ w := fun w hw h => hs (by
      rw [CometRecord.line, List.mem_append]
      exact Or.inl (List.mem_flatten.mpr ⟨w, hw, h⟩))
    simp only [CometRecord.pieces, List.forall_mem_cons] at hp
    simp only [List.forall_mem_cons]
    exact ⟨hp.2.2.2.2.1, hp.2.2.2.2.2.2.1, hp.2.2.2.2.2.2.2.2.1, hp.2.2.2.2.2.2.2.2.2.2.1, hp.2.2.2.2.2.2.2.2.2.2.2.2.1,
      hp.2.2.2.2.2.2.2.2.2.2.2.2.2.2.1, hp.2.2.2.2.2.2.2.2.2.2.2.2.2.2.2.2.1, hp.2.2.2.2.2.2.2.2.2.2.2.2.2.2.2.2.2.2.1,
      hp.2.2.2.2.2.2.2.2.2.2.2.2.2.2.2.2.2.2.2.2.2.2.2.2.1, hp.2.2.2.2.2.2.2.2.2.2.2.2.2.2.2.2.2.2.2.2.2.2.2.2.2.2.1, hn, hr', by simp⟩

private theorem slice_take {f line : List Char} {as : List (List Char)} {s n : ℕ} (e : line.drop s = (f :: as).flatten)
    (hn : f.length = n) : (line.drop s).take n = f := by
  rw [e, ← hn]
  simp

private theorem slice_drop {f line : List Char} {as : List (List Char)} {s n : ℕ} (e : line.drop s = (f :: as).flatten)
    (hn : f.length = n) : line.drop (s + n) = as.flatten := by
  rw [← List.drop_drop, e, ← hn]
  simp

/-- **C91**: `load_comets_dataframe_slow` takes every field from its documented columns and strips it. -/
theorem C91_comets_slow (r : CometRecord) (hr : r.reference.length ≤ 9) :
    slowCometRow r.line = [("number", pyStrip r.number), ("orbit_type", pyStrip r.orbitType), ("designation_packed", pyStrip r.packed),
      ("perihelion_year", pyStrip r.year), ("perihelion_month", pyStrip r.month), ("perihelion_day", pyStrip r.day),
      ("perihelion_distance_au", pyStrip r.distance), ("eccentricity", pyStrip r.eccentricity),
      ("argument_of_perihelion_degrees", pyStrip r.argument), ("longitude_of_ascending_node_degrees", pyStrip r.node),
      ("inclination_degrees", pyStrip r.inclination), ("perturbed_epoch_year", pyStrip r.epochYear),
      ("perturbed_epoch_month", pyStrip r.epochMonth), ("perturbed_epoch_day", pyStrip r.epochDay), ("magnitude_g", pyStrip r.magnitudeG),
      ("magnitude_k", pyStrip r.magnitudeK), ("designation", pyStrip r.designation), ("reference", pyStrip r.reference)] := by
  have e0 : r.line.drop 0 = (r.pieces ++ [r.designation, [' '], r.reference]).flatten := by
    rw [List.drop_zero, CometRecord.line, List.flatten_append]
    simp
  rw [CometRecord.pieces] at e0
  simp only [List.cons_append, List.nil_append] at e0
  have f0 : (r.line.drop 0).take 4 = r.number := slice_take e0 r.number_length
  have e1 := slice_drop e0 (n := 4) r.number_length
  have f1 : (r.line.drop 4).take 1 = r.orbitType := slice_take e1 r.orbitType_length
  have e2 := slice_drop e1 (n := 1) r.orbitType_length
  have f2 : (r.line.drop 5).take 7 = r.packed := slice_take e2 r.packed_length
  have e3 := slice_drop e2 (n := 7) r.packed_length
  have e4 := slice_drop e3 (n := 2) rfl
  have f4 : (r.line.drop 14).take 4 = r.year := slice_take e4 r.year_length
  have e5 := slice_drop e4 (n := 4) r.year_length
  have e6 := slice_drop e5 (n := 1) rfl
  have f6 : (r.line.drop 19).take 2 = r.month := slice_take e6 r.month_length
  have e7 := slice_drop e6 (n := 2) r.month_length
  have e8 := slice_drop e7 (n := 1) rfl
  have f8 : (r.line.drop 22).take 7 = r.day := slice_take e8 r.day_length
  have e9 := slice_drop e8 (n := 7) r.day_length
  have e10 := slice_drop e9 (n := 1) rfl
  have f10 : (r.line.drop 30).take 9 = r.distance := slice_take e10 r.distance_length
  have e11 := slice_drop e10 (n := 9) r.distance_length
  have e12 := slice_drop e11 (n := 2) rfl
  have f12 : (r.line.drop 41).take 8 = r.eccentricity := slice_take e12 r.eccentricity_length
  have e13 := slice_drop e12 (n := 8) r.eccentricity_length
  have e14 := slice_drop e13 (n := 2) rfl
  have f14 : (r.line.drop 51).take 8 = r.argument := slice_take e14 r.argument_length
  have e15 := slice_drop e14 (n := 8) r.argument_length
  have e16 := slice_drop e15 (n := 2) rfl
  have f16 : (r.line.drop 61).take 8 = r.node := slice_take e16 r.node_length
  have e17 := slice_drop e16 (n := 8) r.node_length
  have e18 := slice_drop e17 (n := 2) rfl
  have f18 : (r.line.drop 71).take 8 = r.inclination := slice_take e18 r.inclination_length
  have e19 := slice_drop e18 (n := 8) r.inclination_length
  have e20 := slice_drop e19 (n := 2) rfl
  have f20 : (r.line.drop 81).take 4 = r.epochYear := slice_take e20 r.epochYear_length
  have e21 := slice_drop e20 (n := 4) r.epochYear_length
  have f21 : (r.line.drop 85).take 2 = r.epochMonth := slice_take e21 r.epochMonth_length
  have e22 := slice_drop e21 (n := 2) r.epochMonth_length
  have f22 : (r.line.drop 87).take 2 = r.epochDay := slice_take e22 r.epochDay_length
  have e23 := slice_drop e22 (n := 2) r.epochDay_length
  have e24 := slice_drop e23 (n := 2) rfl
  have f24 : (r.line.drop 91).take 4 = r.magnitudeG := slice_take e24 r.magnitudeG_length
  have e25 := slice_drop e24 (n := 4) r.magnitudeG_length
  have e26 := slice_drop e25 (n := 1) rfl
  have f26 : (r.line.drop 96).take 4 = r.magnitudeK := slice_take e26 r.magnitudeK_length
  have e27 := slice_drop e26 (n := 4) r.magnitudeK_length
  have e28 := slice_drop e27 (n := 2) rfl
  have f28 : (r.line.drop 102).take 56 = r.designation := slice_take e28 r.designation_length
  have e29 := slice_drop e28 (n := 56) r.designation_length
  have e30 := slice_drop e29 (n := 1) rfl
  have f30 : (r.line.drop 159).take 9 = r.reference := by rw [e30]; simpa using hr
  simp only [slowCometRow, cometColumns, List.map_cons, List.map_nil, Nat.reduceSub, f0, f1, f2, f4, f6, f8, f10, f12, f14, f16, f18, f20, f21, f22, f24, f26, f28, f30]

private theorem pyStrip_blank_end (l : List Char) (c : Char) (h : isStripChar c = true) : pyStrip (l ++ [c]) = pyStrip l := by
  unfold pyStrip
  rw [List.dropWhile_append]
  cases hd : l.dropWhile isStripChar with
  | nil => simp [h]
  | cons d q => simp [h]

/-- **C91**: where the fast reader succeeds, it returns the same text as the slow one, up to the blanks at the ends. -/
theorem C91_comets_agree (r : CometRecord) (name : List Char) (hs : cometSep ∉ r.line) (h1 : NoTwoBlanks name) (h2 : ∀ k, name ≠ k ++ [' '])
    (hl : name.length ≤ 55) (hd : r.designation = name ++ List.replicate (56 - name.length) ' ') (hr : r.reference.head? ≠ some ' ')
    (hr9 : r.reference.length ≤ 9) : ∀ p ∈ fastCometRow r.line, (p.1, pyStrip p.2) ∈ slowCometRow r.line := by
  rw [C91_comets_fast r name hs h1 h2 hl hd hr, C91_comets_slow r hr9, hd]
  have hb : ∀ (l : List Char) (k : ℕ), pyStrip (l ++ List.replicate k ' ') = pyStrip l := by
    intro l k
    induction k with
    | zero => simp
    | succ k ih =>
      rw [List.replicate_succ', ← List.append_assoc, ← ih]
      exact pyStrip_blank_end _ _ (by decide)
  rw [hb]
  intro p hp
  simp only [List.mem_cons, List.not_mem_nil, or_false] at hp
  rcases hp with rfl | rfl | rfl | rfl | rfl | rfl | rfl | rfl | rfl | rfl | rfl | rfl <;> simp

/-- **C91** (finding): when the designation fills all its columns, the fast reader does not recognise the line, and the whole line becomes the
year of perihelion. -/
theorem C91_comets_full_designation (r : CometRecord) (hs : cometSep ∉ r.line) (h : NoTwoBlanks (r.designation ++ [' '] ++ r.reference)) :
    fastCometRow r.line = [("perihelion_year", r.line)] := by
  have hm : matchComet cometPattern r.line = none := by
    rw [CometRecord.line, match_start, splitAtTwoBlanks_none h]
    rfl
  unfold fastCometRow fastCometLine
  rw [hm]
  simp only
  rw [splitChar_none hs]
  simp only [cometFastColumns, List.zip_cons_cons, List.zip_nil_right]

/-- **C91** (finding): two blanks inside the designation end it: the fast reader returns the rest as the reference. -/
theorem C91_comets_two_blanks (r : CometRecord) (name rest : List Char) (hs : cometSep ∉ r.line) (h1 : NoTwoBlanks name)
    (h2 : ∀ k, name ≠ k ++ [' ']) (hd : r.designation = name ++ ' ' :: ' ' :: rest) (hr : rest.head? ≠ some ' ') (h0 : rest ≠ []) :
    ("designation", name) ∈ fastCometRow r.line ∧ ("reference", rest ++ [' '] ++ r.reference) ∈ fastCometRow r.line := by
  have hm : matchComet cometPattern r.line = some [r.year, r.month, r.day, r.distance, r.eccentricity, r.argument, r.node, r.inclination,
      r.magnitudeG, r.magnitudeK, name, rest ++ [' '] ++ r.reference] := by
    rw [CometRecord.line, match_start, hd, show name ++ ' ' :: ' ' :: rest ++ [' '] ++ r.reference =
      name ++ ' ' :: ' ' :: (rest ++ [' '] ++ r.reference) by simp, splitAtTwoBlanks_at h1 h2]
    cases rest with
    | nil => exact absurd rfl h0
    | cons c l =>
      have : (c == ' ') = false := by simpa using hr
      simp [this]
  unfold fastCometRow fastCometLine
  rw [hm]
  simp only
  rw [splitChar_join (by simp)]
  · simp [cometFastColumns]
  · have hn : cometSep ∉ name := fun h => hs (by simp [CometRecord.line, hd, h])
    have hr' : cometSep ∉ rest ++ [' '] ++ r.reference := fun h => hs (by
      simp only [List.mem_append] at h
      rcases h with (h | h) | h
      · simp [CometRecord.line, hd, h]
      · simp [cometSep] at h
      · simp [CometRecord.line, h])
    have hp : ∀ w ∈ r.pieces, cometSep ∉ w := fun w hw h => hs (by
      rw [CometRecord.line, List.mem_append]
      exact Or.inl (List.mem_flatten.mpr ⟨w, hw, h⟩))
    simp only [CometRecord.pieces, List.forall_mem_cons] at hp
    simp only [List.forall_mem_cons]
    exact ⟨hp.2.2.2.2.1, hp.2.2.2.2.2.2.1, hp.2.2.2.2.2.2.2.2.1, hp.2.2.2.2.2.2.2.2.2.2.1, hp.2.2.2.2.2.2.2.2.2.2.2.2.1,
      hp.2.2.2.2.2.2.2.2.2.2.2.2.2.2.1, hp.2.2.2.2.2.2.2.2.2.2.2.2.2.2.2.2.1, hp.2.2.2.2.2.2.2.2.2.2.2.2.2.2.2.2.2.2.1,
      hp.2.2.2.2.2.2.2.2.2.2.2.2.2.2.2.2.2.2.2.2.2.2.2.2.1, hp.2.2.2.2.2.2.2.2.2.2.2.2.2.2.2.2.2.2.2.2.2.2.2.2.2.2.1, hn, hr', by simp⟩

private theorem joinChar_eq (c : Char) (ws : List (List Char)) : joinChar c ws = [c].intercalate ws := by
  induction ws with
  | nil => rfl
  | cons w ws ih =>
    cases ws with
    | nil => simp [joinChar, List.intercalate]
    | cons v ws =>
      rw [joinChar.eq_3 _ _ _ (by simp), ih]
      simp [List.intercalate]

private theorem catalog_tail {names usecols : List String} (h : ∀ n ∈ names, n ∉ usecols) (l : List (List Char)) :
    (names.zip l).filter (fun p => p.1 ∈ usecols) = [] := by
  rw [List.filter_eq_nil_iff]
  rintro ⟨n, t⟩ hm
  simpa using h n (List.of_mem_zip hm).1

private theorem catalog_fields {fields : List (List Char)} (hl : 14 ≤ fields.length) :
    ∃ a0 a1 a2 a3 a4 a5 a6 a7 a8 a9 a10 a11 a12 a13 l, fields = a0 :: a1 :: a2 :: a3 :: a4 :: a5 :: a6 :: a7 :: a8 :: a9 :: a10 :: a11 ::
      a12 :: a13 :: l := by
  rcases fields with _ | ⟨a0, _ | ⟨a1, _ | ⟨a2, _ | ⟨a3, _ | ⟨a4, _ | ⟨a5, _ | ⟨a6, _ | ⟨a7, _ | ⟨a8, _ | ⟨a9, _ | ⟨a10, _ | ⟨a11, _ |
    ⟨a12, _ | ⟨a13, l⟩⟩⟩⟩⟩⟩⟩⟩⟩⟩⟩⟩⟩⟩
  all_goals first
    | exact ⟨_, _, _, _, _, _, _, _, _, _, _, _, _, _, _, rfl⟩
    | simp at hl

/-- **C91**: `hipparcos.load_dataframe` takes the star's number from field H1 of the catalogue, its magnitude from H5, its position from H8
and H9, its parallax from H11 and its proper motion from H12 and H13. -/
theorem C91_hipparcos (fields : List (List Char)) (hl : 14 ≤ fields.length) (hs : ∀ f ∈ fields, '|' ∉ f) :
    hipparcosRow (['|'].intercalate fields) = [("hip", fields[1]), ("magnitude", fields[5]), ("ra_degrees", fields[8]),
      ("dec_degrees", fields[9]), ("parallax_mas", fields[11]), ("ra_mas_per_year", fields[12]), ("dec_mas_per_year", fields[13])] := by
  obtain ⟨a0, a1, a2, a3, a4, a5, a6, a7, a8, a9, a10, a11, a12, a13, l, rfl⟩ := catalog_fields hl
  unfold hipparcosRow catalogRow
  rw [← joinChar_eq, splitChar_join (by simp) hs]
  simp only [hipparcosColumns, List.zip_cons_cons]
  simp only [List.filter_cons]
  rw [catalog_tail (by simp)]
  simp

/-- **C91**: `tycho2.load_dataframe` takes the same fields from the same places of the Tycho catalogue. -/
theorem C91_tycho (fields : List (List Char)) (hl : 14 ≤ fields.length) (hs : ∀ f ∈ fields, '|' ∉ f) :
    tychoRow (['|'].intercalate fields) = [("tyc", fields[1]), ("magnitude", fields[5]), ("ra_degrees", fields[8]),
      ("dec_degrees", fields[9]), ("parallax_mas", fields[11]), ("ra_mas_per_year", fields[12]), ("dec_mas_per_year", fields[13])] := by
  obtain ⟨a0, a1, a2, a3, a4, a5, a6, a7, a8, a9, a10, a11, a12, a13, l, rfl⟩ := catalog_fields hl
  unfold tychoRow catalogRow
  rw [← joinChar_eq, splitChar_join (by simp) hs]
  simp only [tychoColumns, List.zip_cons_cons]
  simp only [List.filter_cons]
  rw [catalog_tail (by simp)]
  simp

/-- Halley's comet, as `CometEls.txt` has it. -/
def halleyRecord : CometRecord where
  number := "0001".toList
  orbitType := "P".toList
  packed := "       ".toList
  year := "2061".toList
  month := "07".toList
  day := "28.6921".toList
  distance := " 0.593085".toList
  eccentricity := "0.966282".toList
  argument := "112.4740".toList
  node := " 59.3960".toList
  inclination := "161.8589".toList
  epochYear := "2023".toList
  epochMonth := "02".toList
  epochDay := "25".toList
  magnitudeG := " 5.5".toList
  magnitudeK := " 3.2".toList
  designation := "1P/Halley".toList ++ List.replicate 47 ' '
  reference := "98, 1083".toList
  number_length := by decide
  orbitType_length := by decide
  packed_length := by decide
  year_length := by decide
  month_length := by decide
  day_length := by decide
  distance_length := by decide
  eccentricity_length := by decide
  argument_length := by decide
  node_length := by decide
  inclination_length := by decide
  epochYear_length := by decide
  epochMonth_length := by decide
  epochDay_length := by decide
  magnitudeG_length := by decide
  magnitudeK_length := by decide
  designation_length := by decide

private theorem noTwoBlanks_of {l : List Char} (h : ' ' ∉ l) : NoTwoBlanks l := by
  rintro a b rfl
  simp at h

example : (fastCometRow halleyRecord.line).lookup "perihelion_day" = some "28.6921".toList ∧
    (fastCometRow halleyRecord.line).lookup "designation" = some "1P/Halley".toList := by
  rw [C91_comets_fast halleyRecord "1P/Halley".toList (by decide) (noTwoBlanks_of (by decide))
    (fun k e => by have : ' ' ∈ "1P/Halley".toList := by rw [e]; simp
                   exact absurd this (by decide))
    (by decide) rfl (by decide)]
  exact ⟨by decide, by decide⟩

/-- A designation that fills its columns. -/
def crowdedRecord : CometRecord := { halleyRecord with designation := List.replicate 56 'x', designation_length := by decide }

example : fastCometRow crowdedRecord.line = [("perihelion_year", crowdedRecord.line)] :=
  C91_comets_full_designation _ (by decide) (by
    have : ∀ l : List Char, l.head? ≠ some ' ' → NoTwoBlanks l → NoTwoBlanks (' ' :: l) := by
      rintro l hl hn (_ | ⟨c, a⟩) b e
      · simp at e
        simp [e] at hl
      · simp at e
        exact hn a b e.2
    have g : ∀ (p l : List Char), ' ' ∉ p → NoTwoBlanks l → NoTwoBlanks (p ++ l) := by
      intro p l hp hl
      induction p with
      | nil => exact hl
      | cons c p ih =>
        simp only [List.mem_cons, not_or] at hp
        rintro (_ | ⟨d, a⟩) b e
        · simp at e
          exact hp.1 e.1.symm
        · simp at e
          exact ih hp.2 a b e.2
    rw [List.append_assoc]
    exact g _ _ (by decide) (this _ (by decide) (by
      show NoTwoBlanks ("98,".toList ++ ' ' :: "1083".toList)
      exact g _ _ (by decide) (this _ (by decide) (noTwoBlanks_of (by decide))))))

/-- Two blanks inside the designation. -/
def gapRecord : CometRecord :=
  { halleyRecord with designation := "P/A".toList ++ ' ' :: ' ' :: List.replicate 51 'x', designation_length := by decide }

example : ("designation", "P/A".toList) ∈ fastCometRow gapRecord.line :=
  (C91_comets_two_blanks gapRecord "P/A".toList (List.replicate 51 'x') (by decide) (noTwoBlanks_of (by decide))
    (fun k e => by have : ' ' ∈ "P/A".toList := by rw [e]; simp
                   exact absurd this (by decide)) rfl (by decide) (by decide)).1

example : (hipparcosRow (['|'].intercalate (["H", "11767", "", "", "", "1.97", "", "", "037.94614689", "+89.26413805", "", "7.56", "44.22",
    "-11.74", "0.39"].map String.toList))).lookup "parallax_mas" = some "7.56".toList := by
  rw [C91_hipparcos _ (by decide) (by decide)]
  decide

example : (tychoRow (['|'].intercalate (["T", "1 13 1", "", "", "", "9.10", "", "", "1.12558209", "+2.26739400", "", "2.2", "6.3", "-3.4",
    "9.1"].map String.toList))).lookup "tyc" = some "1 13 1".toList := by
  rw [C91_tycho _ (by decide) (by decide)]
  decide

/-- The value of decimal digits, for the examples. -/
def digitsValue (l : List Char) : Option ℤ :=
  if l ≠ [] ∧ l.all Char.isDigit then some (l.foldl (fun n c => 10 * n + (c.toNat - 48)) 0) else none

example : parseConstellations digitsValue ["# Aries".toList, " Ari 1 8832 8903\n".toList] = .ok [("Ari".toList, [(8832, 8903)])] := by
  have w : Words " Ari 1 8832 8903\n".toList ["Ari".toList, "1".toList, "8832".toList, "8903".toList] :=
    .word [' '] "Ari".toList " 1 8832 8903\n".toList _ (by simp [Blank]) (by decide) (by simp [Blank]) (Or.inr ⟨' ', _, rfl, Or.inl rfl⟩)
      (.word [' '] "1".toList " 8832 8903\n".toList _ (by simp [Blank]) (by decide) (by simp [Blank])
        (Or.inr ⟨' ', _, rfl, Or.inl rfl⟩)
        (.word [' '] "8832".toList " 8903\n".toList _ (by simp [Blank]) (by decide) (by simp [Blank])
          (Or.inr ⟨' ', _, rfl, Or.inl rfl⟩)
          (.word [' '] "8903".toList "\n".toList _ (by simp [Blank]) (by decide) (by simp [Blank])
            (Or.inr ⟨'\n', _, rfl, by simp [Blank]⟩) (.done _ (by simp [Blank])))))
  exact C91_constellations digitsValue _ [none, some ("Ari".toList, [(8832, 8903)])]
    (.cons (.comment [] " Aries".toList (by simp))
      (.cons (.figure _ _ _ _ _ w (by decide) (.cons _ _ _ _ _ _ (by decide) (by decide) .nil)) .nil))

example : parseConstellations digitsValue [" Ari 1 8832".toList] = .error .indexError := by
  have w : Words " Ari 1 8832".toList ["Ari".toList, "1".toList, "8832".toList] :=
    .word [' '] "Ari".toList " 1 8832".toList _ (by simp [Blank]) (by decide) (by simp [Blank]) (Or.inr ⟨' ', _, rfl, Or.inl rfl⟩)
      (.word [' '] "1".toList " 8832".toList _ (by simp [Blank]) (by decide) (by simp [Blank]) (Or.inr ⟨' ', _, rfl, Or.inl rfl⟩)
        (.word [' '] "8832".toList [] _ (by simp [Blank]) (by decide) (by simp [Blank]) (Or.inl rfl) (.done _ (by simp))))
  exact C91_constellation_left_over digitsValue [] [] [] .nil _ "Ari".toList "1".toList "8832".toList [] [] 8832 w (by decide) .nil
    (by decide)

example : parseStarNames digitsValue ["7588|_(\"Achernar\") 1\n".toList] = .ok [(7588, "Achernar".toList)] := by
  have w : Words "7588|_(\"Achernar\") 1\n".toList ["7588|_(\"Achernar\")".toList, "1".toList] :=
    .word [] "7588|_(\"Achernar\")".toList " 1\n".toList _ (by simp) (by decide) (by simp [Blank])
      (Or.inr ⟨' ', _, rfl, Or.inl rfl⟩)
      (.word [' '] "1".toList "\n".toList _ (by simp [Blank]) (by decide) (by simp [Blank]) (Or.inr ⟨'\n', _, rfl, by simp [Blank]⟩)
        (.done _ (by simp [Blank])))
  exact C91_star_names digitsValue _ [some (7588, "Achernar".toList)] (.cons (.named _ "7588".toList "Achernar".toList 7588 _ w (by decide)
    (by decide) (by decide) ⟨⟨'A', "chernar".toList, rfl, by simp [NameMark]⟩, ⟨'r', "Acherna".toList, rfl, by simp [NameMark]⟩⟩
    (by decide)) .nil)

example : parseStarNames digitsValue ["71683|_(\"Rigil Kentaurus\")".toList] = .ok [(71683, "Rigil".toList)] :=
  C91_star_name_cut digitsValue "71683".toList "Rigil".toList "Kentaurus".toList 71683 (by simp [Blank]) (by decide) (by decide) (by decide)
    ⟨⟨'R', "igil".toList, rfl, by simp [NameMark]⟩, ⟨'l', "Rigi".toList, rfl, by simp [NameMark]⟩⟩ (by decide)

end Skyfield
