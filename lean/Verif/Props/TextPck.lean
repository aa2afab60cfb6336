import Verif.Model.TextPck
import Mathlib.Data.Nat.Digits.Defs
import Mathlib.Tactic.Common

/-
C53: reading planetary constants from text kernels.
-/
namespace Skyfield
variable {F : Type}

/-! ### Specification: how a kernel is written -/

/-- The tokens of a text kernel. -/
inductive PckTok
  | name (s : List Char)
  | eq
  | plusEq
  | opn
  | cls
  | quoted (s : List Char)
  | number (s : List Char)

/-- How a token is written. -/
def PckTok.text : PckTok → List Char
  | .name s => s
  | .eq => ['=']
  | .plusEq => ['+', '=']
  | .opn => ['(']
  | .cls => [')']
  | .quoted s => '\'' :: (s ++ ['\''])
  | .number s => s

/-- A name is a letter and at least one more letter, digit or underscore; a string has no quotes inside; a number has no blanks, commas or
closing parentheses and starts with none of: letter, `=`, `+=`, `(`, quote, `@`. -/
def PckTok.Valid : PckTok → Prop
  | .name s => ∃ c w, s = c :: w ∧ c.isAlpha = true ∧ w ≠ [] ∧ ∀ x ∈ w, isWordChar x = true
  | .quoted s => ∀ x ∈ s, x ≠ '\''
  | .number s => ∃ c w, s = c :: w ∧ (∀ x ∈ s, x ≠ ')' ∧ x ≠ ',' ∧ x ≠ ' ') ∧ c.isAlpha = false ∧ c ≠ '=' ∧ c ≠ '(' ∧ c ≠ '\'' ∧ c ≠ '@' ∧
      ¬(c = '+' ∧ w.head? = some '=')
  | _ => True

/-- Two tokens that may stand side by side with no separator. -/
def PckTok.MayTouch (a b : PckTok) : Prop :=
  match a, b with
  | .name _, .eq | .name _, .plusEq | .name _, .opn | .name _, .quoted _ => True
  | .name _, .cls | .number _, .cls => True
  | .name _, _ | .number _, _ => False
  | _, _ => True

/-- The tokens of a line, each after its separator (blanks and commas). -/
def renderLine : List (List Char × PckTok) → List Char → List Char
  | [], trailing => trailing
  | (sep, t) :: rest, trailing => sep ++ (t.text ++ renderLine rest trailing)

/-- A separator. -/
def IsSep (s : List Char) : Prop := ∀ c ∈ s, c = ' ' ∨ c = ','

/-- Tokens are valid, and separated wherever they would run together. -/
def WellSpaced : List (List Char × PckTok) → List Char → Prop
  | [], trailing => IsSep trailing
  | [(sep, t)], trailing => IsSep sep ∧ t.Valid ∧ IsSep trailing
  | (sep, t) :: (sep', t') :: rest, trailing =>
    IsSep sep ∧ t.Valid ∧ (sep' ≠ [] ∨ t.MayTouch t') ∧ WellSpaced ((sep', t') :: rest) trailing

/-! ### Tokens -/

/-- What may follow a token. -/
def PckTok.Boundary (t : PckTok) (r : List Char) : Prop :=
  match t with
  | .name _ => ∀ c ∈ r.head?, isWordChar c = false
  | .number _ => ∀ c ∈ r.head?, isPlainChar c = false
  | _ => True

theorem takeWhile_append_stop {α : Type*} (p : α → Bool) (w r : List α) (h1 : ∀ x ∈ w, p x = true) (h2 : ∀ c ∈ r.head?, p c = false) :
    (w ++ r).takeWhile p = w ∧ (w ++ r).dropWhile p = r := by
  induction w with
  | nil =>
    cases r with
    | nil => simp
    | cons c r =>
      have := h2 c (by simp)
      simp [this]
  | cons x w ih =>
    have hx := h1 x (by simp)
    obtain ⟨a, b⟩ := ih fun y hy => h1 y (by simp [hy])
    simp [hx, a, b]

theorem matchToken_text (t : PckTok) (r : List Char) (hv : t.Valid) (hb : t.Boundary r) : matchToken (t.text ++ r) = some (t.text, r) := by
  cases t with
  | name s =>
    obtain ⟨c, w, rfl, hc, hw, hall⟩ := hv
    obtain ⟨e1, e2⟩ := takeWhile_append_stop isWordChar w r hall hb
    simp only [PckTok.text, List.cons_append, matchToken, e1, e2, hc]
    have : w.isEmpty = false := by cases w <;> simp_all
    simp [this]
  | eq => simp [PckTok.text, matchToken, Char.isAlpha, Char.isUpper, Char.isLower]
  | plusEq => simp [PckTok.text, matchToken, Char.isAlpha, Char.isUpper, Char.isLower]
  | opn => simp [PckTok.text, matchToken, Char.isAlpha, Char.isUpper, Char.isLower]
  | cls => simp [PckTok.text, matchToken, Char.isAlpha, Char.isUpper, Char.isLower]
  | quoted s =>
    have h1 : ∀ x ∈ s, (x != '\'') = true := by
      intro x hx; simpa using hv x hx
    obtain ⟨e1, e2⟩ := takeWhile_append_stop (· != '\'') s ('\'' :: r) h1 (by simp)
    simp [PckTok.text, matchToken, Char.isAlpha, Char.isUpper, Char.isLower, e1, e2]
  | number s =>
    obtain ⟨c, w, rfl, hall, h1, h2, h3, h4, -, h5⟩ := hv
    have hp : ∀ x ∈ c :: w, isPlainChar x = true := by
      intro x hx
      obtain ⟨a, b, d⟩ := hall x hx
      simp [isPlainChar, a, b, d]
    have hcp : c ≠ ')' := (hall c (by simp)).1
    obtain ⟨e1, e2⟩ := takeWhile_append_stop isPlainChar (c :: w) r hp hb
    have h6 : ¬(c = '+' ∧ (w ++ r).head? = some '=') := by
      rintro ⟨rfl, hh⟩
      cases w with
      | nil =>
        simp at hh
        have := hb '=' (by simp [hh])
        simp [isPlainChar] at this
      | cons x w => exact h5 ⟨rfl, by simpa using hh⟩
    have hm : matchPlain (c :: w ++ r) = some (c :: w, r) := by
      unfold matchPlain
      rw [e1, e2]
    have h6' : (decide (c = '+') && decide ((w ++ r).head? = some '=')) = false := by
      simp only [Bool.and_eq_false_iff, decide_eq_false_iff_not]
      by_cases hplus : c = '+'
      · right; exact fun hh => h6 ⟨hplus, hh⟩
      · left; exact hplus
    simp only [PckTok.text, List.cons_append, matchToken, h1, Bool.false_and, if_false, h2, h3, hcp, h4, h6', Bool.false_eq_true]
    exact hm

theorem matchToken_sep (c : Char) (l : List Char) (h : c = ' ' ∨ c = ',') : matchToken (c :: l) = none := by
  rcases h with rfl | rfl <;> simp [matchToken, Char.isAlpha, Char.isUpper, Char.isLower, matchPlain, isPlainChar]

theorem findTokens_sep (sep : List Char) (h : IsSep sep) (l : List Char) (fuel : ℕ) (hf : (sep ++ l).length ≤ fuel) :
    ∃ fuel', l.length ≤ fuel' ∧ findTokens fuel (sep ++ l) = findTokens fuel' l := by
  induction sep generalizing fuel with
  | nil => exact ⟨fuel, by simpa using hf, rfl⟩
  | cons c sep ih =>
    cases fuel with
    | zero => simp at hf
    | succ fuel =>
      obtain ⟨f, h1, h2⟩ := ih (fun x hx => h x (by simp [hx])) fuel (by simp at hf ⊢; omega)
      refine ⟨f, h1, ?_⟩
      rw [List.cons_append, findTokens, matchToken_sep c _ (h c (by simp))]
      exact h2

theorem findTokens_nil (fuel : ℕ) : findTokens fuel [] = [] := by cases fuel <;> rfl

theorem PckTok.text_ne_nil (t : PckTok) (h : t.Valid) : t.text ≠ [] := by
  cases t <;> simp [PckTok.text]
  · obtain ⟨c, w, rfl, _⟩ := h; simp
  · obtain ⟨c, w, rfl, _⟩ := h; simp

theorem boundary_of_sep (t : PckTok) (sep r : List Char) (h : IsSep sep) (hne : sep ≠ []) : t.Boundary (sep ++ r) := by
  cases sep with
  | nil => exact absurd rfl hne
  | cons c sep =>
    have hc := h c (by simp)
    cases t <;> simp [PckTok.Boundary]
    · rcases hc with rfl | rfl <;> decide
    · rcases hc with rfl | rfl <;> decide

theorem boundary_of_touch (t t' : PckTok) (r : List Char) (h : t.MayTouch t') : t.Boundary (t'.text ++ r) := by
  cases t <;> cases t' <;> simp_all [PckTok.Boundary, PckTok.MayTouch, PckTok.text] <;> decide

theorem boundary_nil (t : PckTok) : t.Boundary [] := by
  cases t <;> simp [PckTok.Boundary]

/-- **C53.** A line is cut into the tokens it was written from, whatever the spacing. -/
theorem C53_line_tokens (items : List (List Char × PckTok)) (trailing : List Char) (h : WellSpaced items trailing) :
    lineTokens (renderLine items trailing) = items.map fun i => i.2.text := by
  have key : ∀ (items : List (List Char × PckTok)) (trailing : List Char) (fuel : ℕ), WellSpaced items trailing →
      (renderLine items trailing).length ≤ fuel → findTokens fuel (renderLine items trailing) = items.map fun i => i.2.text := by
    intro items trailing
    induction items with
    | nil =>
      intro fuel h hf
      have := findTokens_sep trailing h [] fuel (by simpa [renderLine] using hf)
      rw [List.append_nil] at this
      obtain ⟨f, -, e⟩ := this
      rw [renderLine, e, findTokens_nil]
      rfl
    | cons i items ih =>
      obtain ⟨sep, t⟩ := i
      intro fuel h hf
      rw [renderLine] at hf ⊢
      have hsep : IsSep sep := by
        cases items with
        | nil => exact h.1
        | cons _ _ => exact h.1
      have hval : t.Valid := by
        cases items with
        | nil => exact h.2.1
        | cons _ _ => exact h.2.1
      have hrest : WellSpaced items trailing := by
        cases items with
        | nil => exact h.2.2
        | cons _ _ => exact h.2.2.2
      have hbound : t.Boundary (renderLine items trailing) := by
        cases items with
        | nil =>
          rw [renderLine]
          by_cases hn : trailing = []
          · rw [hn]; exact boundary_nil t
          · have := boundary_of_sep t trailing [] h.2.2 hn
            rwa [List.append_nil] at this
        | cons j items =>
          obtain ⟨sep', t'⟩ := j
          rw [renderLine]
          have hs : IsSep sep' := by
            cases items with
            | nil => exact hrest.1
            | cons _ _ => exact hrest.1
          by_cases hn : sep' = []
          · rw [hn, List.nil_append]
            rcases h.2.2.1 with h' | h'
            · exact absurd hn h'
            · exact boundary_of_touch t t' _ h'
          · exact boundary_of_sep t sep' _ hs hn
      obtain ⟨f, h1, h2⟩ := findTokens_sep sep hsep (t.text ++ renderLine items trailing) fuel hf
      rw [h2]
      have hne := t.text_ne_nil hval
      have hm := matchToken_text t (renderLine items trailing) hval hbound
      cases ht : t.text with
      | nil => exact absurd ht hne
      | cons c cs =>
        rw [ht] at h1 hm
        cases f with
        | zero => simp at h1
        | succ f =>
          rw [List.cons_append, findTokens, ← List.cons_append, hm]
          simp only [List.map_cons, ht]
          rw [ih f hrest (by simp at h1; omega)]
  exact key items trailing _ h le_rfl

/-! ### Lines and segments -/

/-- A data line: white space, then text that starts and ends with something else, then white space. -/
structure PckLine where
  before : List Char
  body : List Char
  after : List Char

/-- The characters of a data line. -/
def PckLine.text (l : PckLine) : List Char := l.before ++ (l.body ++ l.after)

/-- What a data line must satisfy. -/
structure PckLine.Ok (l : PckLine) : Prop where
  before : ∀ c ∈ l.before, isStripChar c = true
  after : ∀ c ∈ l.after, isStripChar c = true
  first : ∀ c ∈ l.body.head?, isStripChar c = false
  last : ∀ c ∈ l.body.getLast?, isStripChar c = false
  notEnd : l.body ≠ beginText

theorem dropWhile_all_append {α : Type*} (p : α → Bool) (w r : List α) (h : ∀ x ∈ w, p x = true) : (w ++ r).dropWhile p = r.dropWhile p := by
  induction w with
  | nil => rfl
  | cons x w ih => rw [List.cons_append, List.dropWhile_cons_of_pos (h x (by simp))]; exact ih fun y hy => h y (by simp [hy])

theorem pyStrip_line (l : PckLine) (h : l.Ok) : pyStrip l.text = l.body := by
  unfold pyStrip PckLine.text
  rw [dropWhile_all_append isStripChar _ _ h.before]
  by_cases hb : l.body = []
  · rw [hb, List.nil_append]
    have : l.after.dropWhile isStripChar = [] := by
      have := dropWhile_all_append isStripChar l.after [] h.after
      simpa using this
    rw [this]; rfl
  · have h1 : (l.body ++ l.after).dropWhile isStripChar = l.body ++ l.after := by
      have := (takeWhile_append_stop isStripChar [] (l.body ++ l.after) (by simp) (by
        intro c hc
        apply h.first c
        cases hbb : l.body with
        | nil => exact absurd hbb hb
        | cons x y => rw [hbb] at hc; simpa using hc)).2
      simpa using this
    rw [h1, List.reverse_append, dropWhile_all_append isStripChar _ _ (by simpa using h.after)]
    have h2 : l.body.reverse.dropWhile isStripChar = l.body.reverse := by
      have := (takeWhile_append_stop isStripChar [] l.body.reverse (by simp) (by
        intro c hc
        rw [List.head?_reverse] at hc
        exact h.last c hc)).2
      simpa using this
    rw [h2, List.reverse_reverse]

/-- A block of a kernel: commentary, then `\begindata`, data lines, and `\begintext`. -/
structure PckBlock where
  comment : List (List Char)
  data : List PckLine

/-- The lines of a block. -/
def PckBlock.lines (b : PckBlock) : List (List Char) :=
  b.comment ++ (beginData ++ ['\n']) :: (b.data.map PckLine.text ++ [beginText ++ ['\n']])

/-- No line of the commentary is `\begindata` alone; the data lines are well formed. -/
def PckBlock.Ok (b : PckBlock) : Prop := (∀ l ∈ b.comment, pyStrip l ≠ beginData) ∧ ∀ l ∈ b.data, l.Ok

theorem pckTokens_comment (c rest : List (List Char)) (h : ∀ l ∈ c, pyStrip l ≠ beginData) :
    pckTokens false (c ++ rest) = pckTokens false rest := by
  induction c with
  | nil => rfl
  | cons l c ih =>
    rw [List.cons_append, pckTokens, decide_eq_false (h l (by simp))]
    exact ih fun x hx => h x (by simp [hx])

theorem pckTokens_data (d : List PckLine) (rest : List (List Char)) (h : ∀ l ∈ d, l.Ok) :
    pckTokens true (d.map PckLine.text ++ rest) = d.flatMap (fun l => lineTokens l.body) ++ pckTokens true rest := by
  induction d with
  | nil => rfl
  | cons l d ih =>
    have hl := h l (by simp)
    rw [List.map_cons, List.cons_append, pckTokens, pyStrip_line l hl, if_neg hl.notEnd, ih fun x hx => h x (by simp [hx]),
      List.flatMap_cons, List.append_assoc]

theorem pckTokens_begin (rest : List (List Char)) : pckTokens false ((beginData ++ ['\n']) :: rest) = pckTokens true rest := by
  rw [pckTokens, decide_eq_true (by decide)]

theorem pckTokens_end (rest : List (List Char)) : pckTokens true ((beginText ++ ['\n']) :: rest) = pckTokens false rest := by
  rw [pckTokens, if_pos (by decide)]

/-- **C53.** The tokens of a kernel are those of its data lines, in order; commentary is ignored.  The last block may lack its
`\begintext`. -/
theorem C53_file_tokens (blocks : List PckBlock) (comment : List (List Char)) (h : ∀ b ∈ blocks, b.Ok)
    (hc : ∀ l ∈ comment, pyStrip l ≠ beginData) :
    pckTokens false (blocks.flatMap PckBlock.lines ++ comment) = blocks.flatMap fun b => b.data.flatMap fun l => lineTokens l.body := by
  induction blocks with
  | nil =>
    have := pckTokens_comment comment [] hc
    simpa [pckTokens] using this
  | cons b blocks ih =>
    have hb := h b (by simp)
    rw [List.flatMap_cons, PckBlock.lines, List.append_assoc, List.append_assoc, pckTokens_comment _ _ hb.1, List.cons_append, pckTokens_begin,
      List.append_assoc, pckTokens_data _ _ hb.2, List.flatMap_cons, List.cons_append, pckTokens_end, List.nil_append,
      ih fun x hx => h x (by simp [hx])]

theorem C53_unclosed_block (comment : List (List Char)) (data : List PckLine) (hc : ∀ l ∈ comment, pyStrip l ≠ beginData)
    (hd : ∀ l ∈ data, l.Ok) :
    pckTokens false (comment ++ (beginData ++ ['\n']) :: data.map PckLine.text) = data.flatMap fun l => lineTokens l.body := by
  rw [pckTokens_comment _ _ hc, pckTokens_begin]
  have := pckTokens_data data [] hd
  simpa [pckTokens] using this

/-! ### Statements -/

/-- What a value token means: a string, a whole number if all its characters are digits, else the float Python reads after `D` is turned
into `E`. -/
def PckTok.meaning (pf : List Char → Option F) : PckTok → Option (PckValue F)
  | .quoted s => some (.str s)
  | .number s =>
    if ∀ c ∈ s, c.isDigit = true then some (.int (Nat.ofDigits 10 ((s.map fun c => c.toNat - 48).reverse)))
    else (pf (s.map fun c => if c = 'D' then 'E' else c)).map .float
  | _ => none

/-- A statement: a name, `=` or `+=`, and one value or a parenthesised list of values. -/
structure PckStmt where
  name : List Char
  op : PckOp
  grouped : Bool
  values : List PckTok

/-- How `=` and `+=` are written. -/
def PckOp.tok : PckOp → PckTok
  | .set => .eq
  | .extend => .plusEq

/-- How a statement is written. -/
def PckStmt.tokens (s : PckStmt) : List PckTok :=
  .name s.name :: s.op.tok ::
    if s.grouped then .opn :: (s.values ++ [.cls]) else s.values

/-- The statement as the program should understand it. -/
structure PckStmt.Means (pf : List Char → Option F) (s : PckStmt) (a : PckAssign F) : Prop where
  name : a.name = s.name
  op : a.op = s.op
  single : s.grouped = false → s.values.length = 1
  valid : ∀ t ∈ s.values, t.Valid
  values : List.Forall₂ (fun t v => t.meaning pf = some v) s.values a.values

theorem digits_foldl (s : List Char) : s.foldl (fun n c => 10 * n + (c.toNat - '0'.toNat)) 0 =
    Nat.ofDigits 10 ((s.map fun c => c.toNat - 48).reverse) := by
  rw [Nat.ofDigits_eq_foldr, List.foldr_reverse, List.foldl_map]
  congr 1
  funext n c
  show 10 * n + (c.toNat - 48) = c.toNat - 48 + 10 * n
  omega

theorem pckEvaluate_text (pf : List Char → Option F) (t : PckTok) (v : PckValue F) (hv : t.Valid) (h : t.meaning pf = some v) :
    pckEvaluate pf t.text = .ok v ∧ t.text ≠ ['('] ∧ t.text ≠ [')'] := by
  cases t with
  | quoted s =>
    simp only [PckTok.meaning, Option.some.injEq] at h
    subst h
    refine ⟨?_, by simp [PckTok.text], by simp [PckTok.text]⟩
    simp [PckTok.text, pckEvaluate]
  | number s =>
    obtain ⟨c, w, rfl, hall, h1, h2, h3, h4, h5, -⟩ := hv
    refine ⟨?_, ?_, ?_⟩
    · show pckEvaluate pf (c :: w) = _
      unfold pckEvaluate
      rw [if_neg (by simpa using h4)]
      simp only [PckTok.meaning] at h
      by_cases hd : ∀ x ∈ c :: w, x.isDigit = true
      · rw [if_pos hd] at h
        rw [if_pos (by simpa using hd), digits_foldl]
        cases h; rfl
      · rw [if_neg hd] at h
        rw [if_neg (by simpa using hd), if_neg (by simpa using h5)]
        cases hp : pf ((c :: w).map fun c => if c = 'D' then 'E' else c) with
        | none => rw [hp] at h; cases h
        | some x => rw [hp] at h; cases h; rfl
    · simp only [PckTok.text]; intro e; cases e; exact h3 rfl
    · simp only [PckTok.text]; intro e; cases e; exact (hall ')' (by simp)).1 rfl
  | name s => cases h
  | eq => cases h
  | plusEq => cases h
  | opn => cases h
  | cls => cases h

theorem pckValues_text (pf : List Char → Option F) (ts : List PckTok) (vs : List (PckValue F)) (hv : ∀ t ∈ ts, t.Valid)
    (h : List.Forall₂ (fun t v => t.meaning pf = some v) ts vs) (rest : List (List Char)) :
    pckValues pf (ts.map PckTok.text ++ [')'] :: rest) = .ok (vs, rest) := by
  induction h with
  | nil => simp [pckValues]
  | @cons t v ts vs hd _ ih =>
    obtain ⟨e1, -, e3⟩ := pckEvaluate_text pf t v (hv t (by simp)) hd
    rw [List.map_cons, List.cons_append, pckValues, if_neg e3, e1]
    simp only [ih fun x hx => hv x (by simp [hx])]

/-- **C53.** The tokens of a sequence of statements are parsed into those statements. -/
theorem C53_parse (pf : List Char → Option F) (stmts : List PckStmt) (as : List (PckAssign F))
    (h : List.Forall₂ (PckStmt.Means pf) stmts as) (fuel : ℕ) (hf : stmts.length ≤ fuel) :
    pckParse pf fuel ((stmts.flatMap PckStmt.tokens).map PckTok.text) = (as, none) := by
  induction h generalizing fuel with
  | nil => cases fuel <;> rfl
  | @cons s a stmts as hm _ ih =>
    obtain ⟨name, op, grouped, values⟩ := s
    obtain ⟨aname, aop, avalues⟩ := a
    obtain ⟨h1, h2, h3, h4, h5⟩ := hm
    simp only at h1 h2 h3 h4 h5
    subst h1 h2
    cases fuel with
    | zero => simp at hf
    | succ fuel =>
      have ih' := ih fuel (by simpa using hf)
      have hop : ∀ rest : List (List Char), pckParse pf (fuel + 1) (aname :: aop.tok.text :: rest) =
          match rest with
          | [] => ([], some .stopIteration)
          | t :: rest =>
            if t = ['('] then
              match pckValues pf rest with
              | .error e => ([], some e)
              | .ok (vs, rest) =>
                let (as, e) := pckParse pf fuel rest
                (⟨aname, aop, vs⟩ :: as, e)
            else
              match pckEvaluate pf t with
              | .error e => ([], some e)
              | .ok v =>
                let (as, e) := pckParse pf fuel rest
                (⟨aname, aop, [v]⟩ :: as, e) := by
        intro rest
        cases aop <;> rfl
      rw [List.flatMap_cons, List.map_append, PckStmt.tokens]
      simp only [List.map_cons, List.cons_append]
      rw [show (PckTok.name aname).text = aname from rfl]
      refine (hop _).trans ?_
      cases grouped with
      | true =>
        simp only [if_true, List.map_cons, List.map_append, List.cons_append, List.map_nil, List.append_assoc, List.nil_append]
        rw [show PckTok.opn.text = ['('] from rfl, show PckTok.cls.text = [')'] from rfl]
        simp only [if_true, pckValues_text pf values avalues h4 h5, ih']
      | false =>
        have hlen := h3 rfl
        cases h5 with
        | nil => simp at hlen
        | cons hd tl =>
          cases tl with
          | cons _ _ => simp at hlen
          | nil =>
            rename_i t v
            obtain ⟨e1, e2, -⟩ := pckEvaluate_text pf t v (h4 t (by simp)) hd
            simp only [Bool.false_eq_true, if_false, List.map_cons, List.map_nil, List.cons_append, List.nil_append, e2, e1, ih']

/-! ### The dictionary -/

/-- The values of an entry. -/
def PckEntry.values : PckEntry F → List (PckValue F)
  | .scalar v => [v]
  | .list vs => vs

/-- **C53.** Names that no statement mentions keep their value. -/
theorem C53_untouched (as : List (PckAssign F)) (vars : PckVars F) (n : List Char) (h : ∀ a ∈ as, a.name ≠ n) :
    as.foldl pckStep vars n = vars n := by
  induction as generalizing vars with
  | nil => rfl
  | cons a as ih =>
    rw [List.foldl_cons, ih _ fun b hb => h b (by simp [hb])]
    have hn : n ≠ a.name := fun e => h a (by simp) e.symm
    unfold pckStep
    cases a.op with
    | set => cases a.values with
      | nil => simp [PckVars.set, hn]
      | cons v vs => cases vs <;> simp [PckVars.set, hn]
    | extend => cases vars a.name with
      | none => simp [PckVars.set, hn]
      | some e => cases e <;> simp [PckVars.set, hn]

theorem extend_list (as : List (PckAssign F)) (vars : PckVars F) (n : List Char) (old : List (PckValue F)) (h0 : vars n = some (.list old))
    (h : ∀ a ∈ as, a.name = n → a.op = .extend) :
    as.foldl pckStep vars n = some (.list (old ++ (as.filter fun a => a.name = n).flatMap PckAssign.values)) := by
  induction as generalizing vars old with
  | nil => simp [h0]
  | cons a as ih =>
    rw [List.foldl_cons]
    by_cases ha : a.name = n
    · have hop := h a (by simp) ha
      have : pckStep vars a n = some (.list (old ++ a.values)) := by
        unfold pckStep
        rw [hop, ha, h0]
        simp [PckVars.set]
      rw [ih _ _ this fun b hb => h b (by simp [hb]), List.filter_cons_of_pos (by simpa using ha), List.flatMap_cons, List.append_assoc]
    · have : pckStep vars a n = some (.list old) := by
        have := C53_untouched [a] vars n (by simpa using ha)
        rw [List.foldl_cons, List.foldl_nil] at this
        rw [this, h0]
      rw [ih _ _ this fun b hb => h b (by simp [hb]), List.filter_cons_of_neg (by simpa using ha)]

/-- **C53 (partial).** After a file is loaded, a name that was assigned with `=` has the values of its last `=` followed by those of every
later `+=`, in order — provided that last `=` gave other than exactly one value, or no `+=` followed it.  (Missing: the case of a `+=` after a
one-value `=`, where the code drops the addition; see `C53_scalar_extension_lost`.) -/
theorem C53_load_partial (vars : PckVars F) (pre : List (PckAssign F)) (a : PckAssign F) (post : List (PckAssign F)) (ha : a.op = .set)
    (hpost : ∀ b ∈ post, b.name = a.name → b.op = .extend) (hne : a.values.length ≠ 1 ∨ ∀ b ∈ post, b.name ≠ a.name) :
    ((pre ++ a :: post).foldl pckStep vars a.name).map PckEntry.values =
      some (a.values ++ (post.filter fun b => b.name = a.name).flatMap PckAssign.values) := by
  rw [List.foldl_append, List.foldl_cons]
  generalize pre.foldl pckStep vars = vars'
  rcases hne with hlen | hno
  · have h1 : pckStep vars' a a.name = some (.list a.values) := by
      unfold pckStep
      rw [ha]
      cases hv : a.values with
      | nil => simp [PckVars.set]
      | cons v vs => cases vs with
        | nil => rw [hv] at hlen; simp at hlen
        | cons _ _ => simp [PckVars.set]
    rw [extend_list post _ _ _ h1 hpost]
    rfl
  · rw [C53_untouched post _ _ hno]
    have : post.filter (fun b => b.name = a.name) = [] := by
      rw [List.filter_eq_nil_iff]; intro b hb; simpa using hno b hb
    rw [this]
    unfold pckStep
    rw [ha]
    cases hv : a.values with
    | nil => simp [PckVars.set, PckEntry.values]
    | cons v vs => cases vs <;> simp [PckVars.set, PckEntry.values]

/-- **C53.** A name that was never assigned with `=` gets the values of all its `+=` statements, in order. -/
theorem C53_only_extended (vars : PckVars F) (n : List Char) (as : List (PckAssign F)) (h0 : vars n = none)
    (h : ∀ a ∈ as, a.name = n → a.op = .extend) (hex : ∃ a ∈ as, a.name = n) :
    as.foldl pckStep vars n = some (.list ((as.filter fun a => a.name = n).flatMap PckAssign.values)) := by
  induction as generalizing vars with
  | nil => obtain ⟨a, ha, -⟩ := hex; simp at ha
  | cons a as ih =>
    rw [List.foldl_cons]
    by_cases ha : a.name = n
    · have : pckStep vars a n = some (.list a.values) := by
        unfold pckStep
        rw [h a (by simp) ha, ha, h0]
        simp [PckVars.set]
      rw [extend_list as _ _ _ this fun b hb => h b (by simp [hb]), List.filter_cons_of_pos (by simpa using ha), List.flatMap_cons]
    · have : pckStep vars a n = none := by
        have := C53_untouched [a] vars n (by simpa using ha)
        rw [List.foldl_cons, List.foldl_nil] at this
        rw [this, h0]
      rw [ih _ this (fun b hb => h b (by simp [hb])), List.filter_cons_of_neg (by simpa using ha)]
      obtain ⟨b, hb, e⟩ := hex
      rcases List.mem_cons.1 hb with rfl | hb
      · exact absurd e ha
      · exact ⟨b, hb, e⟩

/-- **C53 fails** for a `+=` after an `=` with one value: the addition is lost, whatever it was. -/
theorem C53_scalar_extension_lost (vars : PckVars F) (pre : List (PckAssign F)) (a : PckAssign F) (v : PckValue F) (post : List (PckAssign F))
    (ha : a.op = .set) (hv : a.values = [v]) (hpost : ∀ b ∈ post, b.name = a.name → b.op = .extend) :
    (pre ++ a :: post).foldl pckStep vars a.name = some (.scalar v) := by
  rw [List.foldl_append, List.foldl_cons]
  generalize pre.foldl pckStep vars = vars'
  have h1 : pckStep vars' a a.name = some (.scalar v) := by
    unfold pckStep
    rw [ha, hv]
    simp [PckVars.set]
  generalize pckStep vars' a = w at h1
  induction post generalizing w with
  | nil => exact h1
  | cons b post ih =>
    rw [List.foldl_cons]
    apply ih (fun c hc => hpost c (by simp [hc]))
    by_cases hb : b.name = a.name
    · unfold pckStep
      rw [hpost b (by simp) hb, hb, h1]
      exact h1
    · have := C53_untouched [b] w a.name (by simpa using hb)
      rw [List.foldl_cons, List.foldl_nil] at this
      rw [this, h1]

/-- **C53.** From the file to the dictionary: a kernel whose data lines are written from statements is loaded by carrying out the
statements in order, with no error. -/
theorem C53_file (pf : List Char → Option F) (blocks : List PckBlock) (comment : List (List Char)) (h : ∀ b ∈ blocks, b.Ok)
    (hc : ∀ l ∈ comment, pyStrip l ≠ beginData) (stmts : List PckStmt) (as : List (PckAssign F))
    (hm : List.Forall₂ (PckStmt.Means pf) stmts as)
    (htok : (blocks.flatMap fun b => b.data.flatMap fun l => lineTokens l.body) = (stmts.flatMap PckStmt.tokens).map PckTok.text)
    (vars : PckVars F) :
    pckLoad pf (blocks.flatMap PckBlock.lines ++ comment) vars = (as.foldl pckStep vars, none) := by
  unfold pckLoad
  simp only [C53_file_tokens blocks comment h hc, htok]
  rw [C53_parse pf stmts as hm]
  rw [List.length_map]
  have : ∀ l : List PckStmt, l.length ≤ (l.flatMap PckStmt.tokens).length := by
    intro l
    induction l with
    | nil => simp
    | cons s l ih => rw [List.flatMap_cons, List.length_append, List.length_cons, PckStmt.tokens]; simp only [List.length_cons]; omega
  exact this stmts

/-- A file that does not start with one of the two magic words is refused and changes nothing. -/
theorem C53_magic (pf : List Char → Option F) (start : List Char) (lines : List (List Char)) (vars : PckVars F)
    (h1 : ¬ "KPL/FK".toList <+: start) (h2 : ¬ "KPL/PCK".toList <+: start) :
    pckReadText pf start lines vars = (vars, some .valueError) := by
  unfold pckReadText
  rw [if_neg]
  simp only [Bool.or_eq_true, List.isPrefixOf_iff_prefix, not_or]
  exact ⟨h1, h2⟩

/-! ### A concrete kernel -/

/-- `BODY9_R=( 63.5, 'a b' 12)`. -/
def exampleItems : List (List Char × PckTok) :=
  [([], .name ['B', 'O', 'D', 'Y', '9', '_', 'R']), ([], .eq), ([], .opn), ([' '], .number ['6', '3', '.', '5']), ([',', ' '], .quoted ['a', ' ', 'b']),
    ([' '], .number ['1', '2']), ([], .cls)]

example : WellSpaced exampleItems [] := by
  refine ⟨by simp [IsSep], ⟨'B', ['O', 'D', 'Y', '9', '_', 'R'], rfl, by decide, by decide, by decide⟩, Or.inr trivial, by simp [IsSep], trivial, Or.inr trivial,
    by simp [IsSep], trivial, Or.inl (by simp), by simp [IsSep],
    ⟨'6', ['3', '.', '5'], rfl, by decide, by decide, by decide, by decide, by decide, by decide, by decide⟩, Or.inl (by simp), by simp [IsSep],
    by simp [PckTok.Valid], Or.inl (by simp), by simp [IsSep],
    ⟨'1', ['2'], rfl, by decide, by decide, by decide, by decide, by decide, by decide, by decide⟩, Or.inr trivial, by simp [IsSep], trivial,
    by simp [IsSep]⟩

/-- The line as it stands in a file. -/
def exampleLine : PckLine := ⟨[' ', ' '], renderLine exampleItems [], ['\r', '\n']⟩

example : exampleLine.text = "  BODY9_R=( 63.5, 'a b' 12)\r\n".toList := by decide

theorem exampleLine_ok : exampleLine.Ok := ⟨by decide, by decide, by decide, by decide, by decide⟩

/-- A kernel with one block. -/
def exampleBlock : PckBlock := ⟨[['K', 'P', 'L', '/', 'P', 'C', 'K'], [' ', 'c', 'o', 'm', 'm', 'e', 'n', 't', ' ', '=', ' ', '(', '3', ')']], [exampleLine]⟩

theorem exampleBlock_ok : exampleBlock.Ok := ⟨by decide, by simpa [exampleBlock] using exampleLine_ok⟩

/-- The statement. -/
def exampleStmt : PckStmt := ⟨['B', 'O', 'D', 'Y', '9', '_', 'R'], .set, true, [.number ['6', '3', '.', '5'], .quoted ['a', ' ', 'b'], .number ['1', '2']]⟩

example (x : F) : exampleStmt.Means (fun _ => some x) ⟨['B', 'O', 'D', 'Y', '9', '_', 'R'], .set, [.float x, .str ['a', ' ', 'b'], .int 12]⟩ := by
  refine PckStmt.Means.mk (by simp only [exampleStmt]) (by simp only [exampleStmt]) (by decide) ?_ ?_
  · simp only [exampleStmt, List.forall_mem_cons]
    refine ⟨?_, ?_, ?_, by simp⟩
    · exact ⟨'6', ['3', '.', '5'], rfl, by decide, by decide, by decide, by decide, by decide, by decide, by decide⟩
    · simp [PckTok.Valid]
    · exact ⟨'1', ['2'], rfl, by decide, by decide, by decide, by decide, by decide, by decide, by decide⟩
  · simp only [exampleStmt]
    refine List.Forall₂.cons ?_ (List.Forall₂.cons (by simp only [PckTok.meaning]) (List.Forall₂.cons ?_ List.Forall₂.nil))
    · simp only [PckTok.meaning]
      rw [if_neg (by decide)]
      rfl
    · simp only [PckTok.meaning]
      rw [if_pos (by decide)]
      rfl

example : ([exampleBlock].flatMap fun b => b.data.flatMap fun l => lineTokens l.body) =
    ([exampleStmt].flatMap PckStmt.tokens).map PckTok.text := by decide

/-- The loss, on the smallest case: `AA = 1`, then `AA += 2`, leaves `AA` at 1. -/
example : [(⟨['A', 'A'], .set, [.int 1]⟩ : PckAssign F), ⟨['A', 'A'], .extend, [.int 2]⟩].foldl pckStep (fun _ => none) ['A', 'A'] =
    some (.scalar (.int 1)) := by
  rfl

/-- Finding (C53): a tab is not a separator.  A line on which a tab follows the name, as in `BODY399_GM<tab>=<tab>3.98`, is refused with
a `ValueError`, whatever comes after the tab. -/
theorem C53_tab_refused (pf : List Char → Option F) (c : Char) (cs rest : List Char) (hc : c.isAlpha = true) (h0 : cs ≠ [])
    (hw : ∀ d ∈ cs, isWordChar d = true) (fuel : ℕ) :
    pckParse pf (fuel + 1) (lineTokens (c :: cs ++ '\t' :: rest)) = ([], some .valueError) := by
  have ht : (cs ++ '\t' :: rest).takeWhile isWordChar = cs ∧ (cs ++ '\t' :: rest).dropWhile isWordChar = '\t' :: rest := by
    have hstop : isWordChar '\t' = false := by decide
    clear h0
    induction cs with
    | nil => simp [hstop]
    | cons d ds ih =>
      have hd := hw d (by simp)
      have := ih fun e he => hw e (by simp [he])
      simp [hd, this]
  have h1 : matchToken (c :: (cs ++ '\t' :: rest)) = some (c :: cs, '\t' :: rest) := by
    unfold matchToken
    simp only [ht.1, ht.2, hc, Bool.true_and]
    rw [if_pos (by simpa using h0)]
  have h2 : matchToken ('\t' :: rest) = some ('\t' :: rest.takeWhile isPlainChar, rest.dropWhile isPlainChar) := by
    have hp : isPlainChar '\t' = true := by decide
    have ha : Char.isAlpha '\t' = false := by decide
    unfold matchToken
    simp only [ha, Bool.false_and, Bool.false_eq_true, if_false]
    rw [if_neg (by decide), if_neg (by simp), if_neg (by decide), if_neg (by decide), if_neg (by decide)]
    simp [matchPlain, hp]
  have h3 : ∃ more, lineTokens (c :: cs ++ '\t' :: rest) = (c :: cs) :: ('\t' :: rest.takeWhile isPlainChar) :: more := by
    unfold lineTokens
    have e : (c :: cs ++ '\t' :: rest).length = (cs.length + rest.length) + 1 + 1 := by simp; omega
    rw [e, List.cons_append, findTokens, h1]
    refine ⟨findTokens (cs.length + rest.length) (rest.dropWhile isPlainChar), ?_⟩
    simp only [findTokens, h2]
  obtain ⟨more, h3⟩ := h3
  rw [h3, pckParse, if_pos ⟨by simp, by simp⟩]

example (pf : List Char → Option F) : pckParse pf 2 (lineTokens "BODY399_GM\t=\t398600.4".toList) = ([], some .valueError) :=
  C53_tab_refused pf 'B' "ODY399_GM".toList "=\t398600.4".toList (by decide) (by decide) (by decide) 1

/-- Finding (C53): a name of one letter needs a blank before the equals sign.  `A=3` is read as a single token, and the statement ends in
an error. -/
theorem C53_one_letter_refused (pf : List Char → Option F) (c : Char) (value : List Char) (hc : c.isAlpha = true)
    (hv : ∀ d ∈ value, isPlainChar d = true) (fuel : ℕ) :
    lineTokens (c :: '=' :: value) = [c :: '=' :: value] ∧
      pckParse pf (fuel + 1) (lineTokens (c :: '=' :: value)) = ([], some .stopIteration) := by
  have e : isWordChar '=' = false := by decide
  have hp : isPlainChar '=' = true := by decide
  have ht : value.takeWhile isPlainChar = value := by
    simpa using (takeWhile_append_stop isPlainChar value [] hv (by simp)).1
  have hd : value.dropWhile isPlainChar = [] := by
    simpa using (takeWhile_append_stop isPlainChar value [] hv (by simp)).2
  have hpc : isPlainChar c = true := by
    unfold isPlainChar
    have h1 : c ≠ ')' := by rintro rfl; simp at hc
    have h2 : c ≠ ',' := by rintro rfl; simp at hc
    have h3 : c ≠ ' ' := by rintro rfl; simp at hc
    simp [h1, h2, h3]
  have hm : matchToken (c :: '=' :: value) = some (c :: '=' :: value, []) := by
    have n1 : c ≠ '=' := by rintro rfl; simp at hc
    have n2 : c ≠ '+' := by rintro rfl; simp at hc
    have n3 : c ≠ '(' := by rintro rfl; simp at hc
    have n4 : c ≠ ')' := by rintro rfl; simp at hc
    have n5 : c ≠ '\'' := by rintro rfl; simp at hc
    unfold matchToken
    simp [e, n1, n2, n3, n4, n5, matchPlain, hpc, hp, ht, hd]
  have hl : lineTokens (c :: '=' :: value) = [c :: '=' :: value] := by
    unfold lineTokens
    rw [List.length_cons, findTokens, hm]
    simp only [findTokens_nil]
  refine ⟨hl, ?_⟩
  rw [hl, pckParse]

example (pf : List Char → Option F) : pckParse pf 1 (lineTokens "A=3".toList) = ([], some .stopIteration) :=
  (C53_one_letter_refused pf 'A' ['3'] (by decide) (by decide) 0).2

end Skyfield
