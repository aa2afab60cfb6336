import Verif.Model.Vectors
import Mathlib.Tactic.Abel
import Mathlib.Tactic.Common
import Mathlib.Data.List.Forall2
import Mathlib.Algebra.Group.Int.Defs

/-
C31-C33: vector functions and ephemeris lookup.
-/
set_option linter.unusedSectionVars false
namespace Skyfield
variable {T V : Type*}

/-! ### Sums -/

section
variable [AddCommGroup V]

theorem foldl_sumStep (l : List (Term V)) (acc : Evaluated V) :
    (l.foldl sumStep acc).position = acc.position + (l.map (·.position)).sum ∧
    (l.foldl sumStep acc).velocity = acc.velocity + (l.map (·.velocity)).sum := by
  induction l generalizing acc with
  | nil => simp
  | cons x xs ih =>
    rw [List.foldl_cons]
    have := ih (sumStep acc x)
    rw [this.1, this.2]
    simp only [sumStep, List.map_cons, List.sum_cons]
    constructor <;> abel

/-- Position and velocity of the evaluation of a sum. -/
theorem sumTerms_value (l : List (Term V)) :
    (sumTerms l).map (fun e => (e.position, e.velocity)) =
      if l = [] then none else some ((l.map (·.position)).sum, (l.map (·.velocity)).sum) := by
  unfold sumTerms
  cases l with
  | nil => rfl
  | cons x xs =>
    have hl : (x :: xs).getLast? = some ((x :: xs).getLast (by simp)) := List.getLast?_eq_some_getLast (by simp)
    rw [hl]
    have h := foldl_sumStep (x :: xs) ⟨0, 0, none⟩
    simp only [List.head?_cons, reduceCtorEq, if_false, Option.map_some]
    generalize List.foldl sumStep ⟨0, 0, none⟩ (x :: xs) = r at h ⊢
    split_ifs <;> simp [h.1, h.2]

/-- The position and velocity of a vector function at a time, if it can be evaluated. -/
def VectorFunction.value (f : VectorFunction T V) (t : T) : Option (V × V) :=
  (f.at_ t).map fun e => (e.position, e.velocity)

theorem value_eq_some (f : VectorFunction T V) (t : T) (p v : V) :
    f.value t = some (p, v) ↔ ∃ g, f.at_ t = some ⟨p, v, g⟩ := by
  unfold VectorFunction.value
  cases h : f.at_ t with
  | none => simp
  | some e => cases e; simp

/-- The sum of the values of a list of vector functions. -/
def totalValue (fs : List (VectorFunction T V)) (t : T) : Option (V × V) :=
  (terms fs t).map fun l => ((l.map (·.position)).sum, (l.map (·.velocity)).sum)

theorem terms_append (fs gs : List (VectorFunction T V)) (t : T) :
    terms (fs ++ gs) t = (terms fs t).bind fun a => (terms gs t).map fun b => a ++ b := by
  induction fs with
  | nil => cases h : terms gs t <;> simp [terms, h]
  | cons f fs ih =>
    rw [List.cons_append, terms, ih, terms]
    cases f.at_ t <;> cases terms fs t <;> cases terms gs t <;> simp

theorem terms_singleton (f : VectorFunction T V) (t : T) :
    terms [f] t = (f.at_ t).map fun e => [⟨f.center, e.position, e.velocity⟩] := by
  rw [terms, terms]
  cases f.at_ t <;> rfl

/-- Addition of optional values: raises if either does. -/
def addValue (a b : Option (V × V)) : Option (V × V) :=
  a.bind fun x => b.map fun y => (x.1 + y.1, x.2 + y.2)

def negValue (a : Option (V × V)) : Option (V × V) := a.map fun x => (-x.1, -x.2)

theorem totalValue_append (fs gs : List (VectorFunction T V)) (t : T) :
    totalValue (fs ++ gs) t = addValue (totalValue fs t) (totalValue gs t) := by
  unfold totalValue addValue
  rw [terms_append]
  cases terms fs t <;> cases terms gs t <;> simp

theorem totalValue_singleton (f : VectorFunction T V) (t : T) : totalValue [f] t = f.value t := by
  unfold totalValue VectorFunction.value
  rw [terms_singleton]
  cases f.at_ t <;> simp

theorem terms_nil_iff (fs : List (VectorFunction T V)) (t : T) (l : List (Term V)) (h : terms fs t = some l) :
    l = [] ↔ fs = [] := by
  cases fs with
  | nil => simp [terms] at h; simp [h]
  | cons f fs =>
    rw [terms] at h
    cases h1 : f.at_ t <;> cases h2 : terms fs t <;> simp [h1, h2] at h
    simp [← h]

theorem value_sum (c tg : ℤ) (fs : List (VectorFunction T V)) (hne : fs ≠ []) (t : T) :
    (VectorFunction.sum c tg fs).value t = totalValue fs t := by
  unfold VectorFunction.value totalValue
  rw [VectorFunction.at_]
  cases h : terms fs t with
  | none => rfl
  | some l =>
    have hl : l ≠ [] := fun e => hne ((terms_nil_iff fs t l h).1 e)
    simp only [Option.bind_some, Option.map_some]
    rw [sumTerms_value, if_neg hl]

theorem totalValue_parts (f : VectorFunction T V) (t : T) : totalValue f.parts t = f.value t := by
  unfold VectorFunction.parts
  split
  · rw [value_sum _ _ _ (by simp)]
  · rw [totalValue_singleton]

theorem parts_ne_nil (f : VectorFunction T V) : f.parts ≠ [] := by
  unfold VectorFunction.parts
  split <;> simp

theorem value_reversed (f : VectorFunction T V) (t : T) :
    (VectorFunction.reversed f).value t = negValue (f.value t) := by
  unfold VectorFunction.value negValue
  rw [VectorFunction.at_]
  cases f.at_ t <;> rfl

theorem negValue_negValue (a : Option (V × V)) : negValue (negValue a) = a := by
  unfold negValue
  cases a <;> simp

theorem value_neg (f : VectorFunction T V) (t : T) : f.neg.value t = negValue (f.value t) := by
  unfold VectorFunction.neg
  split
  · rw [value_reversed, negValue_negValue]
  · rw [value_reversed]

theorem negValue_addValue (a b : Option (V × V)) : negValue (addValue a b) = addValue (negValue a) (negValue b) := by
  unfold negValue addValue
  cases a <;> cases b <;> simp
  constructor <;> abel

theorem addValue_comm (a b : Option (V × V)) : addValue a b = addValue b a := by
  unfold addValue
  cases a <;> cases b <;> simp
  constructor <;> abel

theorem totalValue_neg_reverse (fs : List (VectorFunction T V)) (t : T) :
    totalValue ((fs.map VectorFunction.neg).reverse) t = negValue (totalValue fs t) := by
  induction fs with
  | nil => simp [totalValue, terms, negValue]
  | cons f fs ih =>
    rw [List.map_cons, List.reverse_cons, totalValue_append, ih, totalValue_singleton, value_neg,
      show f :: fs = [f] ++ fs from rfl, totalValue_append, negValue_addValue, totalValue_singleton, addValue_comm]

/-! ### C33 -/

/-- An expression over vector functions. -/
inductive VectorExpr (T V : Type*)
  | atom (f : VectorFunction T V)
  | add (a b : VectorExpr T V)
  | sub (a b : VectorExpr T V)
  | neg (a : VectorExpr T V)

/-- What the library builds for an expression; `none` if an operator refuses. -/
def VectorExpr.build : VectorExpr T V → Option (VectorFunction T V)
  | .atom f => some f
  | .add a b => a.build.bind fun x => b.build.bind fun y => x.add y
  | .sub a b => a.build.bind fun x => b.build.bind fun y => x.sub y
  | .neg a => a.build.map VectorFunction.neg

/-- Specification: where the displacement starts and ends. -/
def VectorExpr.ends : VectorExpr T V → Option (ℤ × ℤ)
  | .atom f => some (f.center, f.target)
  | .neg a => a.ends.map fun e => (e.2, e.1)
  | .sub a b => a.ends.bind fun x => b.ends.bind fun y => if x.1 = y.1 then some (y.2, x.2) else none
  | .add a b => a.ends.bind fun x => b.ends.bind fun y =>
      if x.2 = y.1 then some (x.1, y.2) else if y.2 = x.1 then some (y.1, x.2) else none

/-- Specification: position and velocity as sums and differences; an exception anywhere is an exception. -/
def VectorExpr.spec : VectorExpr T V → T → Option (V × V)
  | .atom f, t => f.value t
  | .neg a, t => (a.spec t).map fun x => (-x.1, -x.2)
  | .add a b, t => (a.spec t).bind fun x => (b.spec t).map fun y => (x.1 + y.1, x.2 + y.2)
  | .sub a b, t => (a.spec t).bind fun x => (b.spec t).map fun y => (x.1 - y.1, x.2 - y.2)

theorem neg_ends (f : VectorFunction T V) : f.neg.center = f.target ∧ f.neg.target = f.center := by
  unfold VectorFunction.neg
  split
  · rw [VectorFunction.center, VectorFunction.target]; exact ⟨rfl, rfl⟩
  · rw [VectorFunction.center, VectorFunction.target]; exact ⟨rfl, rfl⟩

/-- **C33.** For any expression, the library builds a vector function exactly when all the ends meet as required (otherwise
it refuses), and then its center and target are the two ends. -/
theorem C33_ends (e : VectorExpr T V) : e.build.map (fun f => (f.center, f.target)) = e.ends := by
  induction e with
  | atom f => rfl
  | neg a ih =>
    rw [VectorExpr.build, VectorExpr.ends, ← ih]
    cases a.build with
    | none => rfl
    | some f =>
      simp only [Option.map_some, Option.some.injEq, Prod.mk.injEq]
      exact ⟨(neg_ends f).1, (neg_ends f).2⟩
  | add a b iha ihb =>
    rw [VectorExpr.build, VectorExpr.ends, ← iha, ← ihb]
    cases a.build with
    | none => rfl
    | some x =>
      cases b.build with
      | none => rfl
      | some y =>
        simp only [Option.bind_some, Option.map_some, VectorFunction.add]
        by_cases h1 : x.target = y.center
        · simp [h1, VectorFunction.center, VectorFunction.target]
        · by_cases h2 : y.target = x.center
          · simp [h1, h2, VectorFunction.center, VectorFunction.target]
          · simp [h1, h2]
  | sub a b iha ihb =>
    rw [VectorExpr.build, VectorExpr.ends, ← iha, ← ihb]
    cases a.build with
    | none => rfl
    | some x =>
      cases b.build with
      | none => rfl
      | some y =>
        simp only [Option.bind_some, Option.map_some, VectorFunction.sub]
        by_cases h1 : x.center = y.center
        · simp [h1, VectorFunction.center, VectorFunction.target]
        · simp [h1]

/-- **C33.** ... and at every time its position and velocity are those sums and differences of the values of the vector
functions it was built from (raising exactly if one of them raises). -/
theorem C33_value (e : VectorExpr T V) (f : VectorFunction T V) (h : e.build = some f) (t : T) :
    f.value t = e.spec t := by
  induction e generalizing f with
  | atom g => rw [VectorExpr.build, Option.some.injEq] at h; subst h; rfl
  | neg a ih =>
    rw [VectorExpr.build, Option.map_eq_some_iff] at h
    obtain ⟨g, hg, rfl⟩ := h
    rw [value_neg, ih g hg]; rfl
  | add a b iha ihb =>
    rw [VectorExpr.build, Option.bind_eq_some_iff] at h
    obtain ⟨x, hx, h⟩ := h
    rw [Option.bind_eq_some_iff] at h
    obtain ⟨y, hy, h⟩ := h
    have e : VectorExpr.spec (.add a b) t = addValue (x.value t) (y.value t) := by
      rw [iha x hx, ihb y hy]; rfl
    rw [e]
    unfold VectorFunction.add at h
    split_ifs at h with h1 h2
    · rw [Option.some.injEq] at h; subst h
      rw [value_sum _ _ _ (by simp [parts_ne_nil]), totalValue_append, totalValue_parts, totalValue_parts,
        addValue_comm]
    · rw [Option.some.injEq] at h; subst h
      rw [value_sum _ _ _ (by simp [parts_ne_nil]), totalValue_append, totalValue_parts, totalValue_parts]
  | sub a b iha ihb =>
    rw [VectorExpr.build, Option.bind_eq_some_iff] at h
    obtain ⟨x, hx, h⟩ := h
    rw [Option.bind_eq_some_iff] at h
    obtain ⟨y, hy, h⟩ := h
    have e : VectorExpr.spec (.sub a b) t = addValue (negValue (y.value t)) (x.value t) := by
      rw [addValue_comm, ← iha x hx |>.symm, ← ihb y hy |>.symm]
      unfold addValue negValue
      rw [VectorExpr.spec]
      cases a.spec t <;> cases b.spec t <;> simp [sub_eq_add_neg]
    rw [e]
    unfold VectorFunction.sub at h
    split_ifs at h with h1
    rw [Option.some.injEq] at h; subst h
    rw [value_sum _ _ _ (by simp [parts_ne_nil]), totalValue_append, totalValue_parts, totalValue_neg_reverse,
      totalValue_parts]

/-- Every vector function from which an expression is built. -/
def VectorExpr.atoms : VectorExpr T V → List (VectorFunction T V)
  | .atom f => [f]
  | .add a b | .sub a b => a.atoms ++ b.atoms
  | .neg a => a.atoms

/-- **C33.** Consistency of ends and values: if there is a position `P` (and velocity `W`) of every body at time `t` such
that each given vector function evaluates to the displacement from its center to its target, then so does every
vector function built from them. -/
theorem C33_displacement (e : VectorExpr T V) (f : VectorFunction T V) (h : e.build = some f) (t : T)
    (P W : ℤ → V)
    (hP : ∀ g ∈ e.atoms, g.value t = some (P g.target - P g.center, W g.target - W g.center)) :
    f.value t = some (P f.target - P f.center, W f.target - W f.center) := by
  suffices hs : ∀ e : VectorExpr T V, ∀ f, e.build = some f →
      (∀ g ∈ e.atoms, g.value t = some (P g.target - P g.center, W g.target - W g.center)) →
      e.spec t = some (P f.target - P f.center, W f.target - W f.center) by
    rw [C33_value e f h t]; exact hs e f h hP
  intro e
  induction e with
  | atom g =>
    intro f h hP
    rw [VectorExpr.build, Option.some.injEq] at h; subst h
    exact hP g (by simp [VectorExpr.atoms])
  | neg a ih =>
    intro f h hP
    rw [VectorExpr.build, Option.map_eq_some_iff] at h
    obtain ⟨g, hg, rfl⟩ := h
    rw [VectorExpr.spec, ih g hg hP, (neg_ends g).1, (neg_ends g).2]
    simp
  | add a b iha ihb =>
    intro f h hP
    rw [VectorExpr.build, Option.bind_eq_some_iff] at h
    obtain ⟨x, hx, h⟩ := h
    rw [Option.bind_eq_some_iff] at h
    obtain ⟨y, hy, h⟩ := h
    rw [VectorExpr.spec, iha x hx (fun g hg => hP g (by simp [VectorExpr.atoms, hg])),
      ihb y hy (fun g hg => hP g (by simp [VectorExpr.atoms, hg]))]
    unfold VectorFunction.add at h
    split_ifs at h with h1 h2
    · rw [Option.some.injEq] at h; subst h
      simp only [Option.bind_some, Option.map_some, VectorFunction.center, VectorFunction.target, h2]
      rw [Option.some.injEq, Prod.mk.injEq]
      constructor <;> abel
    · rw [Option.some.injEq] at h; subst h
      rw [not_not] at h1
      simp only [Option.bind_some, Option.map_some, VectorFunction.center, VectorFunction.target, h1]
      rw [Option.some.injEq, Prod.mk.injEq]
      constructor <;> abel
  | sub a b iha ihb =>
    intro f h hP
    rw [VectorExpr.build, Option.bind_eq_some_iff] at h
    obtain ⟨x, hx, h⟩ := h
    rw [Option.bind_eq_some_iff] at h
    obtain ⟨y, hy, h⟩ := h
    rw [VectorExpr.spec, iha x hx (fun g hg => hP g (by simp [VectorExpr.atoms, hg])),
      ihb y hy (fun g hg => hP g (by simp [VectorExpr.atoms, hg]))]
    unfold VectorFunction.sub at h
    split_ifs at h with h1
    rw [Option.some.injEq] at h; subst h
    rw [not_not] at h1
    simp only [Option.bind_some, Option.map_some, VectorFunction.center, VectorFunction.target, h1]
    rw [Option.some.injEq, Prod.mk.injEq]
    constructor <;> abel

/-- **C33.** Two vectors that do not meet are refused by `+`, two with different centers by `-`. -/
theorem C33_refused (a b : VectorFunction T V) :
    (a.add b = none ↔ a.target ≠ b.center ∧ b.target ≠ a.center) ∧ (a.sub b = none ↔ a.center ≠ b.center) := by
  unfold VectorFunction.add VectorFunction.sub
  constructor
  · split_ifs with h1 h2 <;> simp_all
  · split_ifs with h1 <;> simp_all

/-- **C33.** Negating twice gives the vector function itself back. -/
theorem C33_neg_neg (f : VectorFunction T V) (t : T) :
    f.neg.neg.value t = f.value t ∧ f.neg.neg.center = f.center ∧ f.neg.neg.target = f.target := by
  refine ⟨by rw [value_neg, value_neg, negValue_negValue], ?_, ?_⟩
  · rw [(neg_ends f.neg).1, (neg_ends f).2]
  · rw [(neg_ends f.neg).2, (neg_ends f).1]

/-- The vectors of a list are placed end to end, from `a` to `b`. -/
def EndToEnd : ℤ → ℤ → List (VectorFunction T V) → Prop
  | a, b, [] => a = b
  | a, b, f :: fs => f.center = a ∧ EndToEnd f.target b fs

theorem foldl_gcrs (fs : List (VectorFunction T V)) (t : T) (P W : ℤ → V)
    (hP : ∀ g ∈ fs, g.value t = some (P g.target - P g.center, W g.target - W g.center)) (a b a0 : ℤ)
    (hends : EndToEnd a b fs) (l : List (Term V)) (hl : terms fs t = some l) (acc : Evaluated V)
    (hacc : acc.position = P a - P a0) (hg : ∀ q, acc.gcrs = some q → q = P a0 - P 399) :
    ∀ q, (l.foldl sumStep acc).gcrs = some q → q = P a0 - P 399 := by
  induction fs generalizing a l acc with
  | nil =>
    rw [terms, Option.some.injEq] at hl; subst hl; exact hg
  | cons f fs ih =>
    obtain ⟨hc, hrest⟩ := hends
    rw [terms] at hl
    obtain ⟨g, hv⟩ := (value_eq_some f t _ _).1 (hP f (by simp))
    rw [hv] at hl
    cases ht : terms fs t with
    | none => rw [ht] at hl; cases hl
    | some l' =>
      rw [ht] at hl
      simp only [Option.some.injEq] at hl
      subst hl
      rw [List.foldl_cons]
      refine ih (fun g hg => hP g (by simp [hg])) f.target hrest l' ht _ ?_ ?_
      · simp only [sumStep]; rw [hacc, hc]; abel
      · intro q hq
        simp only [sumStep] at hq
        split_ifs at hq with h399
        · rw [Option.some.injEq] at hq
          rw [← hq, hacc, ← hc, h399]; abel
        · exact hg q hq

/-- **C33.** The observer's geocentric position reported along with a sum of vectors placed end to end is a displacement
from the Earth's center: to the target, if the sum goes from the Solar System barycenter to something whose
vector starts at the Earth, and otherwise to the center the sum starts from. -/
theorem C33_observer_gcrs (fs : List (VectorFunction T V)) (a b : ℤ) (hne : fs ≠ []) (hends : EndToEnd a b fs)
    (t : T) (P W : ℤ → V)
    (hP : ∀ g ∈ fs, g.value t = some (P g.target - P g.center, W g.target - W g.center))
    (e : Evaluated V) (he : (VectorFunction.sum a b fs).at_ t = some e) (q : V) (hq : e.gcrs = some q) :
    if a = 0 ∧ (fs.getLast hne).center = 399 then q = P b - P 399 else q = P a - P 399 := by
  have hterms : ∀ fs : List (VectorFunction T V), ∀ a b (hne : fs ≠ []), EndToEnd a b fs →
      (∀ g ∈ fs, g.value t = some (P g.target - P g.center, W g.target - W g.center)) →
      ∃ first last l, terms fs t = some l ∧ l.head? = some first ∧ l.getLast? = some last ∧ first.center = a ∧
        last.center = (fs.getLast hne).center ∧ last.position = P b - P (fs.getLast hne).center := by
    intro fs
    induction fs with
    | nil => intro a b hne; exact absurd rfl hne
    | cons f fs ih =>
      intro a b hne hends hP
      obtain ⟨hc, hrest⟩ := hends
      obtain ⟨g, hv⟩ := (value_eq_some f t _ _).1 (hP f (by simp))
      by_cases hfs : fs = []
      · subst hfs
        have hb : f.target = b := hrest
        refine ⟨⟨f.center, P f.target - P f.center, W f.target - W f.center⟩,
          ⟨f.center, P f.target - P f.center, W f.target - W f.center⟩,
          [⟨f.center, P f.target - P f.center, W f.target - W f.center⟩], ?_, rfl, rfl, hc, rfl, ?_⟩
        · rw [terms_singleton, hv]; rfl
        · simp [hb]
      · obtain ⟨first, last, l, h1, h2, h3, h4, h5, h6⟩ :=
          ih f.target b hfs hrest (fun g hg => hP g (by simp [hg]))
        refine ⟨⟨f.center, P f.target - P f.center, W f.target - W f.center⟩, last,
          ⟨f.center, P f.target - P f.center, W f.target - W f.center⟩ :: l, ?_, rfl, ?_, hc, ?_, ?_⟩
        · rw [terms, hv, h1]
        · rw [List.getLast?_cons, h3]; rfl
        · rw [List.getLast_cons hfs]; exact h5
        · rw [List.getLast_cons hfs]; exact h6
  obtain ⟨first, last, l, h1, h2, h3, h4, h5, h6⟩ := hterms fs a b hne hends hP
  rw [VectorFunction.at_, h1, Option.bind_some] at he
  unfold sumTerms at he
  rw [h2, h3] at he
  simp only [Option.some.injEq] at he
  rw [h4, h5] at he
  split_ifs at he ⊢ with hc
  · rw [← he, Option.some.injEq] at hq
    rw [← hq, h6, hc.2]
  · rw [← he] at hq
    exact foldl_gcrs fs t P W hP a b a hends l h1 ⟨0, 0, none⟩ (by simp) (by simp) q hq

/-- A vector function is put together soundly: the vectors of a sum are placed end to end from its center to its target. -/
def VectorFunction.Chained : VectorFunction T V → Prop
  | .leaf _ _ _ => True
  | .reversed f => f.Chained
  | .sum c t fs => EndToEnd c t fs

theorem endToEnd_append (xs ys : List (VectorFunction T V)) (a b c : ℤ) (hx : EndToEnd a b xs)
    (hy : EndToEnd b c ys) : EndToEnd a c (xs ++ ys) := by
  induction xs generalizing a with
  | nil => rw [EndToEnd] at hx; subst hx; exact hy
  | cons f fs ih => exact ⟨hx.1, ih _ hx.2⟩

theorem endToEnd_neg_reverse (xs : List (VectorFunction T V)) (a b : ℤ) (hx : EndToEnd a b xs) :
    EndToEnd b a (xs.map VectorFunction.neg).reverse := by
  induction xs generalizing a with
  | nil => rw [EndToEnd] at hx; subst hx; exact rfl
  | cons f fs ih =>
    rw [List.map_cons, List.reverse_cons]
    refine endToEnd_append _ _ _ _ _ (ih _ hx.2) ⟨(neg_ends f).1, ?_⟩
    rw [EndToEnd, (neg_ends f).2]; exact hx.1

theorem chained_parts (f : VectorFunction T V) (h : f.Chained) : EndToEnd f.center f.target f.parts := by
  unfold VectorFunction.parts
  split
  · exact h
  · exact ⟨rfl, rfl⟩

theorem chained_neg (f : VectorFunction T V) (h : f.Chained) : f.neg.Chained := by
  unfold VectorFunction.neg
  split
  · exact h
  · exact h

/-- **C33.** However a vector function is built, the vectors of which it is the sum are placed end to end from its center
to its target — the order on which the observer's geocentric position depends. -/
theorem C33_chained (e : VectorExpr T V) (f : VectorFunction T V) (h : e.build = some f)
    (ha : ∀ g ∈ e.atoms, g.Chained) : f.Chained ∧ EndToEnd f.center f.target f.parts := by
  suffices hs : f.Chained from ⟨hs, chained_parts f hs⟩
  induction e generalizing f with
  | atom g =>
    rw [VectorExpr.build, Option.some.injEq] at h; subst h
    exact ha g (by simp [VectorExpr.atoms])
  | neg a ih =>
    rw [VectorExpr.build, Option.map_eq_some_iff] at h
    obtain ⟨g, hg, rfl⟩ := h
    exact chained_neg g (ih g hg ha)
  | add a b iha ihb =>
    rw [VectorExpr.build, Option.bind_eq_some_iff] at h
    obtain ⟨x, hx, h⟩ := h
    rw [Option.bind_eq_some_iff] at h
    obtain ⟨y, hy, h⟩ := h
    have h1 := chained_parts x (iha x hx (fun g hg => ha g (by simp [VectorExpr.atoms, hg])))
    have h2 := chained_parts y (ihb y hy (fun g hg => ha g (by simp [VectorExpr.atoms, hg])))
    unfold VectorFunction.add at h
    split_ifs at h with h3 h4
    · rw [Option.some.injEq] at h; subst h
      rw [h4] at h2
      exact endToEnd_append _ _ _ _ _ h2 h1
    · rw [Option.some.injEq] at h; subst h
      rw [not_not] at h3
      rw [h3] at h1
      exact endToEnd_append _ _ _ _ _ h1 h2
  | sub a b iha ihb =>
    rw [VectorExpr.build, Option.bind_eq_some_iff] at h
    obtain ⟨x, hx, h⟩ := h
    rw [Option.bind_eq_some_iff] at h
    obtain ⟨y, hy, h⟩ := h
    have h1 := chained_parts x (iha x hx (fun g hg => ha g (by simp [VectorExpr.atoms, hg])))
    have h2 := chained_parts y (ihb y hy (fun g hg => ha g (by simp [VectorExpr.atoms, hg])))
    unfold VectorFunction.sub at h
    split_ifs at h with h3
    rw [Option.some.injEq] at h; subst h
    rw [not_not] at h3
    rw [h3] at h1
    exact endToEnd_append _ _ _ _ _ (endToEnd_neg_reverse _ _ _ h2) h1

/-- **C33.** The order in which two vectors are added does not matter, unless they meet at both ends: `earth + place` and
`place + earth` are the same vector function. -/
theorem C33_order (a b : VectorFunction T V) (h : ¬(a.target = b.center ∧ b.target = a.center)) :
    a.add b = b.add a := by
  unfold VectorFunction.add
  by_cases h1 : a.target = b.center <;> by_cases h2 : b.target = a.center <;> simp_all

/-- The Earth seen from the barycenter and a place seen from the Earth. -/
example : (VectorFunction.add (.leaf 399 9 fun _ => some ⟨(2 : ℤ), 0, none⟩)
    (.leaf 0 399 fun (_ : ℕ) => some ⟨50, 0, none⟩)).bind (fun f => (f.at_ 0).map fun e => (e.position, e.gcrs)) =
      some (52, some 2) := by decide

/-! ### C32 -/

/-- The segments of a stack evaluate without error at the dates they cover. -/
def Sound (segs : List (Segment T V)) : Prop := ∀ s ∈ segs, ∀ t, s.covers t = true → ∃ e, s.at_ t = some e

/-- **C32.** For a single time covered by some segment, a stack gives the value of a segment that covers it: the last such
one in the file, as SPICE prescribes. -/
theorem C32_covering_segment (segs : List (Segment T V)) (t : T) (h : ∃ s ∈ segs, s.covers t = true) :
    ∃ before s after, segs = before ++ s :: after ∧ s.covers t = true ∧ (∀ r ∈ after, r.covers t = false) ∧
      stackAt segs t = s.at_ t := by
  obtain ⟨s0, hs0, hc0⟩ := h
  have hf : ∃ s, segs.reverse.find? (fun s => s.covers t) = some s := by
    cases hfind : segs.reverse.find? (fun s => s.covers t) with
    | none =>
      rw [List.find?_eq_none] at hfind
      exact absurd hc0 (hfind s0 (by simpa using hs0))
    | some s => exact ⟨s, rfl⟩
  obtain ⟨s, hs⟩ := hf
  have hs' := hs
  rw [List.find?_eq_some_iff_append] at hs
  obtain ⟨hcov, as, bs, heq, hall⟩ := hs
  refine ⟨bs.reverse, s, as.reverse, ?_, hcov, ?_, ?_⟩
  · have := congrArg List.reverse heq
    simpa using this
  · intro r hr
    have := hall r (by simpa using hr)
    simpa using this
  · unfold stackAt
    rw [hs']

theorem stackArray_get (segs : List (Segment T V)) (hs : Sound segs) (ts : List T) :
    ∀ old : List (Option (Evaluated V)), old.length = ts.length →
    ∃ out, segs.foldlM (fun old s => stackRound s ts old) old = some out ∧ out.length = ts.length ∧
      ∀ (i : ℕ) t, ts[i]? = some t → out[i]? = some
        (match segs.reverse.find? (fun s => s.covers t) with
          | some s => s.at_ t
          | none => old[i]?.join) := by
  induction segs with
  | nil =>
    intro old hlen
    refine ⟨old, rfl, hlen, ?_⟩
    intro i t ht
    have hi : i < ts.length := by
      by_contra hc; rw [List.getElem?_eq_none (by omega)] at ht; cases ht
    simp [List.getElem?_eq_getElem (show i < old.length by omega)]
  | cons s segs ih =>
    intro old hlen
    have hround : ∃ mid, stackRound s ts old = some mid ∧ mid.length = ts.length ∧
        ∀ (i : ℕ) t, ts[i]? = some t → mid[i]? = some (if s.covers t then s.at_ t else old[i]?.join) := by
      unfold stackRound
      clear ih
      induction ts generalizing old with
      | nil => exact ⟨[], by simp, rfl, by simp⟩
      | cons t ts ih =>
        cases old with
        | nil => simp at hlen
        | cons o os =>
          obtain ⟨mid, h1, h2, h3⟩ := ih os (by simpa using hlen)
          have hhead : ∃ x, (if s.covers t = true then (s.at_ t).map some else some o) = some x ∧
              x = if s.covers t = true then s.at_ t else o := by
            by_cases hc : s.covers t = true
            · obtain ⟨e, he⟩ := hs s (by simp) t hc
              exact ⟨some e, by simp [hc, he], by simp [hc, he]⟩
            · exact ⟨o, by simp [hc], by simp [hc]⟩
          obtain ⟨x, hx1, hx2⟩ := hhead
          refine ⟨x :: mid, ?_, by simp [h2], ?_⟩
          · rw [List.zip_cons_cons, List.mapM_cons]
            simp only [hx1, h1]
            rfl
          · intro i t' ht'
            cases i with
            | zero =>
              simp only [List.getElem?_cons_zero, Option.some.injEq] at ht' ⊢
              subst ht'
              rw [hx2]; rfl
            | succ i =>
              rw [List.getElem?_cons_succ] at ht' ⊢
              rw [List.getElem?_cons_succ]
              exact h3 i t' ht'
    obtain ⟨mid, h1, h2, h3⟩ := hround
    obtain ⟨out, k1, k2, k3⟩ := ih (fun r hr => hs r (by simp [hr])) mid h2
    refine ⟨out, ?_, k2, ?_⟩
    · rw [List.foldlM_cons, h1]; exact k1
    · intro i t ht
      rw [k3 i t ht, List.reverse_cons, List.find?_append]
      cases hfind : segs.reverse.find? (fun s => s.covers t) with
      | some s' => simp
      | none =>
        rw [h3 i t ht]
        by_cases hc : s.covers t = true
        · simp [hc]
        · simp [hc]

/-- **C32.** Evaluating an array of times gives, at each time covered by some segment, what evaluating that time alone gives;
at a time not covered it gives "not a number". -/
theorem C32_array (segs : List (Segment T V)) (hs : Sound segs) (ts : List T) :
    ∃ out, stackArray segs ts = some out ∧ out.length = ts.length ∧
      ∀ (i : ℕ) t, ts[i]? = some t →
        ((∃ s ∈ segs, s.covers t = true) → out[i]? = some (stackAt segs t) ∧ (stackAt segs t).isSome = true) ∧
        ((∀ s ∈ segs, s.covers t = false) → out[i]? = some none) := by
  obtain ⟨out, h1, h2, h3⟩ := stackArray_get segs hs ts (ts.map fun _ => none) (by simp)
  refine ⟨out, h1, h2, ?_⟩
  intro i t ht
  constructor
  · intro hcov
    obtain ⟨before, s, after, heq, hc, hafter, hat⟩ := C32_covering_segment segs t hcov
    have hmem : s ∈ segs := by rw [heq]; simp
    obtain ⟨e, he⟩ := hs s hmem t hc
    have hfind : segs.reverse.find? (fun s => s.covers t) = some s := by
      rw [List.find?_eq_some_iff_append]
      refine ⟨hc, after.reverse, before.reverse, by rw [heq]; simp, ?_⟩
      intro r hr
      have := hafter r (by simpa using hr)
      simp [this]
    rw [h3 i t ht, hfind, hat]
    exact ⟨rfl, by rw [he]; rfl⟩
  · intro hnone
    have hfind : segs.reverse.find? (fun s => s.covers t) = none := by
      rw [List.find?_eq_none]
      intro s hs'
      have := hnone s (by simpa using hs')
      simp [this]
    rw [h3 i t ht, hfind]
    have : (ts.map fun _ => (none : Option (Evaluated V)))[i]? = some none := by
      rw [List.getElem?_map, ht]; rfl
    rw [this]; rfl

/-- **C32, limitation.** At a time no segment covers, a single time raises (if the first segment does outside its dates)
whereas an array silently holds "not a number". -/
theorem C32_uncovered (s : Segment T V) (rest : List (Segment T V)) (hs : Sound (s :: rest)) (t : T)
    (hnone : ∀ r ∈ s :: rest, r.covers t = false) (hraise : s.at_ t = none) :
    stackAt (s :: rest) t = none ∧ stackArray (s :: rest) [t] = some [none] := by
  constructor
  · unfold stackAt
    have hfind : (s :: rest).reverse.find? (fun s => s.covers t) = none := by
      rw [List.find?_eq_none]
      intro r hr
      have := hnone r (List.mem_reverse.1 hr)
      simp [this]
    rw [hfind]
    simp [hraise]
  · obtain ⟨out, h1, h2, h3⟩ := C32_array (s :: rest) hs [t]
    rw [h1]
    have h4 := (h3 0 t rfl).2 hnone
    cases out with
    | nil => simp at h2
    | cons x xs =>
      cases xs with
      | nil => simp at h4; rw [h4]
      | cons y ys => simp at h2

/-! ### C31 -/

/-- The chain of bodies from `target` back to the barycenter, and the functions found along it. -/
inductive LookupChain (segs : List (Segment T V)) : ℤ → List (VectorFunction T V) → Prop
  | nil : LookupChain segs 0 []
  | cons (target first rest fs) : target ≠ 0 → (segs.filter fun s => s.target = target) = first :: rest →
      LookupChain segs first.center fs → LookupChain segs target (fs ++ [segmentsFunction first rest])

theorem lookupGo_ok (segs : List (Segment T V)) (fuel : ℕ) (target : ℤ) (acc out : List (VectorFunction T V))
    (h : lookupGo segs fuel target acc = some (.ok out)) : ∃ fs, LookupChain segs target fs ∧ out = fs ++ acc := by
  induction fuel generalizing target acc with
  | zero => rw [lookupGo] at h; cases h
  | succ fuel ih =>
    rw [lookupGo] at h
    split_ifs at h with h0
    · simp only [Option.some.injEq, Except.ok.injEq] at h
      subst h; subst h0
      exact ⟨[], LookupChain.nil, rfl⟩
    · split at h
      · simp at h
      · rename_i first rest hm
        obtain ⟨fs, hc, e⟩ := ih _ _ h
        exact ⟨fs ++ [segmentsFunction first rest], LookupChain.cons target first rest fs h0 hm hc, by simp [e]⟩

theorem segmentsFunction_ends (first : Segment T V) (rest : List (Segment T V)) :
    (segmentsFunction first rest).center = first.center ∧ (segmentsFunction first rest).target = first.target := by
  unfold segmentsFunction
  split <;> exact ⟨by rw [VectorFunction.center], by rw [VectorFunction.target]⟩

theorem EndToEnd_append (a b c : ℤ) (fs gs : List (VectorFunction T V)) (h1 : EndToEnd a b fs)
    (h2 : EndToEnd b c gs) : EndToEnd a c (fs ++ gs) := by
  induction fs generalizing a with
  | nil => have : a = b := h1; subst this; exact h2
  | cons f fs ih => exact ⟨h1.1, ih _ h1.2⟩

theorem chain_endToEnd (segs : List (Segment T V)) (target : ℤ) (fs : List (VectorFunction T V))
    (h : LookupChain segs target fs) : EndToEnd 0 target fs := by
  induction h with
  | nil => rfl
  | cons target first rest fs h0 hm _ ih =>
    apply EndToEnd_append 0 first.center target fs _ ih
    have ht : first.target = target := by
      have : first ∈ segs.filter fun s => s.target = target := by rw [hm]; simp
      simpa using (List.mem_filter.1 this).2
    obtain ⟨e1, e2⟩ := segmentsFunction_ends first rest
    exact ⟨e1, by rw [e2, ht]; rfl⟩

/-- **C31.** What indexing returns starts at the Solar System barycenter and ends at the target asked for. -/
theorem C31_ends (names : String → Option ℤ) (segs : List (Segment T V)) (fuel : ℕ) (arg : TargetArg) (target : ℤ)
    (f : VectorFunction T V) (hd : decode names segs arg = .ok target)
    (h : lookup names segs fuel arg = some (.ok f)) : f.center = 0 ∧ f.target = target := by
  unfold lookup at h
  rw [hd] at h
  simp only at h
  split at h
  · cases h
  · cases h
  · rename_i g hg
    simp only [Option.some.injEq, Except.ok.injEq] at h
    subst h
    obtain ⟨fs, hc, e⟩ := lookupGo_ok segs fuel target [] _ hg
    rw [List.append_nil] at e
    have := chain_endToEnd segs target fs hc
    rw [← e] at this
    exact ⟨this.1, this.2⟩
  · simp only [Option.some.injEq, Except.ok.injEq] at h
    subst h
    exact ⟨by rw [VectorFunction.center], by rw [VectorFunction.target]⟩

/-- All the segments evaluate, where they do, to the displacement from their center to their target. -/
def TruthfulAt (segs : List (Segment T V)) (t : T) (P W : ℤ → V) : Prop :=
  ∀ s ∈ segs, ∀ e, s.at_ t = some e → e.position = P s.target - P s.center ∧ e.velocity = W s.target - W s.center

theorem segmentsFunction_value (segs : List (Segment T V)) (t : T) (P W : ℤ → V) (h : TruthfulAt segs t P W)
    (target : ℤ) (first : Segment T V) (rest : List (Segment T V))
    (hm : (segs.filter fun s => s.target = target) = first :: rest) (x : V × V)
    (hx : (segmentsFunction first rest).value t = some x) :
    x = (P target - P first.center, W target - W first.center) := by
  have hmem : ∀ s ∈ first :: rest, s ∈ segs ∧ s.target = target := by
    intro s hs
    rw [← hm, List.mem_filter] at hs
    exact ⟨hs.1, by simpa using hs.2⟩
  have key : ∀ s ∈ first :: rest, s.center = first.center → ∀ e, s.at_ t = some e →
      (e.position, e.velocity) = (P target - P first.center, W target - W first.center) := by
    intro s hs hc e he
    obtain ⟨h1, h2⟩ := hmem s hs
    obtain ⟨k1, k2⟩ := h s h1 e he
    rw [k1, k2, h2, hc]
  unfold VectorFunction.value at hx
  rw [Option.map_eq_some_iff] at hx
  obtain ⟨e, he, rfl⟩ := hx
  unfold segmentsFunction at he
  split at he
  · rw [VectorFunction.at_] at he
    exact key first (by simp) rfl e he
  · rw [VectorFunction.at_] at he
    unfold stackAt at he
    have hstack : ∀ s ∈ stackSegments first rest, s ∈ first :: rest ∧ s.center = first.center := by
      intro s hs
      unfold stackSegments at hs
      rw [List.mem_filter] at hs
      exact ⟨hs.1, by simpa using hs.2⟩
    split at he
    · rename_i s hfind
      have := List.mem_of_find?_eq_some hfind
      obtain ⟨h1, h2⟩ := hstack s (by simpa using this)
      exact key s h1 h2 e he
    · rename_i s _ hhead
      have := List.mem_of_head? hhead
      obtain ⟨h1, h2⟩ := hstack s this
      exact key s h1 h2 e he
    · cases he

theorem totalValue_chain (segs : List (Segment T V)) (t : T) (P W : ℤ → V) (h : TruthfulAt segs t P W)
    (target : ℤ) (fs : List (VectorFunction T V)) (hc : LookupChain segs target fs) (x : V × V)
    (hx : totalValue fs t = some x) : x = (P target - P 0, W target - W 0) := by
  induction hc generalizing x with
  | nil =>
    simp [totalValue, terms] at hx
    simp [← hx]
  | cons target first rest fs h0 hm _ ih =>
    rw [totalValue_append, totalValue_singleton] at hx
    unfold addValue at hx
    rw [Option.bind_eq_some_iff] at hx
    obtain ⟨a, ha, hx⟩ := hx
    rw [Option.map_eq_some_iff] at hx
    obtain ⟨b, hb, rfl⟩ := hx
    rw [ih a ha, segmentsFunction_value segs t P W h target first rest hm b hb]
    simp

/-- **C31.** The value of what indexing returns, at any time at which it can be evaluated, is the displacement from the
barycenter to the target — whatever positions `P` and velocities `W` of the bodies the segments were made from. -/
theorem C31_value (names : String → Option ℤ) (segs : List (Segment T V)) (fuel : ℕ) (arg : TargetArg) (target : ℤ)
    (f : VectorFunction T V) (hd : decode names segs arg = .ok target)
    (h : lookup names segs fuel arg = some (.ok f)) (t : T) (P W : ℤ → V) (hP : TruthfulAt segs t P W)
    (x : V × V) (hx : f.value t = some x) : x = (P target - P 0, W target - W 0) := by
  unfold lookup at h
  rw [hd] at h
  simp only at h
  split at h
  · cases h
  · cases h
  · rename_i g hg
    simp only [Option.some.injEq, Except.ok.injEq] at h
    subst h
    obtain ⟨fs, hc, e⟩ := lookupGo_ok segs fuel target [] _ hg
    rw [List.append_nil] at e
    refine totalValue_chain segs t P W hP target fs hc x ?_
    rw [← e, totalValue_singleton]; exact hx
  · rename_i fs hne hg
    simp only [Option.some.injEq, Except.ok.injEq] at h
    subst h
    obtain ⟨fs', hc, e⟩ := lookupGo_ok segs fuel target [] _ hg
    rw [List.append_nil] at e
    subst e
    by_cases hfs : fs = []
    · subst hfs
      exfalso
      unfold VectorFunction.value at hx
      rw [VectorFunction.at_] at hx
      simp [terms, sumTerms] at hx
    · rw [value_sum _ _ _ hfs] at hx
      exact totalValue_chain segs t P W hP target fs hc x hx

/-- **C31.** ... and it is the sum, in order from the barycenter, of one vector for each step of the chain: the value of a
segment, or of a stack of the segments with the same ends. -/
theorem C31_chain (names : String → Option ℤ) (segs : List (Segment T V)) (fuel : ℕ) (arg : TargetArg) (target : ℤ)
    (f : VectorFunction T V) (hd : decode names segs arg = .ok target) (h0 : target ≠ 0)
    (h : lookup names segs fuel arg = some (.ok f)) :
    ∃ fs, LookupChain segs target fs ∧ EndToEnd 0 target fs ∧ ∀ t, f.value t = totalValue fs t := by
  unfold lookup at h
  rw [hd] at h
  simp only at h
  split at h
  · cases h
  · cases h
  · rename_i g hg
    simp only [Option.some.injEq, Except.ok.injEq] at h
    subst h
    obtain ⟨fs, hc, e⟩ := lookupGo_ok segs fuel target [] _ hg
    rw [List.append_nil] at e
    exact ⟨fs, hc, chain_endToEnd segs target fs hc, fun t => by rw [← e, totalValue_singleton]⟩
  · rename_i fs hne hg
    simp only [Option.some.injEq, Except.ok.injEq] at h
    subst h
    obtain ⟨fs', hc, e⟩ := lookupGo_ok segs fuel target [] _ hg
    rw [List.append_nil] at e
    subst e
    refine ⟨fs, hc, chain_endToEnd segs target fs hc, fun t => value_sum _ _ _ ?_ t⟩
    intro hnil
    have : EndToEnd 0 target fs := chain_endToEnd segs target fs hc
    rw [hnil] at this
    exact h0 this.symm

/-- **C31.** For segments that form a forest (each goes from a body to one further out), the search always ends: with
the vector function, or with an error, which is raised exactly if some body on the way back to the barycenter has
no segment. -/
theorem C31_terminates (names : String → Option ℤ) (segs : List (Segment T V)) (rank : ℤ → ℕ)
    (hrank : ∀ s ∈ segs, rank s.center < rank s.target) (arg : TargetArg) (target : ℤ)
    (hd : decode names segs arg = .ok target) (fuel : ℕ) (hfuel : rank target < fuel) :
    (∃ f, lookup names segs fuel arg = some (.ok f) ∧ ∃ fs, LookupChain segs target fs) ∨
    (lookup names segs fuel arg = some (.error .disconnected) ∧ ¬ ∃ fs, LookupChain segs target fs) := by
  have key : ∀ fuel target acc, rank target < fuel →
      (∃ out, lookupGo segs fuel target acc = some (.ok out) ∧ ∃ fs, LookupChain segs target fs) ∨
      (lookupGo segs fuel target acc = some (.error .disconnected) ∧ ¬ ∃ fs, LookupChain segs target fs) := by
    intro fuel
    induction fuel with
    | zero => intro target acc h; omega
    | succ fuel ih =>
      intro target acc h
      rw [lookupGo]
      split_ifs with h0
      · left; subst h0; exact ⟨acc, rfl, [], LookupChain.nil⟩
      · split
        · rename_i hm
          right
          refine ⟨rfl, ?_⟩
          rintro ⟨fs, hc⟩
          cases hc with
          | nil => exact h0 rfl
          | cons _ first rest fs _ hm' _ => rw [hm] at hm'; cases hm'
        · rename_i first rest hm
          have hf : first ∈ segs ∧ first.target = target := by
            have : first ∈ segs.filter fun s => s.target = target := by rw [hm]; simp
            rw [List.mem_filter] at this
            exact ⟨this.1, by simpa using this.2⟩
          have := hrank first hf.1
          rw [hf.2] at this
          rcases ih first.center (segmentsFunction first rest :: acc) (by omega) with ⟨out, h1, fs, h2⟩ | ⟨h1, h2⟩
          · left; exact ⟨out, h1, _, LookupChain.cons target first rest fs h0 hm h2⟩
          · right
            refine ⟨h1, ?_⟩
            rintro ⟨fs, hc⟩
            cases hc with
            | nil => exact h0 rfl
            | cons _ first' rest' fs _ hm' hc' =>
              rw [hm, List.cons.injEq] at hm'
              obtain ⟨rfl, rfl⟩ := hm'
              exact h2 ⟨fs, hc'⟩
  unfold lookup
  rw [hd]
  simp only
  rcases key fuel target [] hfuel with ⟨out, h1, h2⟩ | ⟨h1, h2⟩
  · left
    rw [h1]
    match out with
    | [f] => exact ⟨f, rfl, h2⟩
    | [] => exact ⟨_, rfl, h2⟩
    | f :: g :: fs => exact ⟨_, rfl, h2⟩
  · right
    rw [h1]
    exact ⟨rfl, h2⟩

/-- **C31.** A name or number is accepted exactly if it occurs in the file, as `in` reports; otherwise indexing raises. -/
theorem C31_contains (names : String → Option ℤ) (segs : List (Segment T V)) (arg : TargetArg) :
    (kernelContains names segs arg = true ↔ ∃ n, decode names segs arg = .ok n) ∧
    (kernelContains names segs arg = false → ∀ fuel, lookup names segs fuel arg = some (.error .missing)) := by
  unfold kernelContains lookup decode
  cases arg with
  | code n => by_cases h : n ∈ codes segs <;> simp [h]
  | name s =>
    cases hn : names s.toUpper with
    | none => simp [hn]
    | some n => by_cases h : n ∈ codes segs <;> simp [hn, h]

/-- **C31.** The numbers a file knows are exactly those of the centers and of the targets of its segments, whether asked for
by number or, in any mixture of cases, by name. -/
theorem C31_known (names : String → Option ℤ) (segs : List (Segment T V)) :
    (∀ n, kernelContains names segs (.code n) = true ↔ ∃ s ∈ segs, s.center = n ∨ s.target = n) ∧
    (∀ s, kernelContains names segs (.name s) = true ↔
      ∃ n, names s.toUpper = some n ∧ ∃ s ∈ segs, s.center = n ∨ s.target = n) ∧
    (∀ n, (∃ s ∈ segs, s.center = n ∨ s.target = n) → decode names segs (.code n) = .ok n) ∧
    (∀ s n, names s.toUpper = some n → (∃ s ∈ segs, s.center = n ∨ s.target = n) →
      decode names segs (.name s) = .ok n) := by
  have key : ∀ n, n ∈ codes segs ↔ ∃ s ∈ segs, s.center = n ∨ s.target = n := by
    intro n
    unfold codes
    simp only [List.mem_append, List.mem_map]
    constructor
    · rintro (⟨s, h1, h2⟩ | ⟨s, h1, h2⟩)
      · exact ⟨s, h1, .inl h2⟩
      · exact ⟨s, h1, .inr h2⟩
    · rintro ⟨s, h1, h2 | h2⟩
      · exact .inl ⟨s, h1, h2⟩
      · exact .inr ⟨s, h1, h2⟩
  refine ⟨fun n => ?_, fun s => ?_, fun n h => ?_, fun s n hn h => ?_⟩
  · rw [← key]; unfold kernelContains; simp
  · unfold kernelContains
    cases hn : names s.toUpper with
    | none => simp [hn]
    | some n => simp [hn, key]
  · rw [← key] at h; unfold decode; simp [h]
  · rw [← key] at h; unfold decode; simp [hn, h]

/-- **C31, limitation.** If two segments form a loop that does not contain the barycenter, indexing never returns. -/
theorem C31_loop (names : String → Option ℤ) (s r : Segment T V) (hs : s.target = 1 ∧ s.center = 2)
    (hr : r.target = 2 ∧ r.center = 1) (fuel : ℕ) : lookup names [s, r] fuel (.code 1) = none := by
  have key : ∀ fuel acc, lookupGo [s, r] fuel 1 acc = none ∧ lookupGo [s, r] fuel 2 acc = none := by
    intro fuel
    induction fuel with
    | zero => intro acc; exact ⟨rfl, rfl⟩
    | succ fuel ih =>
      intro acc
      constructor
      · rw [lookupGo]
        simp [hs, hr, (ih _).2]
      · rw [lookupGo]
        simp [hs, hr, (ih _).1]
  unfold lookup decode codes
  simp [hs, hr, (key fuel []).1]

/-- **C31, limitation.** The barycenter itself can be looked up but not evaluated: `at()` raises at every time. -/
theorem C31_barycenter (names : String → Option ℤ) (segs : List (Segment T V)) (h : ∃ s ∈ segs, s.center = 0 ∨ s.target = 0)
    (fuel : ℕ) (t : T) :
    ∃ f, lookup names segs (fuel + 1) (.code 0) = some (.ok f) ∧ f.at_ t = none := by
  refine ⟨.sum 0 0 [], ?_, ?_⟩
  · unfold lookup
    simp [(C31_known names segs).2.2.1 0 h, lookupGo]
  · rw [VectorFunction.at_]; simp [terms, sumTerms]

/-- **C31, limitation.** Only the center of the first segment for a body is tried: here body 1 has a segment from the
barycenter, but one from an unconnected body comes first, and indexing raises. -/
theorem C31_first_center_only (names : String → Option ℤ) (s r : Segment T V) (hs : s.target = 1 ∧ s.center = 7)
    (hr : r.target = 1 ∧ r.center = 0) (fuel : ℕ) :
    lookup names [s, r] (fuel + 2) (.code 1) = some (.error .disconnected) := by
  unfold lookup decode codes
  simp [hs, hr, lookupGo]

/-! ### Non-vacuity -/

/-- A planet with a moon: barycenter 0, planet 3, moon 301 in two segments (before and after date 10). -/
def demoSegments : List (Segment ℕ ℤ) :=
  [⟨0, 3, fun _ => true, fun t => some ⟨t, 1, none⟩⟩,
   ⟨3, 301, fun t => t ≤ 10, fun t => if t ≤ 10 then some ⟨100, 0, none⟩ else none⟩,
   ⟨3, 301, fun t => 10 ≤ t, fun t => if 10 ≤ t then some ⟨100, 0, none⟩ else none⟩]

example : ∃ f, lookup (fun _ => none) demoSegments 5 (.code 301) = some (.ok f) ∧
    f.value 7 = some (107, 1) ∧ f.value 13 = some (113, 1) := ⟨_, rfl, by decide, by decide⟩

example : TruthfulAt demoSegments 13 (fun n => if n = 3 then 13 else if n = 301 then 113 else 0)
    (fun n => if n = 3 then 1 else if n = 301 then 1 else 0) := by
  intro s hs e he
  simp only [demoSegments, List.mem_cons, List.not_mem_nil, or_false] at hs
  rcases hs with rfl | rfl | rfl <;> simp at he <;> subst he <;> decide

example : Sound (demoSegments.drop 1) := by
  intro s hs t hc
  simp only [demoSegments, List.drop_succ_cons, List.drop_zero, List.mem_cons, List.not_mem_nil, or_false] at hs
  rcases hs with rfl | rfl <;> simp at hc <;> exact ⟨_, if_pos hc⟩

/-- An observer on the surface of the Earth: barycenter → Earth → observer. -/
example : ∃ e, (VectorFunction.sum 0 1000 [.leaf 0 399 (fun _ : ℕ => some ⟨(5 : ℤ), 0, none⟩),
    .leaf 399 1000 (fun _ => some ⟨2, 0, none⟩)]).at_ 0 = some e ∧ e.gcrs = some 2 := ⟨_, rfl, rfl⟩

end
end Skyfield
