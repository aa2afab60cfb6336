import Mathlib.Tactic.Tauto
import Std.Data.String.ToInt
import Mathlib.Tactic.Push
import Verif.Model.Descriptions
import Verif.Model.KernelFile
import Verif.Spec.Descriptions

/-
C95: what is printed for vectors, positions, satellites and stars.
-/
namespace Skyfield
open Spec

/-! ### Sums of vectors -/

/-- A vector as a user writes it. -/
inductive DescribedExpr
  | body (kind : List Char) (center : ℤ) (target : Endpoint)
  | neg (e : DescribedExpr)
  | add (a b : DescribedExpr)
  | sub (a b : DescribedExpr)

/-- The vector that comes of it, if no exception is raised. -/
def DescribedExpr.build : DescribedExpr → Option NamedVector
  | .body k c t => some (.body k c t)
  | .neg e => e.build.map NamedVector.neg
  | .add a b => a.build.bind fun a => b.build.bind fun b => a.add b
  | .sub a b => a.build.bind fun a => b.build.bind fun b => a.sub b

/-- Only bodies are negated, not sums. -/
def DescribedExpr.NegatesBodies : DescribedExpr → Prop
  | .body _ _ _ => True
  | .neg (.body _ _ _) => True
  | .neg _ => False
  | .add a b => a.NegatesBodies ∧ b.NegatesBodies
  | .sub a b => a.NegatesBodies ∧ b.NegatesBodies

/-- Every body leads to a place that is called by its number, or by the name of its class. -/
def DescribedExpr.PlainEnds : DescribedExpr → Prop
  | .body _ _ (.code _) => True
  | .body _ _ (.thing _ cls name _) => name = some cls
  | .neg e => e.PlainEnds
  | .add a b => a.PlainEnds ∧ b.PlainEnds
  | .sub a b => a.PlainEnds ∧ b.PlainEnds

section
variable (names : ℤ → Option (List Char))

/-- The names that the vector prints are those of its ends. -/
private def Truthful (f : NamedVector) : Prop :=
  f.centerName names = f.center.targetName names ∧ f.targetName names = f.target.targetName names

/-- The end is called by its number, or by the name of its class. -/
private def Plain (p : Endpoint) : Prop := p.targetName names = some (jplName names p)

private def endsMeet : Endpoint → Endpoint → List NamedVector → Prop
  | _, _, [] => False
  | a, b, [f] => f.center = a ∧ f.target = b
  | a, b, f :: g :: fs => f.center = a ∧ endsMeet f.target b (g :: fs)

private theorem endsMeet_append : ∀ (xs ys : List NamedVector) (a b c : Endpoint), endsMeet a b xs → endsMeet b c ys →
    endsMeet a c (xs ++ ys)
  | [], _, _, _, _, h, _ => h.elim
  | [f], [], _, _, _, _, h => h.elim
  | [f], g :: ys, a, b, c, h, h' => by
    obtain ⟨h1, h2⟩ := h
    refine ⟨h1, ?_⟩
    rw [h2]
    exact h'
  | f :: g :: xs, ys, a, b, c, h, h' => ⟨h.1, endsMeet_append (g :: xs) ys _ b c h.2 h'⟩

private theorem named_neg_ends (f : NamedVector) : f.neg.center = f.target ∧ f.neg.target = f.center := by
  cases f <;> simp [NamedVector.neg, NamedVector.center, NamedVector.target]

private theorem endsMeet_reverse : ∀ (xs : List NamedVector) (a b : Endpoint), endsMeet a b xs →
    endsMeet b a (xs.map NamedVector.neg).reverse
  | [], _, _, h => h.elim
  | [f], a, b, h => by
    obtain ⟨h1, h2⟩ := named_neg_ends f
    exact ⟨h1.trans h.2, h2.trans h.1⟩
  | f :: g :: xs, a, b, h => by
    have ih := endsMeet_reverse (g :: xs) _ b h.2
    rw [List.map_cons, List.reverse_cons]
    refine endsMeet_append _ _ _ _ _ ih ?_
    obtain ⟨h1, h2⟩ := named_neg_ends f
    exact ⟨h1, h2.trans h.1⟩

private def partsMeet (f : NamedVector) : Prop := endsMeet f.center f.target f.parts

private theorem neg_parts_meet (f : NamedVector) (h : partsMeet f) (hs : ∀ g, f = .reversed g → partsMeet g) : partsMeet f.neg := by
  cases f with
  | body k c t => exact ⟨rfl, rfl⟩
  | reversed g => exact hs g rfl
  | sum c t fs => exact ⟨rfl, rfl⟩

private theorem truthful_neg (f : NamedVector) (h : Truthful names f) : Truthful names f.neg := by
  cases f with
  | body k c t => exact ⟨h.2, h.1⟩
  | reversed g => exact ⟨h.2, h.1⟩
  | sum c t fs => exact ⟨h.2, h.1⟩

/-- What is kept by `+`, `-` and negation. -/
private structure Kept (f : NamedVector) : Prop where
  meet : partsMeet f
  under : ∀ g, f = .reversed g → partsMeet g
  parts : ∀ g ∈ f.parts, Truthful names g
  full : ∀ c t, f ≠ .sum c t []

private theorem kept_add (a b f : NamedVector) (ha : Kept names a) (hb : Kept names b) (h : a.add b = some f) : Kept names f := by
  have one : ∀ x y : NamedVector, Kept names x → Kept names y → x.target = y.center →
      Kept names (.sum x.center y.target (x.parts ++ y.parts)) := by
    intro x y hx hy hxy
    have hm : endsMeet x.center y.target (x.parts ++ y.parts) := by
      refine endsMeet_append _ _ _ x.target _ hx.meet ?_
      rw [hxy]
      exact hy.meet
    have hne : ∃ g gs, x.parts ++ y.parts = g :: gs := by
      rcases hc : x.parts ++ y.parts with _ | ⟨g, gs⟩
      · rw [hc] at hm
        exact hm.elim
      · exact ⟨g, gs, rfl⟩
    obtain ⟨g, gs, hg⟩ := hne
    rw [hg] at hm ⊢
    refine ⟨hm, by simp, ?_, by simp⟩
    intro p hp
    have hp' : p ∈ x.parts ++ y.parts := by
      rw [hg]
      exact hp
    rcases List.mem_append.mp hp' with hp' | hp'
    · exact hx.parts p hp'
    · exact hy.parts p hp'
  unfold NamedVector.add at h
  by_cases h1 : a.target = b.center
  · rw [if_neg (by simpa using h1)] at h
    obtain rfl := Option.some.inj h
    exact one a b ha hb h1
  · rw [if_pos h1] at h
    by_cases h2 : b.target = a.center
    · rw [if_pos h2] at h
      obtain rfl := Option.some.inj h
      exact one b a hb ha h2
    · rw [if_neg h2] at h
      exact absurd h (by simp)

private theorem kept_sub (a b f : NamedVector) (ha : Kept names a) (hb : Kept names b) (h : a.sub b = some f) : Kept names f := by
  unfold NamedVector.sub at h
  by_cases h1 : a.center = b.center
  · rw [if_neg (by simpa using h1)] at h
    obtain rfl := Option.some.inj h
    have hm : endsMeet b.target a.target ((b.parts.map NamedVector.neg).reverse ++ a.parts) := by
      refine endsMeet_append _ _ _ b.center _ (endsMeet_reverse _ _ _ hb.meet) ?_
      rw [← h1]
      exact ha.meet
    have hne : ∃ g gs, (b.parts.map NamedVector.neg).reverse ++ a.parts = g :: gs := by
      rcases hc : (b.parts.map NamedVector.neg).reverse ++ a.parts with _ | ⟨g, gs⟩
      · rw [hc] at hm
        exact hm.elim
      · exact ⟨g, gs, rfl⟩
    obtain ⟨g, gs, hg⟩ := hne
    have hall : ∀ p ∈ (b.parts.map NamedVector.neg).reverse ++ a.parts, Truthful names p := by
      intro p hp
      rcases List.mem_append.mp hp with hp | hp
      · rw [List.mem_reverse, List.mem_map] at hp
        obtain ⟨q, hq, rfl⟩ := hp
        exact truthful_neg names q (hb.parts q hq)
      · exact ha.parts p hp
    rw [hg] at hm hall ⊢
    exact ⟨hm, by simp, hall, by simp⟩
  · rw [if_pos h1] at h
    exact absurd h (by simp)

private theorem kept_body (k : List Char) (c : ℤ) (t : Endpoint) : Kept names (.body k c t) := by
  refine ⟨⟨rfl, rfl⟩, by simp, ?_, by simp⟩
  intro g hg
  obtain rfl := List.mem_singleton.mp hg
  exact ⟨rfl, rfl⟩

private theorem kept_of_negates (e : DescribedExpr) (he : e.NegatesBodies) (f : NamedVector) (h : e.build = some f) : Kept names f := by
  induction e generalizing f with
  | body k c t =>
    obtain rfl := Option.some.inj h
    exact kept_body names k c t
  | neg e ih =>
    cases e with
    | body k c t =>
      obtain rfl := Option.some.inj h
      refine ⟨⟨rfl, rfl⟩, ?_, ?_, by simp [NamedVector.neg]⟩
      · intro g hg
        obtain rfl := NamedVector.reversed.inj hg
        exact ⟨rfl, rfl⟩
      · intro g hg
        obtain rfl := List.mem_singleton.mp hg
        exact ⟨rfl, rfl⟩
    | neg e => exact he.elim
    | add a b => exact he.elim
    | sub a b => exact he.elim
  | add a b iha ihb =>
    simp only [DescribedExpr.build, Option.bind_eq_some_iff] at h
    obtain ⟨x, hx, y, hy, h⟩ := h
    exact kept_add names x y f (iha he.1 x hx) (ihb he.2 y hy) h
  | sub a b iha ihb =>
    simp only [DescribedExpr.build, Option.bind_eq_some_iff] at h
    obtain ⟨x, hx, y, hy, h⟩ := h
    exact kept_sub names x y f (iha he.1 x hx) (ihb he.2 y hy) h

private structure KeptPlain (f : NamedVector) : Prop extends Kept names f where
  ends : Plain names f.center ∧ Plain names f.target
  whole : Truthful names f
  keptUnder : ∀ g, f = .reversed g → Kept names g
  flat : ∀ g, f ≠ .reversed (.reversed g)

private theorem truthful_sum (c t : Endpoint) (fs : List NamedVector) (hc : Plain names c) (ht : Plain names t) :
    Truthful names (.sum c t fs) := by
  refine ⟨?_, ?_⟩
  · rw [NamedVector.centerName, NamedVector.center, hc]
  · rw [NamedVector.targetName, NamedVector.target, ht]

private theorem kept_of_plain (e : DescribedExpr) (he : e.PlainEnds) (f : NamedVector) (h : e.build = some f) : KeptPlain names f := by
  induction e generalizing f with
  | body k c t =>
    obtain rfl := Option.some.inj h
    refine { kept_body names k c t with ends := ⟨rfl, ?_⟩, whole := ⟨rfl, rfl⟩, keptUnder := by simp, flat := by simp }
    cases t with
    | code n => rfl
    | thing id cls name str => exact he
  | neg e ih =>
    simp only [DescribedExpr.build, Option.map_eq_some_iff] at h
    obtain ⟨g, hg, rfl⟩ := h
    have hk := ih he g hg
    obtain ⟨e1, e2⟩ := named_neg_ends g
    have hends : Plain names g.neg.center ∧ Plain names g.neg.target := by
      rw [e1, e2]
      exact ⟨hk.ends.2, hk.ends.1⟩
    have hw := truthful_neg names g hk.whole
    cases g with
    | reversed g' =>
      have hk' := hk.keptUnder g' rfl
      refine { hk' with ends := hends, whole := hw, keptUnder := ?_, flat := ?_ }
      · intro g'' hg''
        exact absurd (congrArg NamedVector.reversed hg'') (hk.flat g'')
      · intro g'' hg''
        exact absurd (congrArg NamedVector.reversed hg'') (hk.flat _)
    | body k c t =>
      refine ⟨⟨⟨rfl, rfl⟩, ?_, ?_, by simp [NamedVector.neg]⟩, hends, hw, ?_, by simp [NamedVector.neg]⟩
      · intro z hz
        obtain rfl := NamedVector.reversed.inj hz
        exact hk.meet
      · intro z hz
        obtain rfl := List.mem_singleton.mp hz
        exact hw
      · intro z hz
        obtain rfl := NamedVector.reversed.inj hz
        exact hk.toKept
    | sum c t fs =>
      refine ⟨⟨⟨rfl, rfl⟩, ?_, ?_, by simp [NamedVector.neg]⟩, hends, hw, ?_, by simp [NamedVector.neg]⟩
      · intro z hz
        obtain rfl := NamedVector.reversed.inj hz
        exact hk.meet
      · intro z hz
        obtain rfl := List.mem_singleton.mp hz
        exact hw
      · intro z hz
        obtain rfl := NamedVector.reversed.inj hz
        exact hk.toKept
  | add a b iha ihb =>
    simp only [DescribedExpr.build, Option.bind_eq_some_iff] at h
    obtain ⟨x, hx, y, hy, h⟩ := h
    have hx' := iha he.1 x hx
    have hy' := ihb he.2 y hy
    have hk := kept_add names x y f hx'.toKept hy'.toKept h
    obtain ⟨c, t, fs, rfl, hc, ht⟩ : ∃ c t fs, f = .sum c t fs ∧ Plain names c ∧ Plain names t := by
      unfold NamedVector.add at h
      split_ifs at h
      · exact ⟨_, _, _, (Option.some.inj h).symm, hy'.ends.1, hx'.ends.2⟩
      · exact ⟨_, _, _, (Option.some.inj h).symm, hx'.ends.1, hy'.ends.2⟩
    exact ⟨hk, ⟨hc, ht⟩, truthful_sum names c t fs hc ht, by simp, by simp⟩
  | sub a b iha ihb =>
    simp only [DescribedExpr.build, Option.bind_eq_some_iff] at h
    obtain ⟨x, hx, y, hy, h⟩ := h
    have hx' := iha he.1 x hx
    have hy' := ihb he.2 y hy
    have hk := kept_sub names x y f hx'.toKept hy'.toKept h
    obtain ⟨c, t, fs, rfl, hc, ht⟩ : ∃ c t fs, f = .sum c t fs ∧ Plain names c ∧ Plain names t := by
      unfold NamedVector.sub at h
      split_ifs at h
      exact ⟨_, _, _, (Option.some.inj h).symm, hy'.ends.2, hx'.ends.2⟩
    exact ⟨hk, ⟨hc, ht⟩, truthful_sum names c t fs hc ht, by simp, by simp⟩

private theorem leads_of_meet : ∀ (fs : List NamedVector) (a b : Endpoint), endsMeet a b fs → (∀ f ∈ fs, Truthful names f) →
    ∃ arrows, Leads (formatName (a.targetName names)) (formatName (b.targetName names)) arrows ∧
      fs.map (fun g => ' ' :: g.arrowStr names) = arrows.map Arrow.line ∧ fs.map NamedVector.vectorName = arrows.map Arrow.kind
  | [], _, _, h, _ => h.elim
  | [f], a, b, h, ht => by
    obtain ⟨h1, h2⟩ := ht f (by simp)
    refine ⟨_, .one f.vectorName _ _, ?_, by simp⟩
    simp [NamedVector.arrowStr, Arrow.line, h1, h2, h.1, h.2]
  | f :: g :: fs, a, b, h, ht => by
    obtain ⟨h1, h2⟩ := ht f (by simp)
    obtain ⟨arrows, hl, he, hk⟩ := leads_of_meet (g :: fs) f.target b h.2 fun x hx => ht x (by simp at hx ⊢; tauto)
    refine ⟨_, .cons f.vectorName _ _ _ arrows hl, ?_, ?_⟩
    · rw [List.map_cons, he, List.map_cons]
      simp [NamedVector.arrowStr, Arrow.line, h1, h2, h.1]
    · rw [List.map_cons, hk, List.map_cons]

/-- The ends of what is written, and the kinds of vectors to be listed, in order. -/
def DescribedExpr.ends : DescribedExpr → Option (Endpoint × Endpoint)
  | .body _ c t => some (.code c, t)
  | .neg e => e.ends.map fun p => (p.2, p.1)
  | .add a b => a.ends.bind fun x => b.ends.bind fun y =>
      if x.2 = y.1 then some (x.1, y.2) else if y.2 = x.1 then some (y.1, x.2) else none
  | .sub a b => a.ends.bind fun x => b.ends.bind fun y => if x.1 = y.1 then some (y.2, x.2) else none

private theorem build_ends (e : DescribedExpr) : e.build.map (fun f => (f.center, f.target)) = e.ends := by
  induction e with
  | body k c t => rfl
  | neg e ih =>
    rw [DescribedExpr.ends, ← ih, DescribedExpr.build, Option.map_map, Option.map_map]
    congr 1
    funext f
    simp [(named_neg_ends f).1, (named_neg_ends f).2]
  | add a b iha ihb =>
    rw [DescribedExpr.ends, ← iha, ← ihb, DescribedExpr.build]
    cases a.build with
    | none => rfl
    | some x =>
      cases b.build with
      | none => rfl
      | some y =>
        simp only [Option.bind_some, Option.map_some, NamedVector.add]
        by_cases h1 : x.target = y.center
        · simp [h1, NamedVector.center, NamedVector.target]
        · by_cases h2 : y.target = x.center <;> simp [h1, h2, NamedVector.center, NamedVector.target]
  | sub a b iha ihb =>
    rw [DescribedExpr.ends, ← iha, ← ihb, DescribedExpr.build]
    cases a.build with
    | none => rfl
    | some x =>
      cases b.build with
      | none => rfl
      | some y =>
        simp only [Option.bind_some, Option.map_some, NamedVector.sub]
        by_cases h1 : x.center = y.center <;> simp [h1, NamedVector.center, NamedVector.target]

/-- The vectors to be listed: the kind of each body, and whether it is reversed.  Subtracting reverses them. -/
def DescribedExpr.kinds : DescribedExpr → List (List Char × Bool)
  | .body k _ _ => [(k, false)]
  | .neg e => e.kinds.map fun p => (p.1, !p.2)
  | .add a b => a.kinds ++ b.kinds
  | .sub a b => a.kinds ++ b.kinds.map fun p => (p.1, !p.2)

/-- How the kind of a vector is printed. -/
def kindText (p : List Char × Bool) : List Char := if p.2 then "Reversed ".toList ++ p.1 else p.1

private def sgn : NamedVector → Option (List Char × Bool)
  | .body k _ _ => some (k, false)
  | .reversed (.body k _ _) => some (k, true)
  | _ => none

private theorem sgn_name (f : NamedVector) (p : List Char × Bool) (h : sgn f = some p) : f.vectorName = kindText p := by
  have h1 : ∀ k c t, (NamedVector.body k c t).vectorName = k := fun k c t => rfl
  have h2 : ∀ g, (NamedVector.reversed g).vectorName = "Reversed ".toList ++ g.vectorName := fun g => rfl
  cases f with
  | body k c t =>
    obtain rfl := Option.some.inj h
    rw [h1, kindText, if_neg Bool.false_ne_true]
  | reversed g =>
    cases g with
    | body k c t =>
      obtain rfl := Option.some.inj h
      rw [h2, h1, kindText, if_pos rfl]
    | reversed g => simp [sgn] at h
    | sum c t fs => simp [sgn] at h
  | sum c t fs => simp [sgn] at h

private theorem sgn_neg (f : NamedVector) (p : List Char × Bool) (h : sgn f = some p) : sgn f.neg = some (p.1, !p.2) := by
  match f, h with
  | .body k _ _, h =>
    obtain rfl := Option.some.inj h
    rfl
  | .reversed (.body k _ _), h =>
    obtain rfl := Option.some.inj h
    rfl

private theorem map_sgn_neg (l : List NamedVector) (ps : List (List Char × Bool)) (h : (l.map sgn).Perm (ps.map some)) :
    ((l.map NamedVector.neg).map sgn).Perm ((ps.map fun p => (p.1, !p.2)).map some) := by
  have h1 : (l.map NamedVector.neg).map sgn = (l.map sgn).map (Option.map fun p => (p.1, !p.2)) := by
    rw [List.map_map, List.map_map]
    refine List.map_congr_left fun f hf => ?_
    have : sgn f ∈ ps.map some := h.subset (List.mem_map_of_mem hf)
    obtain ⟨p, -, hp⟩ := List.mem_map.mp this
    rw [Function.comp_apply, Function.comp_apply, sgn_neg f p hp.symm, ← hp]
    rfl
  rw [h1]
  refine (h.map _).trans ?_
  rw [List.map_map, List.map_map]
  exact List.Perm.refl _

private theorem parts_kinds (e : DescribedExpr) (he : e.NegatesBodies) (f : NamedVector) (h : e.build = some f) :
    (f.parts.map sgn).Perm (e.kinds.map some) := by
  induction e generalizing f with
  | body k c t =>
    obtain rfl := Option.some.inj h
    exact List.Perm.refl _
  | neg e ih =>
    cases e with
    | body k c t =>
      obtain rfl := Option.some.inj h
      exact List.Perm.refl _
    | neg e => exact he.elim
    | add a b => exact he.elim
    | sub a b => exact he.elim
  | add a b iha ihb =>
    have hk := kept_of_negates (fun _ => none) _ he f h
    simp only [DescribedExpr.build, Option.bind_eq_some_iff] at h
    obtain ⟨x, hx, y, hy, h⟩ := h
    have h1 := iha he.1 x hx
    have h2 := ihb he.2 y hy
    have parts : ∀ c t fs, f = .sum c t fs → f.parts = fs := by
      rintro c t (_ | ⟨g, gs⟩) rfl
      · exact absurd rfl (hk.full c t)
      · rfl
    unfold NamedVector.add at h
    split_ifs at h
    · rw [parts _ _ _ (Option.some.inj h).symm, List.map_append, DescribedExpr.kinds, List.map_append]
      exact (h2.append h1).trans List.perm_append_comm
    · rw [parts _ _ _ (Option.some.inj h).symm, List.map_append, DescribedExpr.kinds, List.map_append]
      exact h1.append h2
  | sub a b iha ihb =>
    have hk := kept_of_negates (fun _ => none) _ he f h
    simp only [DescribedExpr.build, Option.bind_eq_some_iff] at h
    obtain ⟨x, hx, y, hy, h⟩ := h
    have h1 := iha he.1 x hx
    have h2 := map_sgn_neg _ _ (ihb he.2 y hy)
    have parts : ∀ c t fs, f = .sum c t fs → f.parts = fs := by
      rintro c t (_ | ⟨g, gs⟩) rfl
      · exact absurd rfl (hk.full c t)
      · rfl
    unfold NamedVector.sub at h
    split_ifs at h
    rw [parts _ _ _ (Option.some.inj h).symm, List.map_append, DescribedExpr.kinds, List.map_append, List.map_reverse]
    exact (((List.reverse_perm _).trans h2).append h1).trans List.perm_append_comm

private theorem map_kindText (l : List NamedVector) : ∀ ps : List (List Char × Bool), (l.map sgn).Perm (ps.map some) →
    (l.map NamedVector.vectorName).Perm (ps.map kindText) := by
  intro ps h
  have h1 : (l.map NamedVector.vectorName) = (l.map sgn).map (fun o => (o.map kindText).getD []) := by
    rw [List.map_map]
    refine List.map_congr_left fun f hf => ?_
    have : sgn f ∈ ps.map some := h.subset (List.mem_map_of_mem hf)
    obtain ⟨p, -, hp⟩ := List.mem_map.mp this
    rw [Function.comp_apply, ← hp, sgn_name f p hp.symm]
    rfl
  rw [h1]
  refine (h.map _).trans ?_
  rw [List.map_map]
  exact List.Perm.refl _

/-- **C95**: if only bodies are negated, the lines that a sum prints are those of the bodies that it was written with, each once,
called `Reversed` if it was subtracted (or negated) an odd number of times. -/
theorem C95_lines (e : DescribedExpr) (he : e.NegatesBodies) (c t : Endpoint) (fs : List NamedVector)
    (h : e.build = some (.sum c t fs)) : (fs.map NamedVector.vectorName).Perm (e.kinds.map kindText) := by
  have hk := kept_of_negates (fun _ => none) _ he _ h
  have := map_kindText _ _ (parts_kinds e he _ h)
  cases fs with
  | nil => exact absurd rfl (hk.full c t)
  | cons f fs => exact this

/-- **C95**: a sum or difference of vectors prints one line for each of the vectors it is made of, and the lines lead from the place
where it starts to the place where it ends, each starting, word for word, where the line before it stopped — if no sum was negated on
the way, or if every place is called by its code or its class. -/
theorem C95_sum (e : DescribedExpr) (he : e.NegatesBodies ∨ e.PlainEnds) (c t : Endpoint) (fs : List NamedVector)
    (h : e.build = some (.sum c t fs)) :
    e.ends = some (c, t) ∧
    ∃ arrows : List Arrow, Leads (formatName (c.targetName names)) (formatName (t.targetName names)) arrows ∧
      arrows.length = fs.length ∧ arrows.map Arrow.kind = fs.map NamedVector.vectorName ∧
      NamedVector.str names (.sum c t fs) =
        "Sum of ".toList ++ Nat.toDigits 10 arrows.length ++ " vectors:\n".toList ++ ['\n'].intercalate (arrows.map Arrow.line) := by
  have hk : Kept names (.sum c t fs) := by
    rcases he with he | he
    · exact kept_of_negates names e he _ h
    · exact (kept_of_plain names e he _ h).toKept
  refine ⟨?_, ?_⟩
  · rw [← build_ends, h]
    rfl
  · have hm : endsMeet c t (NamedVector.sum c t fs).parts := hk.meet
    have hp := hk.parts
    have hfs : (NamedVector.sum c t fs).parts = fs := by
      cases fs with
      | nil => exact absurd rfl (hk.full c t)
      | cons f fs => rfl
    rw [hfs] at hm hp
    obtain ⟨arrows, hl, hx, hkinds⟩ := leads_of_meet names fs c t hm hp
    have hlen : fs.length = arrows.length := by
      have := congrArg List.length hx
      rwa [List.length_map, List.length_map] at this
    refine ⟨arrows, hl, hlen.symm, hkinds.symm, ?_⟩
    have e1 : NamedVector.str names (.sum c t fs) = sumStr names fs := by rw [NamedVector.str]
    rw [e1]
    unfold sumStr
    simp only [hx, hlen]

end

/-- **C95** (where it fails): a sum that is negated loses the names of places, and so the lines that are printed no longer lead on: a
place on the Earth, minus itself by way of the negated sum, is called by its name at the end of one line and by its class at the start
of the next. -/
theorem C95_negated_sum (names : ℤ → Option (List Char)) (id : ℕ) (cls name str kind kind' : List Char) (hn : name ≠ cls) :
    ∃ fs, (DescribedExpr.add (.body kind 399 (.thing id cls (some name) str))
        (.neg (.add (.body kind' 0 (.code 399)) (.body kind 399 (.thing id cls (some name) str))))).build
          = some (.sum (.code 399) (.code 0) fs) ∧
      ∃ f g, fs = [f, g] ∧ f.targetName names = some name ∧ g.centerName names = some cls ∧ f.targetName names ≠ g.centerName names := by
  refine ⟨[.body kind 399 (.thing id cls (some name) str),
      .reversed (.sum (.code 0) (.thing id cls (some name) str)
        [.body kind' 0 (.code 399), .body kind 399 (.thing id cls (some name) str)])], ?_, _, _, rfl, rfl, rfl, ?_⟩
  · simp [DescribedExpr.build, NamedVector.add, NamedVector.neg, NamedVector.center, NamedVector.target, NamedVector.parts]
  · intro h
    exact hn (Option.some.inj h)

/-- **C95** (where it fails): an orbit without a name appears as `None` in the sums it is part of. -/
theorem C95_nameless_orbit (names : ℤ → Option (List Char)) (id : ℕ) (cls kind str : List Char) :
    ∃ c, (NamedVector.body kind 10 (.thing id cls none str)).arrowStr names = c ++ " -> None".toList := by
  refine ⟨kind ++ [' '] ++ jplName names (.code 10), ?_⟩
  have h1 : (NamedVector.body kind 10 (.thing id cls none str)).centerName names = some (jplName names (.code 10)) := rfl
  have h2 : (NamedVector.body kind 10 (.thing id cls none str)).targetName names = none := rfl
  have h3 : (NamedVector.body kind 10 (.thing id cls none str)).vectorName = kind := rfl
  have h4 : " -> None".toList = " -> ".toList ++ "None".toList := by decide
  rw [NamedVector.arrowStr, h1, h2, h3, h4, formatName, formatName, List.append_assoc, List.append_assoc]

/-! ### Positions -/

private theorem cut_at (c : Char) : ∀ l l' r r' : List Char, c ∉ l → c ∉ l' → l ++ c :: r = l' ++ c :: r' → l = l' ∧ r = r'
  | [], [], _, _, _, _, h => ⟨rfl, (List.cons.inj h).2⟩
  | [], d :: l', _, _, _, h2, h => absurd ((List.cons.inj h).1 ▸ List.mem_cons_self) h2
  | d :: l, [], _, _, h1, _, h => absurd ((List.cons.inj h).1 ▸ List.mem_cons_self) h1
  | d :: l, d' :: l', r, r', h1, h2, h => by
    obtain ⟨h3, h4⟩ := List.cons.inj h
    obtain ⟨h5, h6⟩ := cut_at c l l' r r' (fun hc => h1 (List.mem_cons_of_mem _ hc)) (fun hc => h2 (List.mem_cons_of_mem _ hc)) h4
    exact ⟨by rw [h3, h5], h6⟩

private theorem cut_last (c : Char) (l l' r r' : List Char) (h1 : c ∉ r) (h2 : c ∉ r') (h : l ++ c :: r = l' ++ c :: r') :
    l = l' ∧ r = r' := by
  have hr := congrArg List.reverse h
  rw [List.reverse_append, List.reverse_append, List.reverse_cons, List.reverse_cons, List.append_assoc, List.append_assoc] at hr
  obtain ⟨h3, h4⟩ := cut_at c r.reverse r'.reverse l.reverse l'.reverse (by simpa using h1) (by simpa using h2) hr
  exact ⟨List.reverse_injective h4, List.reverse_injective h3⟩

private theorem flag_inj (s r r' : List Char) (b b' : Bool) (hr : ¬ s <+: r) (hr' : ¬ s <+: r')
    (h : (if b then s else []) ++ r = (if b' then s else []) ++ r') : b = b' ∧ r = r' := by
  cases b <;> cases b'
  · exact ⟨rfl, by simpa using h⟩
  · exact absurd ⟨r', by simpa using h.symm⟩ hr
  · exact absurd ⟨r, by simpa using h⟩ hr'
  · exact ⟨rfl, by simpa using h⟩

private def placeText (word : List Char) : Option (List Char) → List Char
  | none => []
  | some x => word ++ x

private theorem suffix_cases (p : DescribedPosition) : p.suffix = [' ', 'B', 'C', 'R', 'S'] ∨ p.suffix = [' ', 'G', 'C', 'R', 'S'] ∨
    p.suffix = [' ', 'I', 'C', 'R', 'S'] ∨ p.suffix = [] := by
  unfold DescribedPosition.suffix
  split_ifs <;> simp

private theorem repr_eq (p : DescribedPosition) : p.repr = '<' :: (p.cls ++ (p.suffix ++ ([' ', 'p', 'o', 's', 'i', 't', 'i', 'o', 'n']
    ++ ((if p.velocity then [' ', 'a', 'n', 'd', ' ', 'v', 'e', 'l', 'o', 'c', 'i', 't', 'y'] else [])
    ++ ((if p.time then [' ', 'a', 't', ' ', 'd', 'a', 't', 'e', ' ', 't'] else [])
    ++ (placeText [' ', 'c', 'e', 'n', 't', 'e', 'r', '='] (p.center.map Endpoint.shown)
    ++ (placeText [' ', 't', 'a', 'r', 'g', 'e', 't', '='] (p.target.map Endpoint.shown) ++ ['>']))))))) := by
  rcases p with ⟨cls, v, t, c, tg⟩
  cases c <;> cases tg <;> rfl

private theorem places_inj (c c' t t' : Option (List Char)) (hc : ∀ x ∈ c, '=' ∉ x) (hc' : ∀ x ∈ c', '=' ∉ x)
    (h : placeText [' ', 'c', 'e', 'n', 't', 'e', 'r', '='] c ++ (placeText [' ', 't', 'a', 'r', 'g', 'e', 't', '='] t ++ ['>'])
      = placeText [' ', 'c', 'e', 'n', 't', 'e', 'r', '='] c' ++ (placeText [' ', 't', 'a', 'r', 'g', 'e', 't', '='] t' ++ ['>'])) :
    c = c' ∧ t = t' := by
  have last : ∀ x y : List Char, x ++ ['>'] = y ++ ['>'] → x = y := fun x y => (List.append_left_inj _).mp
  have one : ∀ x x' y : List Char, '=' ∉ x → x ++ ['>'] = x' ++ ' ' :: 't' :: 'a' :: 'r' :: 'g' :: 'e' :: 't' :: '=' :: (y ++ ['>']) →
      False := by
    intro x x' y hx he
    have hm : '=' ∈ x ++ ['>'] := by
      rw [he]
      simp
    rcases List.mem_append.mp hm with hm | hm
    · exact hx hm
    · simp at hm
  cases c with
  | none =>
    cases c' with
    | none =>
      cases t <;> cases t' <;> simp [placeText] at h ⊢
      exact h
    | some x' => cases t <;> cases t' <;> simp [placeText] at h
  | some x =>
    have hx := hc x rfl
    cases c' with
    | none => cases t <;> cases t' <;> simp [placeText] at h
    | some x' =>
      have hx' := hc' x' rfl
      cases t with
      | none =>
        cases t' with
        | none =>
          simp only [placeText, List.cons_append, List.nil_append, List.cons.injEq, true_and] at h
          exact ⟨by rw [last _ _ h], rfl⟩
        | some y' =>
          simp only [placeText, List.cons_append, List.nil_append, List.cons.injEq, true_and] at h
          exact (one x x' y' hx h).elim
      | some y =>
        cases t' with
        | none =>
          simp only [placeText, List.cons_append, List.nil_append, List.cons.injEq, true_and] at h
          exact (one x' x y hx' h.symm).elim
        | some y' =>
          simp only [placeText, List.cons_append, List.nil_append, List.cons.injEq, true_and] at h
          have h' : (x ++ [' ', 't', 'a', 'r', 'g', 'e', 't']) ++ '=' :: (y ++ ['>'])
              = (x' ++ [' ', 't', 'a', 'r', 'g', 'e', 't']) ++ '=' :: (y' ++ ['>']) := by
            simpa using h
          obtain ⟨h1, h2⟩ := cut_at '=' _ _ _ _ (by simp [hx]) (by simp [hx']) h'
          exact ⟨by rw [(List.append_left_inj _).mp h1], by rw [last _ _ h2]⟩

/-- **C95**: what a position prints tells everything it has to say: positions that print alike are of the same class, with respect to
the same system, both or neither have a velocity and a date, and they name the same center and target. -/
theorem C95_position (a b : DescribedPosition) (ha : ' ' ∉ a.cls) (hb : ' ' ∉ b.cls)
    (hca : ∀ c, a.center = some c → '=' ∉ c.shown) (hcb : ∀ c, b.center = some c → '=' ∉ c.shown) (h : a.repr = b.repr) :
    a.cls = b.cls ∧ a.suffix = b.suffix ∧ a.velocity = b.velocity ∧ a.time = b.time ∧
      a.center.map Endpoint.shown = b.center.map Endpoint.shown ∧ a.target.map Endpoint.shown = b.target.map Endpoint.shown := by
  rw [repr_eq, repr_eq] at h
  obtain ⟨A, hA⟩ : ∃ A, A = (if a.velocity then [' ', 'a', 'n', 'd', ' ', 'v', 'e', 'l', 'o', 'c', 'i', 't', 'y'] else [])
    ++ ((if a.time then [' ', 'a', 't', ' ', 'd', 'a', 't', 'e', ' ', 't'] else [])
    ++ (placeText [' ', 'c', 'e', 'n', 't', 'e', 'r', '='] (a.center.map Endpoint.shown)
    ++ (placeText [' ', 't', 'a', 'r', 'g', 'e', 't', '='] (a.target.map Endpoint.shown) ++ ['>']))) := ⟨_, rfl⟩
  obtain ⟨B, hB⟩ : ∃ B, B = (if b.velocity then [' ', 'a', 'n', 'd', ' ', 'v', 'e', 'l', 'o', 'c', 'i', 't', 'y'] else [])
    ++ ((if b.time then [' ', 'a', 't', ' ', 'd', 'a', 't', 'e', ' ', 't'] else [])
    ++ (placeText [' ', 'c', 'e', 'n', 't', 'e', 'r', '='] (b.center.map Endpoint.shown)
    ++ (placeText [' ', 't', 'a', 'r', 'g', 'e', 't', '='] (b.target.map Endpoint.shown) ++ ['>']))) := ⟨_, rfl⟩
  rw [← hA, ← hB] at h
  have h := (List.cons.inj h).2
  have hsplit : a.cls = b.cls ∧ a.suffix = b.suffix ∧ A = B := by
    rcases suffix_cases a with sa | sa | sa | sa <;> rcases suffix_cases b with sb | sb | sb | sb <;> rw [sa, sb] at h ⊢ <;>
    · simp only [List.cons_append, List.nil_append] at h
      obtain ⟨h1, h2⟩ := cut_at ' ' _ _ _ _ ha hb h
      simp at h2
      try exact ⟨h1, rfl, h2⟩
  obtain ⟨h1, h2, h3⟩ := hsplit
  rw [hA, hB] at h3
  have np : ∀ (t : Bool) (c g : Option (List Char)), ¬ [' ', 'a', 'n', 'd', ' ', 'v', 'e', 'l', 'o', 'c', 'i', 't', 'y'] <+:
      (if t then [' ', 'a', 't', ' ', 'd', 'a', 't', 'e', ' ', 't'] else []) ++ (placeText [' ', 'c', 'e', 'n', 't', 'e', 'r', '='] c
        ++ (placeText [' ', 't', 'a', 'r', 'g', 'e', 't', '='] g ++ ['>'])) := by
    intro t c g hp
    cases t <;> cases c <;> cases g <;> simp [placeText, List.cons_prefix_cons] at hp
  have np' : ∀ (c g : Option (List Char)), ¬ [' ', 'a', 't', ' ', 'd', 'a', 't', 'e', ' ', 't'] <+:
      (placeText [' ', 'c', 'e', 'n', 't', 'e', 'r', '='] c ++ (placeText [' ', 't', 'a', 'r', 'g', 'e', 't', '='] g ++ ['>'])) := by
    intro c g hp
    cases c <;> cases g <;> simp [placeText, List.cons_prefix_cons] at hp
  obtain ⟨h4, h5⟩ := flag_inj _ _ _ _ _ (np _ _ _) (np _ _ _) h3
  obtain ⟨h6, h7⟩ := flag_inj _ _ _ _ _ (np' _ _) (np' _ _) h5
  obtain ⟨h8, h9⟩ := places_inj _ _ _ _ (by simpa using hca) (by simpa using hcb) h7
  exact ⟨h1, h2, h4, h6, h8, h9⟩

private theorem digits_plain (n : ℕ) (c : Char) (hc : c ∈ Nat.toDigits 10 n) : c.isDigit = true :=
  Nat.isDigit_of_mem_toDigits (by decide) (by decide) hc

private theorem digits_inj (m n : ℕ) (h : Nat.toDigits 10 m = Nat.toDigits 10 n) : m = n := by
  have := congrArg (fun l => Nat.ofDigitChars 10 l 0) h
  simpa [Nat.ofDigitChars_toDigits] using this

private theorem int_plain (n : ℤ) (c : Char) (hc : c ∈ (toString n).toList) : c = '-' ∨ c.isDigit = true := by
  cases n with
  | ofNat m => exact Or.inr (digits_plain m c (by rwa [← Nat.toList_repr]))
  | negSucc m =>
    rw [show toString (Int.negSucc m) = "-" ++ Nat.repr (m + 1) from rfl, String.toList_append] at hc
    rcases List.mem_append.mp hc with hc | hc
    · exact Or.inl (by simpa using hc)
    · exact Or.inr (digits_plain (m + 1) c (by rwa [← Nat.toList_repr]))

private theorem int_inj (a b : ℤ) (h : (toString a).toList = (toString b).toList) : a = b :=
  Int.repr_injective (String.toList_injective h)

/-- **C95**: if the center and the target are bodies known by their codes, the text determines them too: two such positions that
print alike agree in everything. -/
theorem C95_position_codes (a b : DescribedPosition) (ha : ' ' ∉ a.cls) (hb : ' ' ∉ b.cls)
    (hca : ∀ e, a.center = some e ∨ a.target = some e → ∃ n, e = .code n)
    (hcb : ∀ e, b.center = some e ∨ b.target = some e → ∃ n, e = .code n) (h : a.repr = b.repr) : a = b := by
  have plain : ∀ n : ℤ, '=' ∉ (Endpoint.code n).shown := by
    intro n hm
    rcases int_plain n _ hm with h | h <;> exact absurd h (by decide)
  have inj : ∀ x y : Option Endpoint, (∀ e, x = some e → ∃ n, e = .code n) → (∀ e, y = some e → ∃ n, e = .code n) →
      x.map Endpoint.shown = y.map Endpoint.shown → x = y := by
    intro x y hx hy h
    cases x with
    | none =>
      cases y with
      | none => rfl
      | some f => simp at h
    | some e =>
      cases y with
      | none => simp at h
      | some f =>
        obtain ⟨m, rfl⟩ := hx e rfl
        obtain ⟨n, rfl⟩ := hy f rfl
        have h' : (toString m).toList = (toString n).toList := Option.some.inj h
        rw [int_inj m n h']
  obtain ⟨h1, h2, h3, h4, h5, h6⟩ := C95_position a b ha hb
    (fun c hc => by obtain ⟨n, rfl⟩ := hca c (Or.inl hc); exact plain n)
    (fun c hc => by obtain ⟨n, rfl⟩ := hcb c (Or.inl hc); exact plain n) h
  have h7 := inj a.center b.center (fun e he => hca e (Or.inl he)) (fun e he => hcb e (Or.inl he)) h5
  have h8 := inj a.target b.target (fun e he => hca e (Or.inr he)) (fun e he => hcb e (Or.inr he)) h6
  cases a
  cases b
  simp only at h1 h3 h4 h7 h8
  subst h1 h3 h4 h7 h8
  rfl

/-- **C95**: the names of bodies begin with their codes, so that bodies with different codes are never called alike, even if the table
of names gives them the same name. -/
theorem C95_codes (names : ℤ → Option (List Char)) (m n : ℤ) (h : jplName names (.code m) = jplName names (.code n)) : m = n := by
  have key : ∀ k : ℤ, (jplName names (.code k)).takeWhile (· ≠ ' ') = (toString k).toList := by
    intro k
    have hp : ∀ c ∈ (toString k).toList, decide (c ≠ ' ') = true := by
      intro c hc
      rw [decide_eq_true_iff]
      rintro rfl
      rcases int_plain k _ hc with h | h <;> exact absurd h (by decide)
    rw [jplName]
    cases names k with
    | none =>
      dsimp only
      have := List.takeWhile_append_of_pos (l₂ := []) hp
      simpa using this
    | some name =>
      dsimp only
      rw [List.takeWhile_append_of_pos hp]
      simp
  have := congrArg (List.takeWhile (· ≠ ' ')) h
  rw [key, key] at this
  exact int_inj m n this

/-- **C95**: the same holds for the names in the report of a kernel, of `numbered_name_of` and of messages. -/
theorem C95_numbered (names : ℤ → Option String) (m n : ℤ) :
    (formatCodeAndName names m = formatCodeAndName names n → m = n) ∧ (numberedNameOf names m = numberedNameOf names n → m = n) ∧
      (targetNameOf names m = targetNameOf names n → m = n) := by
  have blank : ∀ (k : ℤ) (s : String), (toString k ++ " " ++ s).toList = (toString k).toList ++ ' ' :: s.toList := by
    intro k s
    have : " ".toList = [' '] := by decide
    rw [String.toList_append, String.toList_append, this]
    simp
  have form : ∀ k, (formatCodeAndName names k).toList = jplName (fun c => (names c).map String.toList) (.code k) := by
    intro k
    rw [formatCodeAndName, jplName]
    cases names k with
    | none => rfl
    | some s => exact blank k s
  have rest : ∀ (word : String) (k : ℤ), (toString k ++ " " ++ (names k).getD word).toList
      = jplName (fun c => some ((names c).getD word).toList) (.code k) := fun word k => blank k _
  refine ⟨fun h => C95_codes (fun c => (names c).map String.toList) m n ?_,
    fun h => C95_codes (fun c => some ((names c).getD "(Unnamed)").toList) m n ?_,
    fun h => C95_codes (fun c => some ((names c).getD "UNKNOWN").toList) m n ?_⟩
  · rw [← form, ← form, h]
  · rw [← rest "(Unnamed)", ← rest "(Unnamed)"]
    exact congrArg String.toList h
  · rw [← rest "UNKNOWN", ← rest "UNKNOWN"]
    exact congrArg String.toList h

/-! ### Satellites and stars -/

/-- **C95**: satellites that print alike have the same name (none, or an empty one, counting as the same), the same catalog number and
an epoch that prints alike. -/
theorem C95_satellite (name name' : Option (List Char)) (num num' : ℕ) (epoch epoch' : List Char) (he : '#' ∉ epoch) (he' : '#' ∉ epoch')
    (h : satelliteName name num epoch = satelliteName name' num' epoch') :
    name.getD [] = name'.getD [] ∧ num = num' ∧ epoch = epoch' := by
  have form : ∀ (x : List Char) (k : ℕ) (e : List Char), satelliteName (some x) k e =
      (x ++ ((if x ≠ [] then [' '] else []) ++ ['c', 'a', 't', 'a', 'l', 'o', 'g', ' '])) ++
        '#' :: (Nat.toDigits 10 k ++ ' ' :: ('e' :: 'p' :: 'o' :: 'c' :: 'h' :: ' ' :: e)) := by
    intro x k e
    have h1 : "catalog #".toList = ['c', 'a', 't', 'a', 'l', 'o', 'g', ' ', '#'] := by decide
    have h2 : " epoch ".toList = [' ', 'e', 'p', 'o', 'c', 'h', ' '] := by decide
    rw [satelliteName, h1, h2]
    simp
  have same : ∀ (x : Option (List Char)) (k : ℕ) (e : List Char), satelliteName x k e = satelliteName (some (x.getD [])) k e := by
    intro x k e
    rfl
  rw [same, same name', form, form] at h
  have nohash : ∀ (k : ℕ) (e : List Char), '#' ∉ e →
      '#' ∉ (Nat.toDigits 10 k ++ ' ' :: ('e' :: 'p' :: 'o' :: 'c' :: 'h' :: ' ' :: e)) := by
    intro k e hne hm
    rw [List.mem_append] at hm
    rcases hm with hm | hm
    · exact absurd (digits_plain k _ hm) (by decide)
    · simp [hne] at hm
  obtain ⟨h2, h1⟩ := cut_last '#' _ _ _ _ (nohash num epoch he) (nohash num' epoch' he') h
  have noblank : ∀ k : ℕ, ' ' ∉ Nat.toDigits 10 k := fun k hm => absurd (digits_plain k _ hm) (by decide)
  obtain ⟨h3, h4⟩ := cut_at ' ' _ _ _ _ (noblank num) (noblank num') h1
  refine ⟨?_, digits_inj _ _ h3, by simpa using h4⟩
  rw [← List.append_assoc, ← List.append_assoc] at h2
  have h5 := List.append_cancel_right h2
  rcases List.eq_nil_or_concat (name.getD []) with hx | ⟨l, c, hx⟩
  all_goals rcases List.eq_nil_or_concat (name'.getD []) with hy | ⟨l', c', hy⟩
  all_goals simp [hx, hy] at h5 ⊢
  simpa using List.append_inj' h5 rfl

private theorem filterMap_inj {α β : Type*} (f g : α → Option β) (key : β → α) :
    ∀ l : List α, l.Nodup → (∀ n ∈ l, ∀ s, f n = some s → key s = n) → (∀ n ∈ l, ∀ s, g n = some s → key s = n) →
      l.filterMap f = l.filterMap g → ∀ n ∈ l, f n = g n
  | [], _, _, _, _ => by simp
  | a :: l, hd, hf, hg, h => by
    obtain ⟨ha, hd⟩ := List.nodup_cons.mp hd
    have hf' : ∀ n ∈ l, ∀ s, f n = some s → key s = n := fun n hn => hf n (List.mem_cons_of_mem _ hn)
    have hg' : ∀ n ∈ l, ∀ s, g n = some s → key s = n := fun n hn => hg n (List.mem_cons_of_mem _ hn)
    have miss : ∀ (k : α → Option β), (∀ n ∈ l, ∀ s, k n = some s → key s = n) → ∀ s ∈ l.filterMap k, key s ≠ a := by
      intro k hk s hs he
      obtain ⟨n, hn, hs⟩ := List.mem_filterMap.mp hs
      exact ha (he ▸ hk n hn s hs ▸ hn)
    have step : f a = g a ∧ l.filterMap f = l.filterMap g := by
      cases hfa : f a with
      | none =>
        cases hga : g a with
        | none =>
          rw [List.filterMap_cons_none hfa, List.filterMap_cons_none hga] at h
          exact ⟨rfl, h⟩
        | some t =>
          rw [List.filterMap_cons_none hfa, List.filterMap_cons_some hga] at h
          exact absurd (hg a List.mem_cons_self t hga) (miss f hf' t (h ▸ List.mem_cons_self))
      | some s =>
        cases hga : g a with
        | none =>
          rw [List.filterMap_cons_some hfa, List.filterMap_cons_none hga] at h
          exact absurd (hf a List.mem_cons_self s hfa) (miss g hg' s (h ▸ List.mem_cons_self))
        | some t =>
          rw [List.filterMap_cons_some hfa, List.filterMap_cons_some hga] at h
          obtain ⟨h1, h2⟩ := List.cons.inj h
          exact ⟨by rw [h1], h2⟩
    intro n hn
    rcases List.mem_cons.mp hn with rfl | hn
    · exact step.1
    · exact filterMap_inj f g key l hd hf' hg' step.2 n hn

private theorem commas_inj : ∀ l l' : List ℕ,
    [','].intercalate (l.map fun n => Nat.toDigits 10 n) = [','].intercalate (l'.map fun n => Nat.toDigits 10 n) → l = l' := by
  have nocomma : ∀ k : ℕ, ',' ∉ Nat.toDigits 10 k := fun k hm => absurd (digits_plain k _ hm) (by decide)
  have nonempty : ∀ k : ℕ, Nat.toDigits 10 k ≠ [] := by
    intro k hk
    have := Nat.length_toDigits_pos (b := 10) (n := k)
    rw [hk] at this
    simp at this
  have two : ∀ (a b : ℕ) (l : List ℕ), [','].intercalate ((a :: b :: l).map fun n => Nat.toDigits 10 n)
      = Nat.toDigits 10 a ++ ',' :: [','].intercalate ((b :: l).map fun n => Nat.toDigits 10 n) := by
    intro a b l
    simp [List.intercalate]
  have one : ∀ a : ℕ, [','].intercalate ([a].map fun n => Nat.toDigits 10 n) = Nat.toDigits 10 a := by
    intro a
    simp [List.intercalate]
  have nil : [','].intercalate (([] : List ℕ).map fun n => Nat.toDigits 10 n) = [] := by simp [List.intercalate]
  intro l
  induction l with
  | nil =>
    intro l' h
    rw [nil] at h
    match l', h with
    | [], _ => rfl
    | [a], h =>
      rw [one] at h
      exact absurd h.symm (nonempty a)
    | a :: b :: l', h =>
      rw [two] at h
      simp at h
  | cons a l ih =>
    intro l' h
    match l, l', h with
    | [], [], h =>
      rw [nil, one] at h
      exact absurd h (nonempty a)
    | b :: l, [], h =>
      rw [nil, two] at h
      simp at h
    | [], [a'], h =>
      rw [one, one] at h
      rw [digits_inj _ _ h]
    | [], a' :: b' :: l', h =>
      rw [one, two] at h
      exact absurd (h ▸ (by simp : ',' ∈ Nat.toDigits 10 a' ++ ',' :: [','].intercalate ((b' :: l').map fun n => Nat.toDigits 10 n)))
        (nocomma a)
    | b :: l, [a'], h =>
      rw [one, two] at h
      exact absurd (h ▸ (by simp : ',' ∈ Nat.toDigits 10 a ++ ',' :: [','].intercalate ((b :: l).map fun n => Nat.toDigits 10 n)))
        (nocomma a')
    | b :: l, a' :: b' :: l', h =>
      rw [two, two] at h
      obtain ⟨h1, h2⟩ := cut_at ',' _ _ _ _ (nocomma a) (nocomma a') h
      rw [digits_inj _ _ h1, ih _ h2]

/-- **C95**: the text of a star determines its values: stars that print the same options have the same right ascension, declination,
motions, parallax, names and epoch, as far as these can be told from how they print: an option that is left out is zero or empty, a
single value prints alike, an array has the same shape. -/
theorem C95_star (v w : String → StarValue) (h : starOptions v = starOptions w) :
    ∀ name ∈ ["ra", "dec", "ra_mas_per_year", "dec_mas_per_year", "parallax_mas", "radial_km_per_s", "names", "epoch"],
      v name = w name := by
  show ∀ name ∈ starOptionNames, v name = w name
  have plain : ∀ name ∈ starOptionNames, '=' ∉ name.toList ∧ ' ' ∉ name.toList := by decide
  have shape : " shape=".toList = [' ', 's', 'h', 'a', 'p', 'e', '='] := by decide
  have key : ∀ (u : String → StarValue), ∀ name ∈ starOptionNames, ∀ s, starOption name (u name) = some s →
      String.ofList (s.takeWhile fun c => c ≠ '=' ∧ c ≠ ' ') = name := by
    intro u name hn s hs
    obtain ⟨p1, p2⟩ := plain name hn
    have hp : ∀ c ∈ name.toList, decide (c ≠ '=' ∧ c ≠ ' ') = true := by
      intro c hc
      rw [decide_eq_true_iff]
      exact ⟨fun h => p1 (h ▸ hc), fun h => p2 (h ▸ hc)⟩
    cases hu : u name with
    | empty =>
      rw [hu] at hs
      cases hs
    | single r =>
      rw [hu] at hs
      obtain rfl := Option.some.inj hs
      rw [List.takeWhile_append_of_pos hp]
      simp
    | array sh =>
      rw [hu, starOption, shape] at hs
      obtain rfl := Option.some.inj hs
      rw [List.append_assoc, List.takeWhile_append_of_pos hp]
      simp
  have hall := filterMap_inj (fun name => starOption name (v name)) (fun name => starOption name (w name))
    (fun s => String.ofList (s.takeWhile fun c => c ≠ '=' ∧ c ≠ ' ')) starOptionNames (by decide) (key v) (key w) h
  intro name hn
  have he : starOption name (v name) = starOption name (w name) := hall name hn
  cases hv : v name <;> cases hw : w name <;> rw [hv, hw] at he <;> simp only [starOption, shape] at he
  all_goals first
    | rfl
    | (simp at he; done)
    | skip
  · simp at he
    rw [he]
  · simp at he
    rw [commas_inj _ _ he]

/-! ### Concrete cases -/

private def bluffton : Endpoint := .thing 1 "GeographicPosition".toList (some "WGS84 latitude +40.8939 N".toList) []

/-- `mars - (earth + bluffton)`, as in the documentation of vectors. -/
private def marsFromBluffton : DescribedExpr :=
  .sub (.add (.body "'de421.bsp' segment".toList 0 (.code 4)) (.body "'de421.bsp' segment".toList 4 (.code 499)))
    (.add (.body "'de421.bsp' segment".toList 0 (.code 399)) (.body "Geodetic".toList 399 bluffton))

example : marsFromBluffton.NegatesBodies ∧ (marsFromBluffton.build.map fun f => f.parts.length) = some 4 :=
  ⟨⟨⟨trivial, trivial⟩, trivial, trivial⟩, by decide⟩

example : ∃ c t fs, marsFromBluffton.build = some (.sum c t fs) := ⟨_, _, _, rfl⟩

example : (DescribedPosition.repr ⟨"Astrometric".toList, true, true, some (.code 399), some (.code 4)⟩)
    = "<Astrometric ICRS position and velocity at date t center=399 target=4>".toList := by decide

example : (DescribedPosition.repr ⟨"Apparent".toList, false, true, some (.code 399), none⟩)
    = "<Apparent GCRS position at date t center=399>".toList := by decide

example : satelliteName (some "ISS (ZARYA)".toList) 25544 "2014-01-20 22:23:04 UTC".toList
    = "ISS (ZARYA) catalog #25544 epoch 2014-01-20 22:23:04 UTC".toList := by decide

example : starOptions (fun name => if name = "ra" then .single "17.45".toList else if name = "epoch" then .array [3, 2] else .empty)
    = ["ra=17.45".toList, "epoch shape=3,2".toList] := by decide

end Skyfield
