import Mathlib.Data.List.Basic

/-
What the lines of a printed sum of vectors should look like.
-/
namespace Spec

/-- A line of the report: what kind of vector it is, where it starts and where it ends. -/
structure Arrow where
  kind : List Char
  start : List Char
  stop : List Char

/-- `kind start -> stop`, after a blank. -/
def Arrow.line (a : Arrow) : List Char := ' ' :: (a.kind ++ [' '] ++ a.start ++ [' ', '-', '>', ' '] ++ a.stop)

/-- The arrows lead from `a` to `b`, each starting at the place where the one before it stopped. -/
inductive Leads : List Char → List Char → List Arrow → Prop
  | one (k a b : List Char) : Leads a b [⟨k, a, b⟩]
  | cons (k a b c : List Char) (rest : List Arrow) : Leads b c rest → Leads a c (⟨k, a, b⟩ :: rest)

end Spec
