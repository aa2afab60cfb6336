import Mathlib.Algebra.BigOperators.Group.Finset.Basic
import Mathlib.Data.Real.Basic

/-
NumPy arrays with their shapes, and NumPy's broadcasting.  NumPy is external: these are its documented semantics.  An array is a shape
and a value for every index; only indices within the shape matter.  `none` is the `ValueError` "operands could not be broadcast
together".
-/
namespace Skyfield

/-- An array: its shape, and its entries.
Used at skyfield/starlib.py:109-183, skyfield/functions.py:50-73 and skyfield/functions.py:166-207. -/
structure Nd (α : Type) where
  shape : List ℕ
  entry : List ℕ → α

namespace Nd
variable {α β γ : Type}

/-- A number, as an array without axes.
Used at skyfield/starlib.py:109-183, skyfield/functions.py:50-73 and skyfield/functions.py:166-207. -/
def scalar (x : α) : Nd α := ⟨[], fun _ => x⟩

/-- The length of an axis of the result, from those of the operands.
Used at skyfield/starlib.py:109-183, skyfield/functions.py:50-73 and skyfield/functions.py:166-207. -/
def bdim (a b : ℕ) : Option ℕ := if a = b then some a else if a = 1 then some b else if b = 1 then some a else none

/-- The shape of the result, last axis first.
Used at skyfield/starlib.py:109-183, skyfield/functions.py:50-73 and skyfield/functions.py:166-207. -/
def bshapeRev : List ℕ → List ℕ → Option (List ℕ)
  | [], b => some b
  | a, [] => some a
  | x :: a, y :: b => (bdim x y).bind fun d => (bshapeRev a b).map (d :: ·)

/-- The shape of the result of an elementwise operation: the shapes are aligned at their last axes.
Used at skyfield/starlib.py:109-183, skyfield/functions.py:50-73 and skyfield/functions.py:166-207. -/
def bshape (a b : List ℕ) : Option (List ℕ) := (bshapeRev a.reverse b.reverse).map List.reverse

/-- Which entry of an operand goes into the entry `index` of the result.
Used at skyfield/starlib.py:109-183, skyfield/functions.py:50-73 and skyfield/functions.py:166-207. -/
def bindex (shape index : List ℕ) : List ℕ :=
  List.zipWith (fun d i => if d = 1 then 0 else i) shape (index.drop (index.length - shape.length))

/-- An elementwise operation on one array.
Used at skyfield/starlib.py:109-183, skyfield/functions.py:50-73 and skyfield/functions.py:166-207. -/
def map (f : α → β) (a : Nd α) : Nd β := ⟨a.shape, fun i => f (a.entry i)⟩

/-- An elementwise operation on two arrays.
Used at skyfield/starlib.py:109-183, skyfield/functions.py:50-73 and skyfield/functions.py:166-207. -/
def map2 (f : α → β → γ) (a : Nd α) (b : Nd β) : Option (Nd γ) :=
  (bshape a.shape b.shape).map fun s => ⟨s, fun i => f (a.entry (bindex a.shape i)) (b.entry (bindex b.shape i))⟩

/-- `a.T`. Used at skyfield/starlib.py:109-183, skyfield/functions.py:50-73 and skyfield/functions.py:166-207. -/
def transpose (a : Nd α) : Nd α := ⟨a.shape.reverse, fun i => a.entry i.reverse⟩

/-- `a.sum(axis=0)`; `none` for an array without axes.
Used at skyfield/starlib.py:109-183, skyfield/functions.py:50-73 and skyfield/functions.py:166-207. -/
noncomputable def sum0 (a : Nd ℝ) : Option (Nd ℝ) :=
  match a.shape with
  | [] => none
  | n :: s => some ⟨s, fun i => ∑ k ∈ Finset.range n, a.entry (k :: i)⟩

/-- The index of the `k`-th entry of an array of the given shape, counted in C order.
Used at skyfield/starlib.py:109-183, skyfield/functions.py:50-73 and skyfield/functions.py:166-207. -/
def unravel : List ℕ → ℕ → List ℕ
  | [], _ => []
  | _ :: s, k => (k / s.prod) :: unravel s (k % s.prod)

/-- `outer(a, b)`: both operands are flattened.
Used at skyfield/starlib.py:109-183, skyfield/functions.py:50-73 and skyfield/functions.py:166-207. -/
def outer (f : α → β → γ) (a : Nd α) (b : Nd β) : Nd γ :=
  ⟨[a.shape.prod, b.shape.prod], fun i =>
    match i with
    | [p, q] => f (a.entry (unravel a.shape p)) (b.entry (unravel b.shape q))
    | _ => f (a.entry []) (b.entry [])⟩

/-- `einsum('a...,a...', a, b)`: the first axes are multiplied and summed, the others are aligned at their last axes and broadcast.
Used at skyfield/starlib.py:109-183, skyfield/functions.py:50-73 and skyfield/functions.py:166-207. -/
noncomputable def einsum0 (a b : Nd ℝ) : Option (Nd ℝ) :=
  match a.shape, b.shape with
  | n :: s, m :: r =>
    if n = m then
      (bshape s r).map fun d => ⟨d, fun i => ∑ k ∈ Finset.range n, a.entry (k :: bindex s i) * b.entry (k :: bindex r i)⟩
    else none
  | _, _ => none

/-- `a.reshape(a.shape + (1,) * n)`.
Used at skyfield/starlib.py:109-183, skyfield/functions.py:50-73 and skyfield/functions.py:166-207. -/
def addAxes (n : ℕ) (a : Nd α) : Nd α := ⟨a.shape ++ List.replicate n 1, fun i => a.entry (i.take a.shape.length)⟩

end Nd
end Skyfield
