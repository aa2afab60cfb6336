import Mathlib.Tactic.TypeStar

/-
NumPy's masked reads and writes, as the array branches of skyfield use them.  NumPy is external: these are its documented
semantics for one-dimensional arrays.
-/
namespace Skyfield

/-- `xs[mask]`: the entries where the mask is true, in order. Used at skyfield/elementslib.py:265-280. -/
def pick {α : Type*} : List Bool → List α → List α
  | true :: m, x :: xs => x :: pick m xs
  | false :: m, _ :: xs => pick m xs
  | _, _ => []

/-- `base[mask] = values`: the values are written, in order, over the entries where the mask is true.
Used at skyfield/elementslib.py:265-280. -/
def put {α : Type*} : List α → List Bool → List α → List α
  | _ :: bs, true :: m, v :: vs => v :: put bs m vs
  | b :: bs, false :: m, vs => b :: put bs m vs
  | bs, _, _ => bs

/-- `where(mask, xs, ys)`. Used at skyfield/elementslib.py:265-280. -/
def npWhere {α : Type*} (mask : List Bool) (xs ys : List α) : List α :=
  List.zipWith (fun (c : Bool) (p : α × α) => if c then p.1 else p.2) mask (xs.zip ys)

/-- `f(xs, ys, out=out, where=mask)` for an elementwise function of two arrays such as `divide`: entries where the mask is
false keep what `out` held. Used at skyfield/elementslib.py:358-359 and 363-364. -/
def opWhere {α β γ : Type*} (f : α → β → γ) (xs : List α) (ys : List β) (out : List γ) (mask : List Bool) : List γ :=
  npWhere mask (List.zipWith f xs ys) out

end Skyfield
