import Verif.Model.PowerLoss

/-
What may be left of the calls made on a file system when the power fails.
-/
namespace Spec
open Skyfield

/-- `kept` may be left of `calls` on a disk that is written to in the order of the calls: they are the first of them, where data may be cut off. -/
def KeptInOrder {β : Type*} (calls kept : List (Call β)) : Prop :=
  (∃ lost, calls = kept ++ lost) ∨ ∃ before lost p a b, calls = before ++ .append p (a ++ b) :: lost ∧ kept = before ++ [.append p a]

/-- `kept` may be left of `calls` on a disk that writes the directory in the order of the calls, but data when it gets to it: of each file, the data may be cut off anywhere.
If `dataFirst` holds, then the disk does not rename a file before it has written its data. -/
inductive Kept {β : Type*} (dataFirst : Prop) : List (Call β) → List (Call β) → Prop
  | rest (calls) : Kept dataFirst calls []
  | keep (c calls kept) : Kept dataFirst calls kept → Kept dataFirst (c :: calls) (c :: kept)
  | lose (p a b calls kept) : Kept dataFirst calls kept → (∀ d, .append p d ∉ kept) → (dataFirst → ∀ q, .rename p q ∉ kept) →
      Kept dataFirst (.append p (a ++ b) :: calls) (.append p a :: kept)

/-- What may be left on a disk that may rename a file before it has written its data. -/
abbrev KeptSeparately {β : Type*} (calls kept : List (Call β)) : Prop := Kept False calls kept

/-- What may be left on a disk that does not. -/
abbrev KeptDataFirst {β : Type*} (calls kept : List (Call β)) : Prop := Kept True calls kept

end Spec
