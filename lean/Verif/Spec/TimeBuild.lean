import Verif.Model.TimeBuild

/-
What is expected of a time built from arrays: the member at an index is the time built from the arguments at that index, where an
argument that is a single number counts for every index.
-/
namespace Spec
open Skyfield

/-- An index into an array of the given shape. -/
def ValidIndex (shape index : List ℕ) : Prop := List.Forall₂ (fun n i => i < n) shape index

/-- An argument that is either a number or an array of the given shape. -/
def NumberOrShape {α : Type} (shape : List ℕ) (a : Nd α) : Prop := a.shape = [] ∨ a.shape = shape

/-- The value of an argument at an index. -/
def atIndex {α : Type} (a : Nd α) (index : List ℕ) : α := a.entry (if a.shape = [] then [] else index)

/-- The shape of an argument; a number has no axes. -/
def shapeOf : PyValue → List ℕ
  | .number _ => []
  | .sequence a => a.arr.shape
  | .array a => a.arr.shape

/-- The value of an argument at an index. -/
def valueAt : PyValue → List ℕ → ℝ
  | .number x, _ => x
  | .sequence a, i => atIndex a.arr i
  | .array a, i => atIndex a.arr i

/-- The argument is stored as floats (a Python number always is). -/
def HoldsFloats : PyValue → Prop
  | .number _ => True
  | .sequence a => a.ints = false
  | .array a => a.ints = false

/-- A date and a fraction that fit: arrays of one shape, or an array of floats of that shape and a number. -/
inductive DateAndFraction (shape : List ℕ) (jd fraction : PyValue) : Prop
  | both (h : shapeOf jd = shape) (h' : shapeOf fraction = shape)
  | dates (h : shapeOf jd = shape) (h' : shapeOf fraction = []) (f : HoldsFloats jd)
  | fractions (h : shapeOf jd = []) (h' : shapeOf fraction = shape) (f : HoldsFloats fraction)

/-- The member of a time at an index. -/
def timeAt (t : TimeNd) (index : List ℕ) : Time ℝ where
  ts := t.ts
  whole := t.whole.entry index
  ttFraction := t.ttFraction.entry index
  taiFraction? := t.taiFraction?.map (·.entry index)
  taiSeconds? := t.taiSeconds?.map fun s => (s.1.entry index, s.2.entry index)
  tdbFraction? := t.tdbFraction?.map (·.entry index)
  ut1Fraction? := t.ut1Fraction?.map (·.entry index)

/-- Every attribute of the time has the given shape. -/
structure TimeOfShape (t : TimeNd) (shape : List ℕ) : Prop where
  whole : t.whole.shape = shape
  tt : t.ttFraction.shape = shape
  tai : ∀ a ∈ t.taiFraction?, a.shape = shape
  seconds : ∀ a ∈ t.taiSeconds?, a.1.shape = shape ∧ a.2.shape = shape
  tdb : ∀ a ∈ t.tdbFraction?, a.shape = shape
  ut1 : ∀ a ∈ t.ut1Fraction?, a.shape = shape

/-- The six arguments of a calendar date are numbers or arrays of one shape, and at least one is an array. -/
structure CalendarOfShape (c : CalendarArrays) (shape : List ℕ) : Prop where
  year : NumberOrShape shape c.year
  month : NumberOrShape shape c.month
  day : NumberOrShape shape c.day
  hour : NumberOrShape shape c.hour
  minute : NumberOrShape shape c.minute
  second : NumberOrShape shape c.second
  some_array : c.year.shape = shape ∨ c.month.shape = shape ∨ c.day.shape = shape ∨ c.hour.shape = shape ∨
    c.minute.shape = shape ∨ c.second.shape = shape

end Spec
