import Verif.Model.TimeArith

/-
Model of arrays of times: `Time.__len__`, `Time.__getitem__` and iteration over a `Time` (skyfield/timelib.py:432-457), for
one-dimensional arrays.  A `Time` that holds an array stores a column (NumPy array) for each attribute; its `i`-th time is made of the
`i`-th entries of the columns, NumPy arithmetic being elementwise.
-/
namespace Skyfield
variable {K : Type*} [Field K] [LinearOrder K] [FloorRing K]

/-- What one can write between the brackets of a one-dimensional NumPy array: an integer, a slice, a list of integers, a list of booleans.
NumPy is external; these are its documented semantics. Used at skyfield/timelib.py:453-456. -/
inductive NpIndex
  | int (i : ℤ)
  | slice (start stop step : Option ℤ)
  | fancy (is : List ℤ)
  | mask (bs : List Bool)

/-- A number (or object) or an array of them. Used at skyfield/timelib.py:453-456. -/
inductive Shaped (α : Type*)
  | one (a : α)
  | many (l : List α)
deriving DecidableEq

/-- A function applied to a number or to each element. Used at skyfield/timelib.py:453-456. -/
def Shaped.map {α β : Type*} (f : α → β) : Shaped α → Shaped β
  | .one a => .one (f a)
  | .many l => .many (l.map f)

/-- The position that index `i` means in an array of length `n`; `none` is an `IndexError`.
Used at skyfield/timelib.py:453-456. -/
def normIndex (n : ℕ) (i : ℤ) : Option ℕ :=
  if 0 ≤ i ∧ i < n then some i.toNat else if -n ≤ i ∧ i < 0 then some (i + n).toNat else none

/-- One end of a slice, as `slice.indices` adjusts it: `lo` and `hi` are the limits, `dflt` is for an end not given.
Used at skyfield/timelib.py:453-456. -/
def sliceEnd (n : ℕ) (lo hi dflt : ℤ) (i : Option ℤ) : ℤ :=
  match i with
  | none => dflt
  | some i => if i < 0 then (if i + n < lo then lo else i + n) else if hi < i then hi else i

/-- The positions of a slice in an array of length `n` (Python's `slice.indices`); `none` is the `ValueError` for a step of zero.
Used at skyfield/timelib.py:453-456. -/
def slicePositions (n : ℕ) (start stop step : Option ℤ) : Option (List ℕ) :=
  let step := step.getD 1
  if step = 0 then none
  else if 0 < step then
    let a := sliceEnd n 0 n 0 start
    let b := sliceEnd n 0 n n stop
    let len := if a < b then (b - a - 1) / step + 1 else 0
    some ((List.range len.toNat).map fun k : ℕ => (a + k * step).toNat)
  else
    let a := sliceEnd n (-1) (n - 1) (n - 1) start
    let b := sliceEnd n (-1) (n - 1) (-1) stop
    let len := if b < a then (a - b - 1) / (-step) + 1 else 0
    some ((List.range len.toNat).map fun k : ℕ => (a + k * step).toNat)

/-- The positions an index selects in an array of length `n`. Used at skyfield/timelib.py:453-456. -/
def NpIndex.positions (n : ℕ) : NpIndex → Option (Shaped ℕ)
  | .int i => (normIndex n i).map .one
  | .slice a b c => (slicePositions n a b c).map .many
  | .fancy is => (is.mapM (normIndex n)).map .many
  | .mask bs => if bs.length = n then some (.many ((List.range n).filter fun k => bs[k]? = some true)) else none

/-- `l[idx]`. Used at skyfield/timelib.py:453-456. -/
def npGet {α : Type*} (l : List α) (idx : NpIndex) : Option (Shaped α) :=
  match idx.positions l.length with
  | none => none
  | some (.one k) => (l[k]?).map .one
  | some (.many ks) => (ks.mapM fun k => l[k]?).map .many

/-- A `Time` that holds an array — skyfield/timelib.py:424-430. -/
structure TimeArray (K : Type*) where
  ts : Timescale K
  whole : List K
  ttFraction : List K
  taiFraction? : Option (List K) := none
  taiSeconds? : Option (List K × List K) := none
  tdbFraction? : Option (List K) := none
  ut1Fraction? : Option (List K) := none

/-- A `Time`, of either shape. Used at skyfield/timelib.py:432-436. -/
inductive TimeAny (K : Type*)
  | single (t : Time K)
  | array (a : TimeArray K)

/-- The errors of `__len__` and `__getitem__`. Used at skyfield/timelib.py:432-436. -/
inductive TimeErr
  | typeError | indexError
deriving DecidableEq

/-- `Time.__len__` — skyfield/timelib.py:432-436. -/
def TimeAny.len : TimeAny K → Except TimeErr ℕ
  | .single _ => .error .typeError
  | .array a => .ok a.whole.length

/-- `value = d.get(name); if value is not None: setattr(t, name, value[index])` — skyfield/timelib.py:453-456. -/
def npGetStored (col : Option (List K)) (idx : NpIndex) : Option (Option (Shaped K)) :=
  match col with
  | none => some none
  | some col => (npGet col idx).map some

/-- The entry of a column as a number. Used at skyfield/timelib.py:447-457. -/
def Shaped.scalar : Shaped K → Option K
  | .one a => some a
  | .many _ => none

/-- The entry of a column as an array. Used at skyfield/timelib.py:447-457. -/
def Shaped.list : Shaped K → Option (List K)
  | .one _ => none
  | .many l => some l

/-- `Time.__getitem__(index)` — skyfield/timelib.py:447-457.  The new object has the shape of `self.whole[index]`.  Note that
`_tai_seconds` is not among the attributes copied.  (That all columns come back with one shape is because they have one length.) -/
def TimeAny.getitem (t : TimeAny K) (idx : NpIndex) : Except TimeErr (TimeAny K) :=
  match t with
  | .single _ => .error .typeError
  | .array a =>
    match npGet a.whole idx, npGet a.ttFraction idx, npGetStored a.taiFraction? idx, npGetStored a.tdbFraction? idx,
      npGetStored a.ut1Fraction? idx with
    | some (.one w), some (.one f), some tai, some tdb, some ut1 =>
      .ok (.single { ts := a.ts, whole := w, ttFraction := f, taiFraction? := tai.bind Shaped.scalar,
                     tdbFraction? := tdb.bind Shaped.scalar, ut1Fraction? := ut1.bind Shaped.scalar })
    | some (.many w), some (.many f), some tai, some tdb, some ut1 =>
      .ok (.array { ts := a.ts, whole := w, ttFraction := f, taiFraction? := tai.bind Shaped.list,
                    tdbFraction? := tdb.bind Shaped.list, ut1Fraction? := ut1.bind Shaped.list })
    | _, _, _, _, _ => .error .indexError

/-- `for x in t`: there is no `__iter__`, so Python asks for `t[0]`, `t[1]`, … until it gets an `IndexError`; any other error stops the
loop.  `fuel` bounds the number of items. Used at skyfield/timelib.py:447-457. -/
def TimeAny.iter (t : TimeAny K) : ℕ → ℕ → Except TimeErr (List (TimeAny K))
  | 0, _ => .ok []
  | fuel + 1, i =>
    match t.getitem (.int i) with
    | .error .indexError => .ok []
    | .error e => .error e
    | .ok x =>
      match t.iter fuel (i + 1) with
      | .error e => .error e
      | .ok xs => .ok (x :: xs)

/-- The `i`-th entry of a stored column. Used at skyfield/timelib.py:453-456. -/
def storedAt {α : Type*} (col : Option (List α)) (i : ℕ) : Option α :=
  match col with
  | none => none
  | some col => col[i]?

/-- The `i`-th of the times the columns hold. Used at skyfield/timelib.py:424-430. -/
def TimeArray.row (a : TimeArray K) (i : ℕ) : Option (Time K) :=
  match a.whole[i]?, a.ttFraction[i]? with
  | some w, some f =>
    some { ts := a.ts, whole := w, ttFraction := f, taiFraction? := storedAt a.taiFraction? i,
           taiSeconds? := match a.taiSeconds? with
             | none => none
             | some (s, fr) => match s[i]?, fr[i]? with
               | some s, some fr => some (s, fr)
               | _, _ => none
           tdbFraction? := storedAt a.tdbFraction? i, ut1Fraction? := storedAt a.ut1Fraction? i }
  | _, _ => none

/-- The times the columns hold. Used at skyfield/timelib.py:424-430. -/
def TimeArray.rows (a : TimeArray K) : List (Time K) := (List.range a.whole.length).filterMap a.row

/-- The time or times of an object. Used at skyfield/timelib.py:424-430. -/
def TimeAny.times : TimeAny K → Shaped (Time K)
  | .single t => .one t
  | .array a => .many a.rows

/-- All columns have one length — what NumPy's elementwise constructors give (skyfield/timelib.py:412-430). -/
structure TimeArray.WellFormed (a : TimeArray K) : Prop where
  tt : a.ttFraction.length = a.whole.length
  tai : ∀ c, a.taiFraction? = some c → c.length = a.whole.length
  tdb : ∀ c, a.tdbFraction? = some c → c.length = a.whole.length
  ut1 : ∀ c, a.ut1Fraction? = some c → c.length = a.whole.length
  secs : ∀ c, a.taiSeconds? = some c → c.1.length = a.whole.length ∧ c.2.length = a.whole.length

/-! The columns NumPy computes from the columns. -/

/-- `t.tt`, elementwise — skyfield/timelib.py:871-873. -/
def TimeArray.tt (a : TimeArray K) : List K := List.zipWith (· + ·) a.whole a.ttFraction

/-- `t.tai_fraction`, elementwise — skyfield/timelib.py:829-831. -/
def TimeArray.taiFraction (a : TimeArray K) : List K :=
  match a.taiFraction? with
  | some c => c
  | none => a.ttFraction.map fun f => f - ttMinusTai

/-- `t.tdb_fraction`, elementwise — skyfield/timelib.py:833-836; `g` is `tdb_minus_tt`. -/
def TimeArray.tdbFraction (g : K → K → K) (a : TimeArray K) : List K :=
  match a.tdbFraction? with
  | some c => c
  | none => List.zipWith (fun w fr => fr + g w fr / dayS) a.whole a.ttFraction

/-- `t.ut1_fraction`, elementwise — skyfield/timelib.py:838-844. -/
def TimeArray.ut1Fraction (a : TimeArray K) : List K :=
  match a.ut1Fraction? with
  | some c => c
  | none => List.zipWith (fun fr tt => fr - a.ts.deltaT tt / dayS) a.ttFraction a.tt

/-- Reading `t.tai_fraction`, `t.tdb_fraction` or `t.ut1_fraction` (or anything that uses them) stores the column —
skyfield/descriptorlib.py:3-14 with skyfield/timelib.py:829-840. -/
inductive TimeCol
  | tai | tdb | ut1

/-- The array after a read of the given attribute. Used at skyfield/timelib.py:829-840. -/
def TimeArray.touch (g : K → K → K) (a : TimeArray K) : TimeCol → TimeArray K
  | .tai => { a with taiFraction? := some a.taiFraction }
  | .tdb => { a with tdbFraction? := some (a.tdbFraction g) }
  | .ut1 => { a with ut1Fraction? := some a.ut1Fraction }

end Skyfield
