import Verif.Model.Broadcast
import Verif.Model.TimeArray
import Mathlib.Algebra.Order.Floor.Ring
import Mathlib.Data.Real.Archimedean

/-
Building arrays of times (skyfield/timelib.py:129-403): numbers, sequences and NumPy arrays as arguments, with their shapes and with the
difference between arrays of integers and of floats.  Floats are real numbers here.  NumPy's `full_like`, broadcasting, `+=` and
assignment to `shape` are external: these are their documented semantics.
-/
namespace Skyfield

/-- A NumPy array (or a NumPy number, with no axes): whether its entries are stored as integers, and its entries.
Used at skyfield/functions.py:166-180. -/
structure NpArray where
  ints : Bool
  arr : Nd ℝ

/-- What a caller can pass: a Python number, a list or tuple, or a NumPy array.
Used at skyfield/functions.py:166-180. -/
inductive PyValue
  | number (x : ℝ)
  | sequence (a : NpArray)
  | array (a : NpArray)

/-- `_to_array` — skyfield/functions.py:166-180. -/
def toNpArray : PyValue → NpArray
  | .array a => a
  | .sequence a => a
  | .number x => ⟨false, .scalar x⟩

/-- Whether `_to_array` returns the very object it was given — skyfield/functions.py:175-176. -/
def PyValue.isArray : PyValue → Bool
  | .array _ => true
  | _ => false

/-- How a float is stored in an array of integers: without its fraction. Used at skyfield/functions.py:183-197. -/
noncomputable def truncated (x : ℝ) : ℝ := if 0 ≤ x then (⌊x⌋ : ℝ) else (⌈x⌉ : ℝ)

/-- NumPy's `full_like(b, a)` for a number `a`: the shape and the type of entries are those of `b`.
Used at skyfield/functions.py:183-197. -/
noncomputable def fullLike (b a : NpArray) : NpArray :=
  ⟨b.ints, ⟨b.arr.shape, fun _ => if b.ints && !a.ints then truncated (a.arr.entry []) else a.arr.entry []⟩⟩

/-- What `_reconcile` returns, and which of its results are the objects it was given.  An object that is returned with a new shape has
been changed in place, so its owner sees the new shape too. Used at skyfield/functions.py:183-197. -/
structure Reconciled where
  a : NpArray
  b : NpArray
  sameA : Bool
  sameB : Bool

/-- `_reconcile` — skyfield/functions.py:183-197. -/
noncomputable def reconcile (a b : NpArray) : Reconciled :=
  let an := a.arr.shape.length
  let bn := b.arr.shape.length
  if an < bn then
    if an ≠ 0 then ⟨⟨a.ints, a.arr.addAxes (bn - an)⟩, b, true, true⟩ else ⟨fullLike b a, b, false, true⟩
  else if bn < an then
    if bn ≠ 0 then ⟨a, ⟨b.ints, b.arr.addAxes (an - bn)⟩, true, true⟩ else ⟨a, fullLike a b, true, false⟩
  else ⟨a, b, true, true⟩

/-- What `_normalize_jd_and_fraction` returns: the two arrays; whether the first is the caller's own array; and the caller's arguments
afterwards. Used at skyfield/timelib.py:1210-1216. -/
structure NormalizedJd where
  jd : Nd ℝ
  fraction : Nd ℝ
  keepsJd : Bool
  callerJd : PyValue
  callerFraction : Option PyValue

/-- The argument afterwards, if the object that was returned is `r`. Used at skyfield/timelib.py:1210-1216. -/
def PyValue.after (v : PyValue) (same : Bool) (r : NpArray) : PyValue :=
  match v with
  | .array a => .array (if same then r else a)
  | v => v

/-- `_normalize_jd_and_fraction` — skyfield/timelib.py:1210-1216. -/
noncomputable def normalizeJdNd (jd : PyValue) (fraction : Option PyValue) : NormalizedJd :=
  match fraction with
  | none =>
    let a := (toNpArray jd).arr
    ⟨a.map fun x => (pyDivmod x 1).1, a.map fun x => (pyDivmod x 1).2, false, jd, none⟩
  | some f =>
    let r := reconcile (toNpArray jd) (toNpArray f)
    ⟨r.a.arr, r.b.arr, r.sameA && jd.isArray, jd.after r.sameA r.a, some (f.after r.sameB r.b)⟩

/-- A `Time` of any shape — skyfield/timelib.py:412-430; as in `Time`, some constructors store further attributes. -/
structure TimeNd where
  ts : Timescale ℝ
  whole : Nd ℝ
  ttFraction : Nd ℝ
  taiFraction? : Option (Nd ℝ) := none
  taiSeconds? : Option (Nd ℝ × Nd ℝ) := none
  tdbFraction? : Option (Nd ℝ) := none
  ut1Fraction? : Option (Nd ℝ) := none

/-- `Time.shape` — skyfield/timelib.py:430. -/
def TimeNd.shape (t : TimeNd) : List ℕ := t.whole.shape

/-- `Time.tt` — skyfield/timelib.py:871-873; `none` is the `ValueError` of arrays that do not fit. -/
noncomputable def TimeNd.tt (t : TimeNd) : Option (Nd ℝ) := Nd.map2 (· + ·) t.whole t.ttFraction

/-- `Timescale.tt_jd` — skyfield/timelib.py:315-318. -/
noncomputable def Timescale.ttJdNd (ts : Timescale ℝ) (jd : PyValue) (fraction : Option PyValue) : TimeNd :=
  let r := normalizeJdNd jd fraction
  { ts := ts, whole := r.jd, ttFraction := r.fraction }

/-- `Timescale.tai_jd` — skyfield/timelib.py:294-299. -/
noncomputable def Timescale.taiJdNd (ts : Timescale ℝ) (jd : PyValue) (fraction : Option PyValue) : TimeNd :=
  let r := normalizeJdNd jd fraction
  { ts := ts, whole := r.jd, ttFraction := r.fraction.map (· + ttMinusTai), taiFraction? := some r.fraction }

/-- `Timescale.tdb_jd` — skyfield/timelib.py:346-351; `g` is `tdb_minus_tt`, which is elementwise. -/
noncomputable def Timescale.tdbJdNd (ts : Timescale ℝ) (g : ℝ → ℝ → ℝ) (jd : PyValue) (fraction : Option PyValue) : Option TimeNd := do
  let r := normalizeJdNd jd fraction
  let d ← Nd.map2 g r.jd r.fraction
  let f ← Nd.map2 (· - ·) r.fraction (d.map (· / dayS))
  return { ts := ts, whole := r.jd, ttFraction := f, tdbFraction? := some r.fraction }

/-- `Timescale.ut1_jd` — skyfield/timelib.py:367-387; the function for ∆T is elementwise. -/
noncomputable def Timescale.ut1JdNd (ts : Timescale ℝ) (jd : PyValue) : Option TimeNd := do
  let ut1 := (toNpArray jd).arr
  let approx := ut1.map ts.deltaT
  let ttApprox ← Nd.map2 (· + ·) ut1 (approx.map (· / dayS))
  let approx := ttApprox.map ts.deltaT
  let approx := approx.map (· / dayS)
  return { ts := ts, whole := ut1, ttFraction := approx, ut1Fraction? := some (ut1.map (0 * ·)) }

/-- `Timescale.J` — skyfield/timelib.py:320-329: the fraction is the number `0.0`. -/
noncomputable def Timescale.julianYearNd (ts : Timescale ℝ) (year : PyValue) : TimeNd :=
  { ts := ts, whole := ((toNpArray year).arr.map (· * (36525 / 100))).map (· + 1721045), ttFraction := .scalar 0 }

/-- The six arguments of a calendar date, after `_to_array`. Used at skyfield/timelib.py:205-210. -/
structure CalendarArrays where
  year : Nd ℤ
  month : Nd ℤ
  day : Nd ℝ
  hour : Nd ℝ
  minute : Nd ℝ
  second : Nd ℝ

/-- `julian_day` — skyfield/timelib.py:976-998: every operation there is elementwise. -/
noncomputable def julianDayNd (cutoff : Option ℤ) (year month : Nd ℤ) (day : Nd ℝ) : Option (Nd ℝ) := do
  let ym ← Nd.map2 Prod.mk year month
  Nd.map2 (fun ym d => julianDayFrac ym.1 ym.2 d cutoff) ym day

/-- `Timescale._jd` — skyfield/timelib.py:205-210: both operands of `_reconcile` are floats. -/
noncomputable def Timescale.jdNd (ts : Timescale ℝ) (c : CalendarArrays) : Option (Nd ℝ × Nd ℝ) := do
  let whole := (← julianDayNd ts.cutoff c.year c.month c.day).map (· - 1 / 2)
  let sm ← Nd.map2 (· + ·) c.second (c.minute.map (· * 60))
  let seconds ← Nd.map2 (· + ·) sm (c.hour.map (· * 3600))
  let fraction := seconds.map (· / dayS)
  let r := reconcile ⟨false, whole⟩ ⟨false, fraction⟩
  return (r.a.arr, r.b.arr)

/-- `Timescale.tt` with calendar fields — skyfield/timelib.py:301-313. -/
noncomputable def Timescale.ttNd (ts : Timescale ℝ) (c : CalendarArrays) : Option TimeNd := do
  let (whole, fraction) ← ts.jdNd c
  return { ts := ts, whole := whole, ttFraction := fraction }

/-- `Timescale.tai` with calendar fields — skyfield/timelib.py:278-292. -/
noncomputable def Timescale.taiNd (ts : Timescale ℝ) (c : CalendarArrays) : Option TimeNd := do
  let (whole, fraction) ← ts.jdNd c
  return { ts := ts, whole := whole, ttFraction := fraction.map (· + ttMinusTai), taiFraction? := some fraction }

/-- `Timescale.tdb` with calendar fields — skyfield/timelib.py:331-344. -/
noncomputable def Timescale.tdbNd (ts : Timescale ℝ) (g : ℝ → ℝ → ℝ) (c : CalendarArrays) : Option TimeNd := do
  let (whole, fraction) ← ts.jdNd c
  let jd ← Nd.map2 (· + ·) whole fraction
  return { ts := ts, whole := jd, ttFraction := jd.map fun x => - g x 0 / dayS }

/-- `Timescale.ut1` with calendar fields — skyfield/timelib.py:353-365. -/
noncomputable def Timescale.ut1Nd (ts : Timescale ℝ) (c : CalendarArrays) : Option TimeNd := do
  let (whole, fraction) ← ts.jdNd c
  let jd ← Nd.map2 (· + ·) whole fraction
  ts.ut1JdNd (.array ⟨false, jd⟩)

/-- `a += b`: in place for an array, which therefore keeps its shape, and a new value for a number.
Used at skyfield/timelib.py:181-203. -/
noncomputable def Nd.iadd (a b : Nd ℝ) : Option (Nd ℝ) :=
  (Nd.map2 (· + ·) a b).bind fun r => if a.shape = [] ∨ r.shape = a.shape then some r else none

/-- `interp` on an array of places. Used at skyfield/timelib.py:181-203. -/
noncomputable def interpNd (x : Nd ℝ) (xp fp : List ℝ) : Option (Nd ℝ) :=
  match xp.zip fp with
  | [] => none
  | p :: rest => some (x.map (interpGo p rest))

/-- `Timescale._utc` — skyfield/timelib.py:181-203. -/
noncomputable def Timescale.utcNd (ts : Timescale ℝ) (c : CalendarArrays) : Option TimeNd := do
  let seconds := (← julianDayNd ts.cutoff c.year c.month c.day).map fun d => (d - 1 / 2) * dayS
  let sfr := seconds.map fun s => (pyDivmod s 1).2
  let seconds := seconds.map fun s => (pyDivmod s 1).1
  let seconds ← Nd.iadd seconds (← interpNd seconds ts.leapUtc ts.leapOffs)
  let hm ← Nd.map2 (· + ·) (c.hour.map (· * 3600)) (c.minute.map (· * 60))
  let more ← Nd.map2 (· + ·) hm c.second
  let sum ← Nd.map2 (· + ·) sfr more
  let seconds2 := sum.map fun s => (pyDivmod s 1).1
  let sfr := sum.map fun s => (pyDivmod s 1).2
  let seconds ← Nd.iadd seconds seconds2
  let whole := seconds.map fun s => (pyDivmod s dayS).1
  let fraction := seconds.map fun s => (pyDivmod s dayS).2
  let fraction := (← Nd.iadd fraction sfr).map (· / dayS)
  return { ts := ts, whole := whole, ttFraction := fraction.map (· + ttMinusTai), taiFraction? := some fraction,
           taiSeconds? := some (seconds, sfr) }

/-- How indexing a time can fail: it is a single time, or one of its attributes is a number, or there is no such member.
Used at skyfield/timelib.py:453-456. -/
inductive TimeIndexError
  | singleTime
  | numberAttribute
  | outOfRange
deriving DecidableEq

/-- `a[i]`. Used at skyfield/timelib.py:453-456. -/
def Nd.item {α : Type} (a : Nd α) (i : ℤ) : Except TimeIndexError (Nd α) :=
  match a.shape with
  | [] => .error .numberAttribute
  | n :: s =>
    match normIndex n i with
    | none => .error .outOfRange
    | some k => .ok ⟨s, fun j => a.entry (k :: j)⟩

/-- `a[i]` of an attribute, if it was stored — skyfield/timelib.py:453-456. -/
def Nd.itemStored {α : Type} (a : Option (Nd α)) (i : ℤ) : Except TimeIndexError (Option (Nd α)) :=
  match a with
  | none => .ok none
  | some a => (a.item i).map some

/-- `Time.__getitem__` with an integer — skyfield/timelib.py:447-457. -/
def TimeNd.item (t : TimeNd) (i : ℤ) : Except TimeIndexError TimeNd :=
  if t.shape = [] then .error .singleTime
  else do
    let whole ← t.whole.item i
    let fraction ← t.ttFraction.item i
    let tai ← Nd.itemStored t.taiFraction? i
    let tdb ← Nd.itemStored t.tdbFraction? i
    let ut1 ← Nd.itemStored t.ut1Fraction? i
    return { ts := t.ts, whole := whole, ttFraction := fraction, taiFraction? := tai, tdbFraction? := tdb, ut1Fraction? := ut1 }

/-- The time made by `tt_jd`, after the caller has written something else into the array that was passed as `jd`: the time holds the
caller's own array if `keepsJd` says so. Used at skyfield/timelib.py:315-329. -/
noncomputable def Timescale.ttJdLater (ts : Timescale ℝ) (jd : PyValue) (fraction : Option PyValue) (written : List ℕ → ℝ) : TimeNd :=
  let r := normalizeJdNd jd fraction
  { ts := ts, whole := if r.keepsJd then ⟨r.jd.shape, written⟩ else r.jd, ttFraction := r.fraction }

end Skyfield
