import Mathlib.Data.List.Nodup

/-
The `reify` descriptor — skyfield/descriptorlib.py:3-14 — and the attributes of `Time` that use it — skyfield/timelib.py:696-974.
-/
namespace Skyfield

/-- The body of a method decorated with `@reify`, as far as the attributes of its own object are concerned: it returns a value,
reads an attribute (`self.name`), or looks for it in the instance dictionary (`self.__dict__.get(name)`) without computing it.
Used at skyfield/descriptorlib.py:9-14. -/
inductive Comp (N V : Type) where
  | ret (v : V)
  | read (n : N) (k : V → Comp N V)
  | peek (n : N) (k : Option V → Comp N V)

/-- An instance dictionary. Used at skyfield/descriptorlib.py:13. -/
abbrev Cache (N V : Type) := N → Option V

section
variable {N V : Type} [DecidableEq N]

/-- `instance.__dict__[name] = value` — skyfield/descriptorlib.py:13. -/
def Cache.set (c : Cache N V) (n : N) (v : V) : Cache N V := fun m => if m = n then some v else c m

/-- Run a method body, given how to read an attribute.  Besides the value, the new dictionary and the names of the methods that were run,
in order of completion.  `none`: recursion limit. Used at skyfield/descriptorlib.py:9-14. -/
def Comp.run (get : N → Cache N V → Option (V × Cache N V × List N)) : Comp N V → Cache N V → Option (V × Cache N V × List N)
  | .ret v, c => some (v, c, [])
  | .read n k, c => do
    let (v, c1, l1) ← get n c
    let (w, c2, l2) ← (k v).run get c1
    return (w, c2, l1 ++ l2)
  | .peek n k, c => (k (c n)).run get c

/-- Read an attribute.  `reify` is not a data descriptor, so Python looks in the instance dictionary first; if the name is not there,
`reify.__get__` runs the method and stores the value — skyfield/descriptorlib.py:9-14. -/
def getAttr (method : N → Comp N V) : ℕ → N → Cache N V → Option (V × Cache N V × List N)
  | fuel, n, c =>
    match c n with
    | some v => some (v, c, [])
    | none =>
      match fuel with
      | 0 => none
      | fuel + 1 => do
        let (v, c1, l) ← (method n).run (getAttr method fuel) c
        return (v, c1.set n v, l ++ [n])

/-- Read several attributes one after another. Used at skyfield/descriptorlib.py:9-14. -/
def getAttrs (method : N → Comp N V) (fuel : ℕ) : List N → Cache N V → Option (List V × Cache N V × List N)
  | [], c => some ([], c, [])
  | n :: ns, c => do
    let (v, c1, l1) ← getAttr method fuel n c
    let (vs, c2, l2) ← getAttrs method fuel ns c1
    return (v :: vs, c2, l1 ++ l2)

end

/-- The cached attributes of `Time` — skyfield/timelib.py:696-974. -/
inductive TimeAttr
  | taiSeconds | M | MT | C | CT | nutationAngles | meanObliquity | J | utc | taiFraction | tdbFraction | ut1Fraction | deltaT | dut1
  | gmst | gast | P | N | PT | NT
  deriving DecidableEq

/-- The pure functions from which the attributes are computed; `V` is a type of values (numbers, arrays, matrices, tuples).  The
fixed data of the object (`ts`, `whole`, `tt_fraction`) is part of the functions.
Used at skyfield/timelib.py:696-974. -/
structure TimeFns (V : Type) where
  taiSeconds : V → V
  mxmxmB : V → V → V
  transpose : V → V
  cirs : V → V → V → V
  iau2000a : V
  meanObliquity : V → V
  J : V
  utc : V → V
  taiFraction : V
  tdbFraction : V
  ut1Fraction : V → V
  deltaT : V
  dut1 : V → V → V
  gmst : V → V → V
  gast : V → V → V → V
  precession : V → V
  nutation : V → V → V

/-- The second half of `M`, given the precession matrix — skyfield/timelib.py:763-767. -/
def timeMBody {V : Type} (f : TimeFns V) (p : V) : Comp TimeAttr V :=
  .peek .N fun n =>
    match n with
    | some n => .ret (f.mxmxmB n p)
    | none => .read .nutationAngles fun a => .read .meanObliquity fun o => .ret (f.mxmxmB (f.nutation a o) p)

/-- The bodies of the methods.  `tt`, `tai`, `tdb`, `ut1` are properties that read `whole` and one fraction.
Used at skyfield/timelib.py:696-974. -/
def timeMethod {V : Type} (f : TimeFns V) : TimeAttr → Comp TimeAttr V
  -- skyfield/timelib.py:696-702
  | .taiSeconds => .read .taiFraction fun tai => .ret (f.taiSeconds tai)
  -- skyfield/timelib.py:748-767, with precession_matrix (908-910) and nutation_matrix (901-906)
  | .M => .peek .P fun p =>
      match p with
      | some p => timeMBody f p
      | none => .read .tdbFraction fun tdb => timeMBody f (f.precession tdb)
  -- skyfield/timelib.py:769-772
  | .MT => .read .M fun m => .ret (f.transpose m)
  -- skyfield/timelib.py:774-779
  | .C => .read .ut1Fraction fun u => .read .gast fun g => .read .M fun m => .ret (f.cirs u g m)
  -- skyfield/timelib.py:781-783
  | .CT => .read .C fun c => .ret (f.transpose c)
  -- skyfield/timelib.py:785-789
  | .nutationAngles => .ret f.iau2000a
  -- skyfield/timelib.py:804-807
  | .meanObliquity => .read .tdbFraction fun tdb => .ret (f.meanObliquity tdb)
  -- skyfield/timelib.py:811-820
  | .J => .ret f.J
  -- skyfield/timelib.py:822-827
  | .utc => .read .taiSeconds fun s => .ret (f.utc s)
  -- skyfield/timelib.py:829-831
  | .taiFraction => .ret f.taiFraction
  -- skyfield/timelib.py:833-836
  | .tdbFraction => .ret f.tdbFraction
  -- skyfield/timelib.py:838-840
  | .ut1Fraction => .read .deltaT fun d => .ret (f.ut1Fraction d)
  -- skyfield/timelib.py:842-844
  | .deltaT => .ret f.deltaT
  -- skyfield/timelib.py:846-848
  | .dut1 => .read .taiSeconds fun s => .read .deltaT fun d => .ret (f.dut1 s d)
  -- skyfield/timelib.py:850-853
  | .gmst => .read .ut1Fraction fun u => .read .tdbFraction fun t => .ret (f.gmst u t)
  -- skyfield/timelib.py:855-863
  | .gast => .read .nutationAngles fun a => .read .meanObliquity fun o => .read .gmst fun g => .ret (f.gast a o g)
  -- skyfield/timelib.py:911-913, 967
  | .P => .read .tdbFraction fun t => .ret (f.precession t)
  -- skyfield/timelib.py:902-909, 968
  | .N => .read .nutationAngles fun a => .read .meanObliquity fun o => .ret (f.nutation a o)
  -- skyfield/timelib.py:971-974
  | .PT => .read .P fun p => .ret (f.transpose p)
  | .NT => .read .N fun p => .ret (f.transpose p)

end Skyfield
