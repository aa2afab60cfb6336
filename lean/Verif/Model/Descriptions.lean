import Mathlib.Data.List.Basic
import Mathlib.Data.Int.Init

/-
Model of the text that vectors, positions, satellites, orbits and stars print for themselves: skyfield/vectorlib.py:11-71, 107-151,
207-213, skyfield/positionlib.py:137-167, skyfield/sgp4lib.py:157-167, skyfield/keplerlib.py:57-58, 247-267, skyfield/toposlib.py:69-86,
skyfield/planetarylib.py:234-239, skyfield/starlib.py:80-95.  Text is a list of characters.  Numbers inside the text (the epoch of a
satellite, the latitude of a place, the elements of an orbit) are given as the text that they print as.
-/
namespace Skyfield

/-- What a vector starts or ends at: the code of a body, or a Python object (a place, a satellite, an orbit), known by its identity
`id`, with the name of its class, its attribute `target_name` (`none` is Python's `None`) and its `str()`.
Used at skyfield/vectorlib.py:207-213. -/
inductive Endpoint
  | code (n : ℤ)
  | thing (id : ℕ) (cls : List Char) (targetName : Option (List Char)) (str : List Char)
  deriving DecidableEq

/-- `_jpl_name(target)` — skyfield/vectorlib.py:207-213. -/
def jplName (names : ℤ → Option (List Char)) : Endpoint → List Char
  | .thing _ cls _ _ => cls
  | .code n =>
    match names n with
    | none => (toString n).toList
    | some name => (toString n).toList ++ ' ' :: name

/-- `target_name` of the vector that ends there: that of skyfield/vectorlib.py:24-26 for a segment, or the object's own, as of
skyfield/toposlib.py:80-86, skyfield/sgp4lib.py:160-167 and skyfield/keplerlib.py:52 — those objects are their own `target`
(skyfield/keplerlib.py:56-58, skyfield/planetarylib.py:233-239). -/
def Endpoint.targetName (names : ℤ → Option (List Char)) : Endpoint → Option (List Char)
  | .code n => some (jplName names (.code n))
  | .thing _ _ name _ => name

/-- `'{0}'.format(name)`, where `name` may be `None`. Used at skyfield/vectorlib.py:36-39. -/
def formatName : Option (List Char) → List Char
  | none => "None".toList
  | some s => s

/-- A vector function: one that is neither of the other two (`body`), with its `vector_name` (skyfield/vectorlib.py:16-18,
skyfield/jpllib.py:214-216, skyfield/toposlib.py:69), a `ReversedVector` or a `VectorSum`. -/
inductive NamedVector
  | body (kind : List Char) (center : ℤ) (target : Endpoint)
  | reversed (f : NamedVector)
  | sum (center target : Endpoint) (fs : List NamedVector)

mutual
/-- `.center` and `.target` — skyfield/vectorlib.py:108-109, 133-134. -/
def NamedVector.center : NamedVector → Endpoint
  | .body _ c _ => .code c
  | .reversed f => f.target
  | .sum c _ _ => c
/-- `vector.target`. Used at skyfield/vectorlib.py:108-109, 133-134. -/
def NamedVector.target : NamedVector → Endpoint
  | .body _ _ t => t
  | .reversed f => f.center
  | .sum _ t _ => t
end

mutual
/-- `.center_name` and `.target_name` — skyfield/vectorlib.py:20-26, 116-122. -/
def NamedVector.centerName (names : ℤ → Option (List Char)) : NamedVector → Option (List Char)
  | .body _ c _ => some (jplName names (.code c))
  | .reversed f => f.targetName names
  | .sum c _ _ => some (jplName names c)
/-- `vector.target_name`. Used at skyfield/vectorlib.py:20-26, 116-122. -/
def NamedVector.targetName (names : ℤ → Option (List Char)) : NamedVector → Option (List Char)
  | .body _ _ t => t.targetName names
  | .reversed f => f.centerName names
  | .sum _ t _ => some (jplName names t)
end

/-- `.vector_name` — skyfield/vectorlib.py:16-18, 112-114. -/
def NamedVector.vectorName : NamedVector → List Char
  | .body kind _ _ => kind
  | .reversed f => "Reversed ".toList ++ f.vectorName
  | .sum _ _ _ => "VectorSum".toList

/-- `arrow_str()` — skyfield/vectorlib.py:36-39. -/
def NamedVector.arrowStr (names : ℤ → Option (List Char)) (f : NamedVector) : List Char :=
  f.vectorName ++ [' '] ++ formatName (f.centerName names) ++ " -> ".toList ++ formatName (f.targetName names)

/-- `str()` of a sum — skyfield/vectorlib.py:142-148. -/
def sumStr (names : ℤ → Option (List Char)) (fs : List NamedVector) : List Char :=
  "Sum of ".toList ++ Nat.toDigits 10 fs.length ++ " vectors:\n".toList
    ++ ['\n'].intercalate (fs.map fun g => ' ' :: g.arrowStr names)

/-- `str(f)` — skyfield/vectorlib.py:31-34; of an object that is its own target, `target_name` (an orbit has a `__str__` of its own,
`keplerStr`). -/
def NamedVector.str (names : ℤ → Option (List Char)) : NamedVector → List Char
  | .body _ _ (.thing _ _ name _) => formatName name
  | .body k c (.code n) => (NamedVector.body k c (.code n)).arrowStr names
  | .reversed f => (NamedVector.reversed f).arrowStr names
  | .sum _ _ fs => sumStr names fs

/-- `getattr(self, 'vector_functions', None) or (self,)` — skyfield/vectorlib.py:52. -/
def NamedVector.parts (f : NamedVector) : List NamedVector :=
  match f with
  | .sum _ _ (g :: gs) => g :: gs
  | _ => [f]

/-- `-f` — skyfield/vectorlib.py:57-58, 124-125. -/
def NamedVector.neg (f : NamedVector) : NamedVector :=
  match f with
  | .reversed g => g
  | _ => .reversed f

/-- `a + b` — skyfield/vectorlib.py:41-55; `none` is the `ValueError`. -/
def NamedVector.add (a b : NamedVector) : Option NamedVector :=
  if a.target ≠ b.center then
    if b.target = a.center then some (.sum b.center a.target (b.parts ++ a.parts))
    else none
  else some (.sum a.center b.target (a.parts ++ b.parts))

/-- `a - b` — skyfield/vectorlib.py:60-71; `none` is the `ValueError`. -/
def NamedVector.sub (a b : NamedVector) : Option NamedVector :=
  if a.center ≠ b.center then none
  else some (.sum b.target a.target ((b.parts.map NamedVector.neg).reverse ++ a.parts))

/-! ### Positions -/

/-- How a position shows its center and its target — skyfield/positionlib.py:152-158.  A number has no `target_name`. -/
def Endpoint.shown : Endpoint → List Char
  | .code n => (toString n).toList
  | .thing _ _ (some name) _ => name
  | .thing _ _ none str => str

/-- What `repr()` of a position looks at. Used at skyfield/positionlib.py:140-147. -/
structure DescribedPosition where
  cls : List Char
  velocity : Bool
  time : Bool
  center : Option Endpoint
  target : Option Endpoint

/-- The suffix — skyfield/positionlib.py:140-147. -/
def DescribedPosition.suffix (p : DescribedPosition) : List Char :=
  if p.cls = "Barycentric".toList ∧ p.center = some (.code 0) then " BCRS".toList
  else if p.cls = "Apparent".toList ∧ p.center = some (.code 399) then " GCRS".toList
  else if p.cls ≠ "ICRF".toList then " ICRS".toList
  else []

/-- `repr(position)` — skyfield/positionlib.py:137-167. -/
def DescribedPosition.repr (p : DescribedPosition) : List Char :=
  '<' :: (p.cls ++ (p.suffix ++ (" position".toList
    ++ ((if p.velocity then " and velocity".toList else [])
    ++ ((if p.time then " at date t".toList else [])
    ++ ((match p.center with
        | none => []
        | some c => " center=".toList ++ c.shown)
    ++ ((match p.target with
        | none => []
        | some t => " target=".toList ++ t.shown)
    ++ ['>'])))))))

/-! ### Satellites, orbits and stars -/

/-- `EarthSatellite.target_name`, and `str()` — skyfield/sgp4lib.py:157-167.  An empty name counts as no name; `epoch` is the text
that `epoch.utc_strftime()` returns. -/
def satelliteName (name : Option (List Char)) (satnum : ℕ) (epoch : List Char) : List Char :=
  name.getD [] ++ (if name.getD [] ≠ [] then [' '] else []) ++ "catalog #".toList ++ Nat.toDigits 10 satnum
    ++ " epoch ".toList ++ epoch

/-- `str()` of an orbit — skyfield/keplerlib.py:247-264; `elements` is the text of the elements that is printed if there is no name. -/
def keplerStr (names : ℤ → Option (List Char)) (center : ℤ) (targetName : Option (List Char)) (elements : List Char) : List Char :=
  "KeplerOrbit ".toList ++ jplName names (.code center) ++ " ->".toList
    ++ ' ' :: (if targetName.getD [] ≠ [] then targetName.getD [] else elements)

/-- A value of a star: one number, name or list that is false in Python (`0.0`, `()`), one that is true, given by its `repr`, or an
array with its shape. Used at skyfield/starlib.py:86-94. -/
inductive StarValue
  | empty
  | single (repr : List Char)
  | array (shape : List ℕ)

/-- The names of the options that `repr(star)` goes through — skyfield/starlib.py:82-85. -/
def starOptionNames : List String :=
  ["ra", "dec", "ra_mas_per_year", "dec_mas_per_year", "parallax_mas", "radial_km_per_s", "names", "epoch"]

/-- One option of `repr(star)` — skyfield/starlib.py:86-94. -/
def starOption (name : String) : StarValue → Option (List Char)
  | .empty => none
  | .single r => some (name.toList ++ '=' :: r)
  | .array shape => some (name.toList ++ " shape=".toList ++ [','].intercalate (shape.map fun n => Nat.toDigits 10 n))

/-- The options that `repr(star)` joins with commas — skyfield/starlib.py:80-95. -/
def starOptions (value : String → StarValue) : List (List Char) :=
  starOptionNames.filterMap fun name => starOption name (value name)

end Skyfield
