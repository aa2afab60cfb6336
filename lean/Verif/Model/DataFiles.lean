import Verif.Model.TextPck
import Mathlib.Data.Int.Notation

/-
Model of the readers of text data files: skyfield/data/stellarium.py, the comet loaders of skyfield/data/mpc.py, and the columns that
skyfield/data/hipparcos.py and tycho2.py take.  A line is a list of characters, one for each byte.  What Python's `int()` accepts is
a parameter, and so is what pandas makes of the text of a field.
-/
namespace Skyfield

/-- `line.split()`: the words of a line. Used at skyfield/data/stellarium.py:7-37. -/
def wordsOf : ℕ → List Char → List (List Char)
  | 0, _ => []
  | fuel + 1, l =>
    let l := l.dropWhile isStripChar
    match l with
    | [] => []
    | _ => l.takeWhile (fun c => !isStripChar c) :: wordsOf fuel (l.dropWhile (fun c => !isStripChar c))

/-- `line.split()`. Used at skyfield/data/stellarium.py:7-37. -/
def pySplit (l : List Char) : List (List Char) := wordsOf (l.length + 1) l

/-- `l.split(c)`. Used at skyfield/data/stellarium.py:39-59. -/
def splitChar (c : Char) : List Char → List (List Char)
  | [] => [[]]
  | x :: l => if x = c then [] :: splitChar c l else
    match splitChar c l with
    | [] => [[x]]
    | w :: ws => (x :: w) :: ws

/-- How reading a data file can fail: `ValueError` or `IndexError`. Used at skyfield/data/stellarium.py:33-34. -/
inductive DataError
  | valueError
  | indexError
deriving DecidableEq

variable (toInt : List Char → Option ℤ)

/-- `int(word)`. Used at skyfield/data/stellarium.py:33-34. -/
def intOf (w : List Char) : Except DataError ℤ :=
  match toInt w with
  | some n => .ok n
  | none => .error .valueError

/-- `[(int(fields[i]), int(fields[i+1])) for i in range(2, len(fields), 2)]` — skyfield/data/stellarium.py:33-34, for the fields from
the third on. -/
def starPairs : List (List Char) → Except DataError (List (ℤ × ℤ))
  | [] => .ok []
  | [a] => do
    let _ ← intOf toInt a
    .error .indexError
  | a :: b :: rest => do
    let x ← intOf toInt a
    let y ← intOf toInt b
    let more ← starPairs rest
    return (x, y) :: more

/-- `parse_constellations` — skyfield/data/stellarium.py:7-37; a name is left as its bytes. -/
def parseConstellations : List (List Char) → Except DataError (List (List Char × List (ℤ × ℤ)))
  | [] => .ok []
  | line :: lines => do
    let line := line.dropWhile isStripChar
    if line.head? = some '#' then parseConstellations lines
    else
      match pySplit line with
      | [] => parseConstellations lines
      | name :: fields => do
        let edges ← starPairs toInt (fields.drop 1)
        let more ← parseConstellations lines
        return (name, edges) :: more

/-- The bytes that `strip(b'_(")')` removes — skyfield/data/stellarium.py:57. -/
def isNameMark (c : Char) : Bool := c == '_' || c == '(' || c == '"' || c == ')'

/-- `name.strip(b'_(")')`. Used at skyfield/data/stellarium.py:39-59. -/
def stripNameMarks (l : List Char) : List Char := ((l.dropWhile isNameMark).reverse.dropWhile isNameMark).reverse

/-- `parse_star_names` — skyfield/data/stellarium.py:39-59. -/
def parseStarNames : List (List Char) → Except DataError (List (ℤ × List Char))
  | [] => .ok []
  | line :: lines => do
    let line := pyStrip line
    if line = [] ∨ line.head? = some '#' then parseStarNames lines
    else
      match (pySplit line).map (splitChar '|') with
      | [hip, name] :: _ => do
        let n ← intOf toInt hip
        let more ← parseStarNames lines
        return (n, stripNameMarks name) :: more
      | _ => .error .valueError

/-- `_COMET_COLUMNS` — skyfield/data/mpc.py:114-133. -/
def cometColumns : List (String × ℕ × ℕ) :=
  [("number", 0, 4), ("orbit_type", 4, 5), ("designation_packed", 5, 12), ("perihelion_year", 14, 18), ("perihelion_month", 19, 21),
   ("perihelion_day", 22, 29), ("perihelion_distance_au", 30, 39), ("eccentricity", 41, 49),
   ("argument_of_perihelion_degrees", 51, 59), ("longitude_of_ascending_node_degrees", 61, 69), ("inclination_degrees", 71, 79),
   ("perturbed_epoch_year", 81, 85), ("perturbed_epoch_month", 85, 87), ("perturbed_epoch_day", 87, 89), ("magnitude_g", 91, 95),
   ("magnitude_k", 96, 100), ("designation", 102, 158), ("reference", 159, 168)]

/-- `_COMET_FAST_COLUMNS` — skyfield/data/mpc.py:134-140. -/
def cometFastColumns : List String :=
  ["perihelion_year", "perihelion_month", "perihelion_day", "perihelion_distance_au", "eccentricity", "argument_of_perihelion_degrees",
   "longitude_of_ascending_node_degrees", "inclination_degrees", "magnitude_g", "magnitude_k", "designation", "reference"]

/-- `_COMET_SEP` — skyfield/data/mpc.py:145. -/
def cometSep : Char := '\x1e'

/-- A piece of the pattern that `load_comets_dataframe` builds: blanks, characters that are skipped, characters that are kept, and the
ending `(.*?)  +(.*)`. Used at skyfield/data/mpc.py:172-187. -/
inductive CometPiece
  | blanks (n : ℕ)
  | skip (n : ℕ)
  | keep (n : ℕ)
  | ending
deriving DecidableEq

/-- The loop that builds the pattern — skyfield/data/mpc.py:172-187. -/
def cometPatternFrom (keepers : List String) : Option ℕ → List (String × ℕ × ℕ) → List CometPiece
  | _, [] => []
  | previousEnd, (name, start, stop) :: columns =>
    (match previousEnd with
      | some e => [CometPiece.blanks (start - e)]
      | none => []) ++
    if name = "designation" then [CometPiece.ending]
    else (if name ∈ keepers then CometPiece.keep (stop - start) else CometPiece.skip (stop - start)) ::
      cometPatternFrom keepers (some stop) columns

/-- `_fast_comet_re` — skyfield/data/mpc.py:169-191. -/
def cometPattern : List CometPiece := cometPatternFrom cometFastColumns none cometColumns

/-- `(.*?)  +(.*)`: the shortest beginning that two blanks follow, and what is left after all the blanks there.
Used at skyfield/data/mpc.py:194. -/
def splitAtTwoBlanks : List Char → Option (List Char × List Char)
  | ' ' :: ' ' :: l => some ([], l.dropWhile (· == ' '))
  | c :: l => (splitAtTwoBlanks l).map fun p => (c :: p.1, p.2)
  | [] => none

/-- Match the pattern at the start of a line; the result is the groups.  A dot matches any character within a line.
Used at skyfield/data/mpc.py:194. -/
def matchComet : List CometPiece → List Char → Option (List (List Char))
  | [], _ => some []
  | .blanks n :: ps, l => if l.take n = List.replicate n ' ' then matchComet ps (l.drop n) else none
  | .skip n :: ps, l => if n ≤ l.length then matchComet ps (l.drop n) else none
  | .keep n :: ps, l => if n ≤ l.length then (matchComet ps (l.drop n)).map (l.take n :: ·) else none
  | .ending :: ps, l =>
    match splitAtTwoBlanks l with
    | none => none
    | some (a, b) => (matchComet ps []).map fun g => a :: b :: g

/-- Words joined by a separator. Used at skyfield/data/mpc.py:194. -/
def joinChar (c : Char) : List (List Char) → List Char
  | [] => []
  | [w] => w
  | w :: ws => w ++ c :: joinChar c ws

/-- One line of the text after `_fast_comet_re.sub(...)` — skyfield/data/mpc.py:194: a line that does not match is left as it was. -/
def fastCometLine (line : List Char) : List Char :=
  match matchComet cometPattern line with
  | some groups => joinChar cometSep groups
  | none => line

/-- The fields of a line in `load_comets_dataframe`, by name — skyfield/data/mpc.py:150-197; missing fields become nan. -/
def fastCometRow (line : List Char) : List (String × List Char) := cometFastColumns.zip (splitChar cometSep (fastCometLine line))

/-- The fields of a line in `load_comets_dataframe_slow`, by name — skyfield/data/mpc.py:199-213: pandas' `read_fwf` takes the columns
and strips them. -/
def slowCometRow (line : List Char) : List (String × List Char) :=
  cometColumns.map fun c => (c.1, pyStrip ((line.drop c.2.1).take (c.2.2 - c.2.1)))

/-- `_COLUMN_NAMES` — skyfield/data/hipparcos.py:32-45. -/
def hipparcosColumns : List String :=
  ["Catalog", "HIP", "Proxy", "RAhms", "DEdms", "Vmag", "VarFlag", "r_Vmag", "RAdeg", "DEdeg", "AstroRef", "Plx", "pmRA", "pmDE",
   "e_RAdeg", "e_DEdeg", "e_Plx", "e_pmRA", "e_pmDE", "DE:RA", "Plx:RA", "Plx:DE", "pmRA:RA", "pmRA:DE", "pmRA:Plx", "pmDE:RA",
   "pmDE:DE", "pmDE:Plx", "pmDE:pmRA", "F1", "F2", "---", "BTmag", "e_BTmag", "VTmag", "e_VTmag", "m_BTmag", "B-V", "e_B-V", "r_B-V",
   "V-I", "e_V-I", "r_V-I", "CombMag", "Hpmag", "e_Hpmag", "Hpscat", "o_Hpmag", "m_Hpmag", "Hpmax", "HPmin", "Period", "HvarType",
   "moreVar", "morePhoto", "CCDM", "n_CCDM", "Nsys", "Ncomp", "MultFlag", "Source", "Qual", "m_HIP", "theta", "rho", "e_rho", "dHp",
   "e_dHp", "Survey", "Chart", "Notes", "HD", "BD", "CoD", "CPD", "(V-I)red", "SpType", "r_SpType"]

/-- `_COLUMN_NAMES` — skyfield/data/tycho2.py:10-20. -/
def tychoColumns : List String :=
  ["Catalog", "TYC", "Proxy", "RAhms", "DEdms", "Vmag", "---", "r_Vmag", "RAdeg", "DEdeg", "AstroRef", "Plx", "pmRA", "pmDE",
   "e_RAdeg", "e_DEdeg", "e_Plx", "e_pmRA", "e_pmDE", "DE:RA", "Plx:RA", "Plx:DE", "pmRA:RA", "pmRA:DE", "pmRA:Plx", "pmDE:RA",
   "pmDE:DE", "pmDE:Plx", "pmDE:pmRA", "Nastro", "F2", "HIP", "BTmag", "e_BTmag", "VTmag", "e_VTmag", "r_BTmag", "B-V", "e_B-V",
   "---(2)", "Q", "Fs", "Source", "Nphoto", "VTscat", "VTmax", "VTmin", "Var", "VarFlag", "MultFlag", "morePhoto", "m_HIP", "PPM", "HD",
   "BD", "CoD", "CPD", "Remark"]

/-- `read_csv(fobj, sep='|', names=..., usecols=...)` and the new names given to the columns: pandas keeps the columns in the order of
the file — skyfield/data/hipparcos.py:61-70, skyfield/data/tycho2.py:36-45. -/
def catalogRow (names usecols newNames : List String) (line : List Char) : List (String × List Char) :=
  newNames.zip (((names.zip (splitChar '|' line)).filter fun p => p.1 ∈ usecols).map (·.2))

/-- The text of the fields in `hipparcos.load_dataframe` — skyfield/data/hipparcos.py:47-76. -/
def hipparcosRow (line : List Char) : List (String × List Char) :=
  catalogRow hipparcosColumns ["HIP", "Vmag", "RAdeg", "DEdeg", "Plx", "pmRA", "pmDE"]
    ["hip", "magnitude", "ra_degrees", "dec_degrees", "parallax_mas", "ra_mas_per_year", "dec_mas_per_year"] line

/-- The text of the fields in `tycho2.load_dataframe` — skyfield/data/tycho2.py:22-51. -/
def tychoRow (line : List Char) : List (String × List Char) :=
  catalogRow tychoColumns ["TYC", "Vmag", "RAdeg", "DEdeg", "Plx", "pmRA", "pmDE"]
    ["tyc", "magnitude", "ra_degrees", "dec_degrees", "parallax_mas", "ra_mas_per_year", "dec_mas_per_year"] line

end Skyfield
