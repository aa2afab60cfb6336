import Mathlib.Data.List.Basic

/-
Model of `parse_tle_file` and `parse_tle`, skyfield/iokit.py:415-470.  A line is a list of bytes, written as
characters; `decode('ascii')` fails on a byte above 127.  The construction of the satellite from its
two lines is a parameter.
-/
namespace Skyfield

/-- A line of a file. Used at skyfield/iokit.py:453. -/
abbrev Line := List Char

/-- `b1.startswith(b'1 ') and len(b1) >= 69` — skyfield/iokit.py:453. -/
def isLine1 (b : Line) : Bool := "1 ".toList.isPrefixOf b && decide (69 ≤ b.length)

/-- `b2.startswith(b'2 ') and len(b2) >= 69` — skyfield/iokit.py:452. -/
def isLine2 (b : Line) : Bool := "2 ".toList.isPrefixOf b && decide (69 ≤ b.length)

/-- `b0.rstrip(b' \n\r')`, then without a leading `'0 '` — skyfield/iokit.py:456-458. -/
def cleanName (b0 : Line) : Line :=
  let b := (b0.reverse.dropWhile fun c => c = ' ' || c = '\n' || c = '\r').reverse
  if "0 ".toList.isPrefixOf b then b.drop 2 else b

/-- The name taken from the line before a pair — skyfield/iokit.py:455-461. -/
def nameOf (skipNames : Bool) (b0 : Line) : Option Line :=
  if !skipNames && b0 ≠ [] then some (cleanName b0) else none

/-- The two lines and the name from which a satellite is made. Used at skyfield/iokit.py:450-470. -/
structure Elements where
  name : Option Line
  line1 : Line
  line2 : Line
deriving DecidableEq

/-- The loop of `parse_tle_file` — skyfield/iokit.py:450-470 — with the pairs it finds. -/
def tlePairs (skipNames : Bool) (b0 b1 : Line) : List Line → List Elements
  | [] => []
  | b2 :: rest =>
      if isLine2 b2 && isLine1 b1 then ⟨nameOf skipNames b0, b1, b2⟩ :: tlePairs skipNames [] [] rest
      else tlePairs skipNames b1 b2 rest

/-- The exceptions of these functions. Used at skyfield/iokit.py:459-465. -/
inductive TleError (E : Type*)
  | notAscii
  | satellite (e : E)

/-- Whether a byte is an ASCII character. Used at skyfield/iokit.py:459-465. -/
def isAscii (b : Line) : Bool := b.all fun c => decide (c.toNat < 128)

/-- The body of the loop once a pair is found: decode, then build the satellite — skyfield/iokit.py:459-465. -/
def makeSatellite {E Sat : Type*} (build : Line → Line → Option Line → Except E Sat) (e : Elements) :
    Except (TleError E) Sat :=
  if (e.name.all isAscii) && isAscii e.line1 && isAscii e.line2 then
    match build e.line1 e.line2 e.name with
    | .ok s => .ok s
    | .error err => .error (.satellite err)
  else .error .notAscii

/-- `list(parse_tle_file(lines, skip_names=...))`, as in `Loader.tle_file` — skyfield/iokit.py:257-274. -/
def parseTleFile {E Sat : Type*} (build : Line → Line → Option Line → Except E Sat) (skipNames : Bool)
    (lines : List Line) : Except (TleError E) (List Sat) :=
  (tlePairs skipNames [] [] lines).mapM (makeSatellite build)

/-- `name.split(' (')`. Used at skyfield/iokit.py:417-426. -/
def splitParen : Line → List Line
  | [] => [[]]
  | ' ' :: '(' :: rest => [] :: splitParen rest
  | c :: rest =>
      match splitParen rest with
      | [] => [[c]]
      | x :: xs => (c :: x) :: xs

/-- The names under which `Loader.tle` (deprecated) lists a satellite — skyfield/iokit.py:417-426; `none` is the
`ValueError` of an unpacking into two that does not fit. -/
def tleNames (name : Option Line) : Option (List Line) :=
  match name with
  | none | some [] => some []
  | some n =>
      match splitParen n with
      | [_] => some [n]
      | [short, secondary] =>
          some [n, short, (secondary.reverse.dropWhile (· = ')')).reverse]
      | _ => none

end Skyfield
