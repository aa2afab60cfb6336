import Mathlib.Data.Nat.Notation

/-
Model of skyfield/data/text_pck.py: reading names and values from JPL text kernels, and of `PlanetaryConstants.read_text`
(skyfield/planetarylib.py:46-67).  A line is a list of ASCII characters.  What `float()` accepts and returns is a parameter.
-/
namespace Skyfield

/-- Regular expression class `\w` on bytes. Used at skyfield/data/text_pck.py:66. -/
def isWordChar (c : Char) : Bool := c.isAlphanum || c == '_'

/-- Regular expression class `[^), ]` — skyfield/data/text_pck.py:66. -/
def isPlainChar (c : Char) : Bool := c != ')' && c != ',' && c != ' '

/-- Bytes that `strip()` removes. Used at skyfield/data/text_pck.py:68-82. -/
def isStripChar (c : Char) : Bool := c == ' ' || c == '\t' || c == '\n' || c == '\r' || c == '\x0b' || c == '\x0c'

/-- `line.strip()`. Used at skyfield/data/text_pck.py:68-82. -/
def pyStrip (l : List Char) : List Char := ((l.dropWhile isStripChar).reverse.dropWhile isStripChar).reverse

/-- The last alternative of `_token_re`, `[^), ]+` — skyfield/data/text_pck.py:66. -/
def matchPlain (l : List Char) : Option (List Char × List Char) :=
  match l.takeWhile isPlainChar with
  | [] => none
  | t => some (t, l.dropWhile isPlainChar)

/-- `_token_re` at the start of `l`: the token matched and what follows it — skyfield/data/text_pck.py:66.
Alternatives are tried in the order written: `[A-Za-z]\w+`, `=`, `\+=`, `\(`, `\)`, `'[^']*'`, `[^), ]+`. -/
def matchToken (l : List Char) : Option (List Char × List Char) :=
  match l with
  | [] => none
  | c :: cs =>
    if c.isAlpha && !(cs.takeWhile isWordChar).isEmpty then some (c :: cs.takeWhile isWordChar, cs.dropWhile isWordChar)
    else if c = '=' then some (['='], cs)
    else if c = '+' && cs.head? = some '=' then some (['+', '='], cs.tail)
    else if c = '(' then some (['('], cs)
    else if c = ')' then some ([')'], cs)
    else if c = '\'' then
      match cs.dropWhile (· != '\'') with
      | _ :: rest => some ('\'' :: (cs.takeWhile (· != '\'') ++ ['\'']), rest)
      | [] => matchPlain l
    else matchPlain l

/-- `_token_re.findall(line)` — skyfield/data/text_pck.py:81: where nothing matches, one character is skipped.  `fuel` is at least the
number of characters. -/
def findTokens : ℕ → List Char → List (List Char)
  | 0, _ => []
  | _ + 1, [] => []
  | fuel + 1, c :: cs =>
    match matchToken (c :: cs) with
    | some (t, rest) => t :: findTokens fuel rest
    | none => findTokens fuel cs

/-- `_token_re.findall(line)`. Used at skyfield/data/text_pck.py:68-82. -/
def lineTokens (l : List Char) : List (List Char) := findTokens l.length l

/-- `\begindata`. Used at skyfield/data/text_pck.py:68-82. -/
def beginData : List Char := "\\begindata".toList

/-- `\begintext`. Used at skyfield/data/text_pck.py:68-82. -/
def beginText : List Char := "\\begintext".toList

/-- `_parse_tokens(lines)` — skyfield/data/text_pck.py:68-82.  `inData` tells which of the two nested loops is running.  (The substring
test at line 72 only saves time: a line that contains no `\begindata` is not equal to it when stripped.) -/
def pckTokens : Bool → List (List Char) → List (List Char)
  | _, [] => []
  | false, line :: rest => pckTokens (decide (pyStrip line = beginData)) rest
  | true, line :: rest =>
    if pyStrip line = beginText then pckTokens false rest else lineTokens (pyStrip line) ++ pckTokens true rest

/-- A value. Used at skyfield/data/text_pck.py:54-64. -/
inductive PckValue (F : Type)
  | str (s : List Char)
  | int (n : ℕ)
  | float (x : F)

/-- What can go wrong. Used at skyfield/data/text_pck.py:54-64. -/
inductive PckErr
  | valueError | notImplemented | stopIteration
deriving DecidableEq

variable {F : Type}

/-- `_evaluate(token)` — skyfield/data/text_pck.py:54-64; `pf` is Python's `float()`, `none` its `ValueError`. -/
def pckEvaluate (pf : List Char → Option F) (token : List Char) : Except PckErr (PckValue F) :=
  if token.head? = some '\'' then .ok (.str (token.tail.dropLast))
  else if !token.isEmpty && token.all Char.isDigit then .ok (.int (token.foldl (fun n c => 10 * n + (c.toNat - '0'.toNat)) 0))
  else if token.head? = some '@' then .error .notImplemented
  else match pf (token.map fun c => if c = 'D' then 'E' else c) with
    | some x => .ok (.float x)
    | none => .error .valueError

/-- `=` or `+=`. Used at skyfield/data/text_pck.py:28-52. -/
inductive PckOp
  | set | extend
deriving DecidableEq

/-- A statement as `parse` yields it. Used at skyfield/data/text_pck.py:28-52. -/
structure PckAssign (F : Type) where
  name : List Char
  op : PckOp
  values : List (PckValue F)

/-- The values up to the closing parenthesis (or to the end of the file) — skyfield/data/text_pck.py:44-49. -/
def pckValues (pf : List Char → Option F) : List (List Char) → Except PckErr (List (PckValue F) × List (List Char))
  | [] => .ok ([], [])
  | t :: rest =>
    if t = [')'] then .ok ([], rest)
    else match pckEvaluate pf t with
      | .error e => .error e
      | .ok v => match pckValues pf rest with
        | .error e => .error e
        | .ok (vs, rest) => .ok (v :: vs, rest)

/-- `parse(lines)` from the tokens — skyfield/data/text_pck.py:28-52: the statements yielded, and the exception (if any) that ended the
file.  Running out of tokens inside a statement is `StopIteration` inside a generator.  `fuel` is at least the number of tokens. -/
def pckParse (pf : List Char → Option F) : ℕ → List (List Char) → List (PckAssign F) × Option PckErr
  | 0, _ => ([], none)
  | _ + 1, [] => ([], none)
  | fuel + 1, name :: rest =>
    match rest with
    | [] => ([], some .stopIteration)
    | equals :: rest =>
      if equals ≠ ['='] ∧ equals ≠ ['+', '='] then ([], some .valueError)
      else
        let op := if equals = ['='] then PckOp.set else PckOp.extend
        match rest with
        | [] => ([], some .stopIteration)
        | t :: rest =>
          if t = ['('] then
            match pckValues pf rest with
            | .error e => ([], some e)
            | .ok (vs, rest) =>
              let (as, e) := pckParse pf fuel rest
              (⟨name, op, vs⟩ :: as, e)
          else
            match pckEvaluate pf t with
            | .error e => ([], some e)
            | .ok v =>
              let (as, e) := pckParse pf fuel rest
              (⟨name, op, [v]⟩ :: as, e)

/-- An entry of the `variables` dictionary. Used at skyfield/planetarylib.py:85-92. -/
inductive PckEntry (F : Type)
  | scalar (v : PckValue F)
  | list (vs : List (PckValue F))

/-- The `variables` dictionary. Used at skyfield/data/text_pck.py:14-26. -/
abbrev PckVars (F : Type) := List Char → Option (PckEntry F)

/-- `variables[name] = e`. Used at skyfield/data/text_pck.py:28-52. -/
def PckVars.set (vars : PckVars F) (name : List Char) (e : PckEntry F) : PckVars F := fun n => if n = name then some e else vars n

/-- One statement of `load` — skyfield/data/text_pck.py:14-26.  Note that when `old` is boxed, the box is never put into the dictionary. -/
def pckStep (vars : PckVars F) (a : PckAssign F) : PckVars F :=
  match a.op with
  | .set => match a.values with
    | [v] => vars.set a.name (.scalar v)
    | vs => vars.set a.name (.list vs)
  | .extend => match vars a.name with
    | none => vars.set a.name (.list ([] ++ a.values))
    | some (.scalar _) => vars
    | some (.list old) => vars.set a.name (.list (old ++ a.values))

/-- `load(lines, variables)` — skyfield/data/text_pck.py:12-26: the dictionary afterwards, and the exception if any.
Statements before an exception have taken effect. -/
def pckLoad (pf : List Char → Option F) (lines : List (List Char)) (vars : PckVars F) : PckVars F × Option PckErr :=
  let toks := pckTokens false lines
  let (as, e) := pckParse pf toks.length toks
  (as.foldl pckStep vars, e)

/-- `PlanetaryConstants.read_text(file)` — skyfield/planetarylib.py:46-67: the file must start with `KPL/FK` or `KPL/PCK`; the first seven
bytes (`start`) are read off, and `lines` are the rest. -/
def pckReadText (pf : List Char → Option F) (start : List Char) (lines : List (List Char)) (vars : PckVars F) :
    PckVars F × Option PckErr :=
  if "KPL/FK".toList.isPrefixOf start || "KPL/PCK".toList.isPrefixOf start then pckLoad pf lines vars else (vars, some .valueError)

end Skyfield
