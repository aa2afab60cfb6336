import Verif.Model.Utc
import Verif.Model.Units
import Verif.Spec.TimeFormat

/-
The text step of `strftime`: the regular expressions that look at the format, the replacement of `%f` by `%Z`, and the call of
`time.strftime` — skyfield/timelib.py:215-261, 652-658, 1196-1256.  Texts are lists of characters.
-/
namespace Skyfield
open Spec

variable {K : Type*} [Field K] [LinearOrder K] [FloorRing K]

/-- `[-_0^#EO]*[final]` at the start of a text; gives the rest — skyfield/timelib.py:1196-1198.  No character belongs to both
classes, so there is nothing to backtrack over. -/
def matchAfterPercent (final : List Char) : List Char → Option (List Char)
  | [] => none
  | c :: cs =>
    if c ∈ ['-', '_', '0', '^', '#', 'E', 'O'] then matchAfterPercent final cs
    else if c ∈ final then some cs
    else none

/-- `re.compile('%[-_0^#EO]*[final]').search` — skyfield/timelib.py:1196-1198: the text before the first match, and the text
after it. -/
def searchDirective (final : List Char) : List Char → Option (List Char × List Char)
  | [] => none
  | c :: cs =>
    let here := if c = '%' then matchAfterPercent final cs else none
    match here with
    | some rest => some ([], rest)
    | none => (searchDirective final cs).map fun (before, rest) => (c :: before, rest)

/-- `_strftime_offset_seconds`, the choice of unit — skyfield/timelib.py:1218-1230 (the branch for Python 2 is left out). -/
def formatUnit (format : List Char) : StrftimeUnit :=
  if (searchDirective ['f'] format).isSome then .micro
  else if (searchDirective ['S', 'T', 'X', 'c'] format).isSome then .second
  else if (searchDirective ['M', 'R'] format).isSome then .minute
  else .other

/-- `time.strftime` of the C library, reading a format from left to right; `flags` are those read since the percent sign.  What one
directive shows is left to the library.  At the end of the format an unfinished directive is shown as it is (glibc).
Used at skyfield/timelib.py:240-261, 1240-1256. -/
def libraryFormat (lib : Library) (tm : TmTuple) : Option (List Char) → List Char → List Char
  | none, [] => []
  | some flags, [] => '%' :: flags
  | none, c :: cs => if c = '%' then libraryFormat lib tm (some []) cs else c :: libraryFormat lib tm none cs
  | some flags, c :: cs =>
    if c ∈ ['-', '_', '0', '^', '#', 'E', 'O'] then libraryFormat lib tm (some (flags ++ [c])) cs
    else if c = '%' then '%' :: libraryFormat lib tm none cs
    else lib flags c tm ++ libraryFormat lib tm none cs

/-- The tuple handed over. Used at skyfield/timelib.py:240-261, 1240-1256. -/
def StrftimeFields.tm (f : StrftimeFields) (zone : List Char) : TmTuple :=
  ⟨f.year, f.month, f.day, f.hour, f.minute, f.second, f.weekday, f.yday, zone⟩

/-- The end of `_strftime` — skyfield/timelib.py:240-261, 1240-1256, for one time.  `zone` is what the library takes for the zone's
name if none is passed. -/
def formatFields (lib : Library) (zone : List Char) (format : List Char) (f : StrftimeFields) : List Char :=
  match searchDirective ['f'] format with
  | some (before, rest) => libraryFormat lib (f.tm (zeroPad 6 f.usec)) none (before ++ ['%', 'Z'] ++ rest)
  | none => libraryFormat lib (f.tm zone) none format

/-- `Time.utc_strftime(format)` — skyfield/timelib.py:652-658. -/
def Time.utcStrftimeText (lib : Library) (zone : List Char) (t : Time K) (format : List Char) : Option (List Char) :=
  (t.utcStrftime (formatUnit format)).map (formatFields lib zone format)

/-- `Timescale._strftime(format, jd, fraction)` — skyfield/timelib.py:215-261: the day of the year is computed only if the format
has a `%j`, and is 0 otherwise (lines 234-238).  `seconds_bump` is never passed. -/
def Timescale.strftimeText (lib : Library) (zone : List Char) (ts : Timescale K) (format : List Char) (jd fraction : K) : List Char :=
  let f := ts.strftime (formatUnit format) jd fraction
  let f := if (searchDirective ['j'] format).isSome then f else { f with yday := 0 }
  formatFields lib zone format f

end Skyfield
