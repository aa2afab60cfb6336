import Verif.Model.Calendar
import Verif.Model.DataFiles
import Verif.Model.DeltaT
import Verif.Model.Loader
import Verif.Model.PolarMotion
import Verif.Model.TimescaleData

/-
Model of `load.timescale()` (skyfield/iokit.py:332-380) from the text of the files on: the three old files that skyfield/io_timescale.py reads, the file
`finals2000A.all`, and the bundled arrays (skyfield/data/iers.npz, written by builders/build_arrays.py:56-82); also `build_delta_t_table`
(skyfield/timelib.py:1176-1194).  `none` is an exception.  What Python accepts as a number is a parameter.  Exact arithmetic; `K` is ℚ or ℝ.
-/
namespace Skyfield

/-- `np.loadtxt(lines)`, the words of each row: what follows `#` is dropped, and so are lines without words.
Used at skyfield/io_timescale.py:17-30. -/
def loadtxtWords (lines : List (List Char)) : List (List (List Char)) :=
  (lines.map fun l => pySplit (l.takeWhile (· ≠ '#'))).filter fun ws => !ws.isEmpty

variable {K : Type} [Field K] [LinearOrder K] [FloorRing K]

/-- `julian_date()` — skyfield/timelib.py:1000-1009. -/
def julianDate (year month day hour minute : ℤ) (second : K) : K :=
  (julianDay year month day none : K) - 1 / 2 + (second + minute * 60 + hour * 3600) / dayS

/-- `julian_date_of_besselian_epoch()` — skyfield/timelib.py:1011-1012. -/
def julianDateOfBesselianEpoch (b : K) : K := 2415020.31352 + (b - 1900) * 365.242198781

section
variable (toInt : List Char → Option ℤ) (toNum : List Char → Option K)

/-- A row of `deltat.data` — skyfield/io_timescale.py:28-30.  The file's years, months and days are whole numbers; NumPy reads them as floats, with the
same result. -/
def deltatDataRow : List (List Char) → Option (K × K)
  | [y, m, d, v] => do return (julianDate (← toInt y) (← toInt m) (← toInt d) 0 0 0, ← toNum v)
  | _ => none

/-- NumPy makes a one-dimensional array of a file with one row, and of one without rows; the callers then raise.
Used at skyfield/io_timescale.py:17-30. -/
def severalRows {α : Type*} (rows : List α) : Option (List α) := if 2 ≤ rows.length then some rows else none

/-- `parse_deltat_data` — skyfield/io_timescale.py:17-30; pairs of Julian date and Delta T.  A single row is refused here and not, as in the program,
where its result is used. -/
def parseDeltatData (lines : List (List Char)) : Option (List (K × K)) := do
  severalRows (← (loadtxtWords lines).mapM (deltatDataRow toInt toNum))

/-- A row of `deltat.preds`, whose year stands in column `i` and Delta T in the next one — skyfield/io_timescale.py:52-61. -/
def deltatPredsRow (i : ℕ) (ws : List (List Char)) : Option (K × K) := do
  let yearFloat ← toNum (← ws[i]?)
  let v ← toNum (← ws[i + 1]?)
  return (julianDate (predsMonth yearFloat).1 (predsMonth yearFloat).2 1 0 0 0, v)

/-- `parse_deltat_preds` — skyfield/io_timescale.py:32-61. -/
def parseDeltatPreds (lines : List (List Char)) : Option (List (K × K)) := do
  match lines with
  | [] => none
  | header :: rest =>
    if "YEAR".toList.isPrefixOf header then
      match rest with
      | [] => none
      | _ :: rest => severalRows (← (loadtxtWords rest).mapM (deltatPredsRow toNum 0))
    else severalRows (← (loadtxtWords rest).mapM (deltatPredsRow toNum 1))

/-- A row of `Leap_Second.dat`: modified Julian day, day, month, year, TAI-UTC — skyfield/io_timescale.py:96. -/
def leapSecondRow : List (List Char) → Option (K × K)
  | [mjd, d, m, y, offset] => do
    let mjd ← toNum mjd
    let _ ← toNum d
    let _ ← toNum m
    let _ ← toNum y
    return (mjd, ← toNum offset)
  | _ => none

/-- `'#  File expires on'` — skyfield/io_timescale.py:77. -/
def expiresMark : List Char := "#  File expires on".toList

/-- The names of the months in the C locale. Used at skyfield/io_timescale.py:87. -/
def monthNames : List String :=
  ["january", "february", "march", "april", "may", "june", "july", "august", "september", "october", "november", "december"]

/-- `datetime.strptime(line, '#  File expires on %d %B %Y\n')` — skyfield/io_timescale.py:87 — for a line that begins with the mark; blanks in the format match
any number of blanks.  The date must exist. -/
def expiresDate (line : List Char) : Option Date :=
  let rest := line.drop expiresMark.length
  match rest.head?, rest.getLast?, pySplit rest with
  | some a, some z, [d, m, y] =>
    if isStripChar a && isStripChar z && d.length ≤ 2 && y.length == 4 && d.all Char.isDigit && y.all Char.isDigit then do
      let day ← toInt d
      let year ← toInt y
      let i ← monthNames.findIdx? (· == String.ofList (m.map Char.toLower))
      let date : Date := ⟨year, i + 1, day⟩
      if computeCalendarDate (julianDay date.year date.month date.day none) none = date ∧ 1 ≤ year then some date else none
    else none
  | _, _, _ => none

/-- `parse_leap_seconds` — skyfield/io_timescale.py:63-104: the date of expiration with the 30 days of grace, and the two arrays. -/
def parseLeapSecondFile (lines : List (List Char)) : Option (Date × List (MaybeInf K) × List K) := do
  match lines.dropWhile fun l => !expiresMark.isPrefixOf l with
  | [] => none
  | line :: rest =>
    let date ← expiresDate toInt line
    let rows ← severalRows (← (loadtxtWords rest).mapM (leapSecondRow toNum))
    return (computeCalendarDate (julianDay date.year date.month date.day none + 30) none, parseLeapSeconds rows)

end

/-- The arrays in `iers.npz`. Used builders/build_arrays.py:66-82. -/
structure BundledIers (K : Type) where
  ttJdMinusArange : List K
  deltaT1e7 : List K
  leapDates : List K
  leapOffsets : List K

/-- What `rebuild_iers_npz` saves — builders/build_arrays.py:66-82; `round0` is NumPy's rounding to whole numbers. -/
def saveIers (round0 : K → K) (a : TimescaleArrays K) : BundledIers K where
  ttJdMinusArange := a.dailyTt.zipIdx.map fun p => p.1 - (p.2 : K)
  deltaT1e7 := a.dailyDeltaT.map fun d => round0 (d * 10 ^ 7)
  leapDates := a.leapDates
  leapOffsets := a.leapOffsets

/-- What `Loader.timescale` makes of the bundled arrays — skyfield/iokit.py:352-358. -/
def openIers (round7 : K → K) (b : BundledIers K) : TimescaleArrays K where
  dailyTt := b.ttJdMinusArange.zipIdx.map fun p => p.1 + (p.2 : K)
  dailyDeltaT := b.deltaT1e7.map fun d => round7 (d / 10 ^ 7)
  leapDates := b.leapDates
  leapOffsets := b.leapOffsets

/-- A `Timescale` as the loader makes it: its Delta T as a function of TT, and the leap seconds it uses (skyfield/timelib.py:99-127). -/
structure LoadedTimescale (K : Type) where
  deltaT : K → Option K
  leapDates : List K
  leapOffsets : List K

/-- `Timescale.__init__` — skyfield/timelib.py:99-127 — on a Delta-T table (`Sum.inl`) or a function (`Sum.inr`). -/
def initTimescale (s15 : List (Piece K)) (recent : List (K × K) ⊕ (K → Option K)) (dates : List (MaybeInf K)) (offsets : List K) :
    Option (LoadedTimescale K) := do
  let f ← match recent with
    | .inl table => (buildDeltaT s15 (table.map Prod.fst) (table.map Prod.snd)).map DeltaT.call
    | .inr f => some f
  let (dates, offsets) ← timescaleLeaps dates offsets
  return ⟨f, dates, offsets⟩

/-- Where the data of a timescale can come from: the bundled arrays, the files in the loader's directory, and what the IERS server would deliver, if it can be
reached. Used at skyfield/iokit.py:370-371. -/
structure TimescaleSources (K : Type) where
  bundled : BundledIers K
  disk : FileName → Option (List (List Char))
  served : Option (List (List Char))

/-- `self.open(self.build_url('finals2000A.all'))` — skyfield/iokit.py:370-371: the lines of the file, and whether it was downloaded. -/
def finalsFile (src : TimescaleSources K) : Option (List (List Char) × Bool) :=
  match src.disk "finals2000A.all".toList with
  | some lines => some (lines, false)
  | none => src.served.map fun lines => (lines, true)

/-- The pair of arrays for Delta T and the leap seconds — skyfield/iokit.py:349-375 — and whether a file was downloaded. -/
def timescaleTables (toInt : List Char → Option ℤ) (toNum : List Char → Option K) (round7 : K → K) (src : TimescaleSources K) (builtin : Bool) :
    Option ((List (K × K) × List (MaybeInf K) × List K) × Bool) :=
  if builtin then
    let a := openIers round7 src.bundled
    some ((a.dailyTt.zip a.dailyDeltaT, a.leapDates.map .num, a.leapOffsets), false)
  else
    match src.disk "deltat.data".toList, src.disk "deltat.preds".toList, src.disk "Leap_Second.dat".toList with
    | some data, some preds, some leaps => do
      let deltatData ← parseDeltatData toInt toNum data
      let deltatPreds ← parseDeltatPreds toNum preds
      let (_, leapSecondDat) ← parseLeapSecondFile toInt toNum leaps
      let recent ← legacyDeltaT deltatData deltatPreds
      return ((recent, leapSecondDat), false)
    | _, _, _ => do
      let (lines, downloaded) ← finalsFile src
      let rows ← parseFinalsAll toNum lines
      let a := buildTimescaleArrays round7 (rows.map (·.utcMjd)) (rows.map (·.dut1))
      return ((a.dailyTt.zip a.dailyDeltaT, a.leapDates.map .num, a.leapOffsets), downloaded)

/-- `Loader.timescale(delta_t, builtin)` — skyfield/iokit.py:332-380: the timescale and whether a file was downloaded. -/
def loadTimescale (toInt : List Char → Option ℤ) (toNum : List Char → Option K) (round7 : K → K) (s15 : List (Piece K)) (src : TimescaleSources K)
    (deltaT : Option K) (builtin : Bool) : Option (LoadedTimescale K × Bool) := do
  let ((recent, dates, offsets), downloaded) ← timescaleTables toInt toNum round7 src builtin
  let recent := match deltaT with
    | some v => .inr (splinesCall [⟨0, 1, v, []⟩])
    | none => .inl recent
  return (← initTimescale s15 recent dates offsets, downloaded)

/-- `delta_t_parabola_morrison_stephenson_2004` — skyfield/timelib.py:1091-1092. -/
def parabola2004 : Piece K := ⟨1820, 1920, 0, [32, 0, -20]⟩

/-- `build_delta_t_table` — skyfield/timelib.py:1176-1194, with the bundled rows as an argument; `Time.J` is as at skyfield/timelib.py:811-820. -/
def buildDeltaTTable (bundled recent : List (K × K)) : Option (List (K × K)) := do
  let first ← recent.head?
  let i := searchsortedLeft (bundled.map Prod.fst) first.1
  let century : K := 36524
  let oldest ← bundled.head?
  let startTt := oldest.1 - century
  let last ← recent.getLast?
  let endTt := last.1 + century
  return [(startTt, parabola2004.eval (ttToJ startTt))] ++ bundled.take i ++ recent ++ [(endTt, parabola2004.eval (ttToJ endTt))]

end Skyfield
