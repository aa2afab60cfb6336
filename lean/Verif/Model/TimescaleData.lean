import Verif.Model.Utc

/-
Model of how a timescale's tables are built from data files: `build_timescale_arrays`
(skyfield/data/iers.py:37-61), `parse_leap_seconds`, `_build_legacy_data` and the month of
`parse_deltat_preds` (skyfield/io_timescale.py), and the legacy-table adjustment in `Timescale.__init__`.
The reading of numbers from text is not modelled.  `K` is ℚ or ℝ.
-/
namespace Skyfield

variable {K : Type*} [Field K] [LinearOrder K] [FloorRing K]

/-- `leap_second_mask` — skyfield/data/iers.py:38-39. -/
def leapMask (dut1 : List K) : List Bool :=
  false :: List.zipWith (fun a b => decide (b - a > 9 / 10)) dut1 dut1.tail

/-- `np.cumsum(mask)`. Used at skyfield/data/iers.py:40. -/
def cumsumFrom (acc : ℕ) : List Bool → List ℕ
  | [] => []
  | b :: bs => (acc + b.toNat) :: cumsumFrom (acc + b.toNat) bs

/-- `tt_minus_utc` — skyfield/data/iers.py:40. -/
def ttMinusUtc (dut1 : List K) : List K :=
  (cumsumFrom 0 (leapMask dut1)).map fun n : ℕ => (n : K) + 32184 / 1000 + 12

/-- `utc_mjd[leap_second_mask]` — skyfield/data/iers.py:44. -/
def maskedDates (mjd : List K) (mask : List Bool) : List K :=
  (mjd.zip mask).filterMap fun p => if p.2 then some p.1 else none

/-- `more_leaps` — skyfield/data/iers.py:49-50. -/
def moreLeaps (leapDates : List K) : List K :=
  [41499, 41683].filter fun mjd => decide (leapDates.head?.getD 0 > mjd)

/-- The arrays a timescale is made of. Used at skyfield/data/iers.py:37-55. -/
structure TimescaleArrays (K : Type*) where
  dailyTt : List K
  dailyDeltaT : List K
  leapDates : List K
  leapOffsets : List K

/-- `build_timescale_arrays(utc_mjd, dut1)` — skyfield/data/iers.py:37-55.  `round7` is NumPy's rounding to seven
decimals.  The two arrays have the same length, at least one (otherwise NumPy raises). -/
def buildTimescaleArrays (round7 : K → K) (mjd dut1 : List K) : TimescaleArrays K :=
  let tmu := ttMinusUtc dut1
  let leaps := maskedDates mjd (leapMask dut1)
  let leapDates := moreLeaps leaps ++ leaps
  { dailyTt := List.zipWith (fun m d => m + d / dayS + 24000005 / 10) mjd tmu
    dailyDeltaT := List.zipWith (fun d u => round7 (d - u)) tmu dut1
    leapDates := leapDates.map (· + 24000005 / 10)
    leapOffsets := (List.range leapDates.length).map fun i : ℕ => 11 + (i : K) }

/-- A float that may be infinite. Used at skyfield/io_timescale.py:97-104. -/
inductive MaybeInf (K : Type*)
  | negInf
  | num (x : K)
  | posInf

/-- `isinf(x)`. Used at skyfield/timelib.py:119-122. -/
def MaybeInf.isInf : MaybeInf K → Bool
  | .num _ => false
  | _ => true

/-- The number, if it is finite. Used at skyfield/timelib.py:119-122. -/
def MaybeInf.num? : MaybeInf K → Option K
  | .num x => some x
  | _ => none

/-- The tables `parse_leap_seconds` makes from the rows of `Leap_Second.dat` — skyfield/io_timescale.py:97-104. -/
def parseLeapSeconds (rows : List (K × K)) : List (MaybeInf K) × List K :=
  let mjd := rows.map Prod.fst
  let offsets := rows.map Prod.snd
  (.negInf :: (mjd.map fun m => MaybeInf.num (m + 24000005 / 10)) ++ [.posInf],
    (offsets.take 1 ++ offsets.take 1) ++ offsets)

/-- The leap second part of `Timescale.__init__` — skyfield/timelib.py:119-122: the arrays after the adjustment for
legacy tables.  `none` is the `IndexError` on an empty table, or a table with stray infinities. -/
def timescaleLeaps (dates : List (MaybeInf K)) (offsets : List K) : Option (List K × List K) :=
  match dates.getLast? with
  | none => none
  | some last =>
    let isLegacy := last.isInf
    let dates := if isLegacy then (dates.drop 2).dropLast else dates
    let offsets := if isLegacy then offsets.drop 3 else offsets
    (dates.mapM MaybeInf.num?).map fun d => (d, offsets)

/-- `_build_legacy_data`, the Delta-T part — skyfield/io_timescale.py:11-13; columns are pairs (date, Delta T).
`np.searchsorted(preds, end, side='right')` on a sorted row counts the entries `≤ end`.  `none` is the
`IndexError` on an empty `deltat.data`. -/
def legacyDeltaT (data preds : List (K × K)) : Option (List (K × K)) :=
  match data.getLast? with
  | none => none
  | some last =>
    let i := (preds.takeWhile fun p => decide (p.1 ≤ last.1)).length
    some (data ++ preds.drop i)

/-- The year and month of `parse_deltat_preds` — skyfield/io_timescale.py:59-60. -/
def predsMonth (yearFloat : K) : ℤ × ℤ :=
  (astypeInt yearFloat, 1 + astypeInt (yearFloat * 12) % 12)

end Skyfield
