import Verif.Model.NutationData
import Verif.Model.EarthRotation
import Mathlib.Data.Fin.VecNotation

/-
Nutation and the equation of the equinoxes — skyfield/nutationlib.py, skyfield/timelib.py:855-863.  Exact real arithmetic,
for one date.  The amplitudes are those of the bundled file (`NutationData`); the integer multipliers of the fundamental
arguments (`nals_t`, `napl_t`, `ke0_t`, `ke1`) are parameters.
-/
namespace Skyfield
open Real

/-- `l[k:]` for a possibly negative `k` — the language's slice, used at skyfield/nutationlib.py:357. -/
def pySliceFrom {α : Type} (l : List α) (k : ℤ) : List α :=
  if k < 0 then l.drop (l.length - (-k).toNat) else l.drop k.toNat

/-- `l[:k]` for a possibly negative `k` — used at skyfield/nutationlib.py:263-297. -/
def pySliceTo {α : Type} (l : List α) (k : ℤ) : List α :=
  if k < 0 then l.take (l.length - (-k).toNat) else l.take k.toNat

/-- `fmod`: the remainder with the sign of the dividend — skyfield/nutationlib.py:363. -/
noncomputable def fmod (a b : ℝ) : ℝ :=
  open Classical in a - b * ((if 0 ≤ a / b then ⌊a / b⌋ else ⌈a / b⌉ : ℤ) : ℝ)

/-- `fa0 … fa4`: row `i` holds the coefficients of argument `i` — skyfield/nutationlib.py:319-337. -/
noncomputable def faTable : Fin 5 → Fin 5 → ℝ :=
  ![![485868.249036, 1717915923.2178, 31.8792, 0.051635, -0.00024470],
    ![1287104.79305, 129596581.0481, -0.5532, 0.000136, -0.00001149],
    ![335779.526232, 1739527262.8478, -12.7512, -0.001037, 0.00000417],
    ![1072260.70369, 1602961601.2090, -6.3706, 0.006593, -0.00003169],
    ![450160.398036, -6962890.5431, 7.4722, 0.007702, -0.00005939]]

/-- The loop of `fundamental_arguments` over the chosen columns — skyfield/nutationlib.py:358-367.  `none`: `next()` raises
`StopIteration`. -/
noncomputable def argumentsFrom (asec t : ℝ) : List (Fin 5) → Option (Fin 5 → ℝ)
  | [] => none
  | j :: js => some fun i =>
    let a := faTable i j * t
    let a := js.foldl (fun a k => (a + faTable i k) * t) a
    let a := a + faTable i 0
    let a := fmod a 1296000
    a * asec

/-- `fundamental_arguments` — skyfield/nutationlib.py:339-367, for one date.  `asec` is the constant `ASEC2RAD`. -/
noncomputable def fundamentalArguments (asec t : ℝ) (terms : ℤ) : Option (Fin 5 → ℝ) :=
  argumentsFrom asec t (pySliceFrom [4, 3, 2, 1] (-terms + 1))

/-- The tables of integer multipliers — skyfield/nutationlib.py:9-14. -/
structure NutationMultipliers where
  nals : List (Fin 5 → ℤ)
  napl : List (Fin 14 → ℤ)
  ke0 : List (Fin 14 → ℤ)
  ke1 : Fin 14 → ℤ

/-- `row.dot(a)`. Used at skyfield/nutationlib.py:262-299. -/
noncomputable def multiplierDot {n : ℕ} (row : Fin n → ℤ) (a : Fin n → ℝ) : ℝ := ∑ i, (row i : ℝ) * a i

/-- `dot(f(arg), coefficients)`. Used at skyfield/nutationlib.py:262-299. -/
noncomputable def seriesDot (f : ℝ → ℝ) (arg : List ℝ) (coefficients : List ℤ) : ℝ :=
  (List.zipWith (fun a (c : ℤ) => f a * c) arg coefficients).sum

/-- `anomaly_constant` and `anomaly_coefficient` — skyfield/nutationlib.py:205-234. -/
noncomputable def anomalyTable : Fin 14 → ℝ × ℝ :=
  ![(2.35555598, 8328.6914269554), (6.24006013, 628.301955), (1.627905234, 8433.466158131),
    (5.198466741, 7771.3771468121), (2.18243920, -33.757045), (4.402608842, 2608.7903141574),
    (3.176146697, 1021.3285546211), (1.753470314, 628.3075849991), (6.203480913, 334.0612426700),
    (0.599546497, 52.9690962641), (0.874016757, 21.3299104960), (5.481293871, 7.4781598567),
    (5.321159000, 3.8127774000), (0.02438175, 0.00000538691)]

/-- The arguments of the planetary terms — skyfield/nutationlib.py:281-285. -/
noncomputable def planetaryArguments (t : ℝ) (i : Fin 14) : ℝ :=
  let a := t * (anomalyTable i).2 + (anomalyTable i).1
  if i = 13 then a * t else a

/-- The sums of the two series, given the fundamental arguments: the angles in tenths of a microarcsecond —
skyfield/nutationlib.py:262-299. -/
noncomputable def nutationSums (m : NutationMultipliers) (t : ℝ) (lunisolarTerms planetaryTerms : ℤ) (a : Fin 5 → ℝ) :
    ℝ × ℝ :=
  let cutoff := lunisolarTerms
  let arg := (pySliceTo m.nals cutoff).map (multiplierDot · a)
  let dpsi := seriesDot sin arg (pySliceTo lunisolarLongitude0 cutoff)
  let dpsi := dpsi + seriesDot sin arg (pySliceTo lunisolarLongitude1 cutoff) * t
  let dpsi := dpsi + seriesDot cos arg (pySliceTo lunisolarLongitude2 cutoff)
  let deps := seriesDot cos arg (pySliceTo lunisolarObliquity0 cutoff)
  let deps := deps + seriesDot cos arg (pySliceTo lunisolarObliquity1 cutoff) * t
  let deps := deps + seriesDot sin arg (pySliceTo lunisolarObliquity2 cutoff)
  if planetaryTerms = 0 then (dpsi, deps)
  else
    let cutoff := planetaryTerms
    let arg := (pySliceTo m.napl cutoff).map (multiplierDot · (planetaryArguments t))
    let dpsi := dpsi + seriesDot sin arg (pySliceTo planetaryLongitude0 cutoff)
    let dpsi := dpsi + seriesDot cos arg (pySliceTo planetaryLongitude1 cutoff)
    let deps := deps + seriesDot sin arg (pySliceTo planetaryObliquity0 cutoff)
    let deps := deps + seriesDot cos arg (pySliceTo planetaryObliquity1 cutoff)
    (dpsi, deps)

/-- `iau2000a` — skyfield/nutationlib.py:236-299. -/
noncomputable def iau2000a (m : NutationMultipliers) (asec jdTt : ℝ) (fundamentalArgumentTerms lunisolarTerms
    planetaryTerms : ℤ) : Option (ℝ × ℝ) :=
  let t := (jdTt - t0) / 36525
  (fundamentalArguments asec t fundamentalArgumentTerms).map (nutationSums m t lunisolarTerms planetaryTerms)

/-- `iau2000b` — skyfield/nutationlib.py:301-317. -/
noncomputable def iau2000b (m : NutationMultipliers) (asec jdTt : ℝ) : Option (ℝ × ℝ) :=
  (iau2000a m asec jdTt 2 77 0).map fun (dpsi, deps) => (dpsi + -0.000135e7, deps + 0.000388e7)

/-- `iau2000a_radians`, with `_TENTH_USEC_2_RAD` — skyfield/nutationlib.py:6, 26-33. -/
noncomputable def iau2000aRadians (m : NutationMultipliers) (jdTt : ℝ) (fundamentalArgumentTerms lunisolarTerms
    planetaryTerms : ℤ) : Option (ℝ × ℝ) :=
  (iau2000a m asec2rad jdTt fundamentalArgumentTerms lunisolarTerms planetaryTerms).map fun (dpsi, deps) =>
    (dpsi * (asec2rad / 1e7), deps * (asec2rad / 1e7))

/-- `iau2000b_radians` — skyfield/nutationlib.py:35-40. -/
noncomputable def iau2000bRadians (m : NutationMultipliers) (jdTt : ℝ) : Option (ℝ × ℝ) :=
  (iau2000b m asec2rad jdTt).map fun (dpsi, deps) => (dpsi * (asec2rad / 1e7), deps * (asec2rad / 1e7))

/-- The arguments `fa` of the complementary terms — skyfield/nutationlib.py:130-189. -/
noncomputable def equinoxArguments (asec t : ℝ) (i : Fin 14) : ℝ :=
  let fa : Fin 14 → ℝ := ![
    (485868.249036 + (715923.2178 + (31.8792 + (0.051635 + (-0.00024470) * t) * t) * t) * t) * asec
      + pyMod (1325.0 * t) 1.0 * tau,
    (1287104.793048 + (1292581.0481 + (-0.5532 + (0.000136 + (-0.00001149) * t) * t) * t) * t) * asec
      + pyMod (99.0 * t) 1.0 * tau,
    (335779.526232 + (295262.8478 + (-12.7512 + (-0.001037 + 0.00000417 * t) * t) * t) * t) * asec
      + pyMod (1342.0 * t) 1.0 * tau,
    (1072260.703692 + (1105601.2090 + (-6.3706 + (0.006593 + (-0.00003169) * t) * t) * t) * t) * asec
      + pyMod (1236.0 * t) 1.0 * tau,
    (450160.398036 + (-482890.5431 + (7.4722 + (0.007702 + (-0.00005939) * t) * t) * t) * t) * asec
      + pyMod (-5.0 * t) 1.0 * tau,
    4.402608842 + 2608.7903141574 * t,
    3.176146697 + 1021.3285546211 * t,
    1.753470314 + 628.3075849991 * t,
    6.203480913 + 334.0612426700 * t,
    0.599546497 + 52.9690962641 * t,
    0.874016757 + 21.3299104960 * t,
    5.481293872 + 7.4781598567 * t,
    5.311886287 + 3.8133035638 * t,
    (0.024381750 + 0.00000538691 * t) * t]
  pyMod (fa i) tau

/-- `equation_of_the_equinoxes_complimentary_terms`, in radians — skyfield/nutationlib.py:100-203, with `se1_0` and
`se1_1` of lines 371-372. -/
noncomputable def equinoxTerms (m : NutationMultipliers) (asec jdTt : ℝ) : ℝ :=
  let t := (jdTt - t0) / 36525
  let fa := equinoxArguments asec t
  let a := multiplierDot m.ke1 fa
  let c := -0.87e-6 * sin a
  let c := c + 0.00e-6 * cos a
  let c := c * t
  let a := m.ke0.map (multiplierDot · fa)
  let c := c + seriesDot sin a equinoxes0 / 1e8
  let c := c + seriesDot cos a equinoxes1 / 1e8
  c * asec

/-- `Time.gast` from its ingredients — skyfield/timelib.py:855-863. -/
noncomputable def gastAt (m : NutationMultipliers) (gmst dPsi meanObliquityRadians jdTt : ℝ) : ℝ :=
  gastHours gmst (dPsi * cos meanObliquityRadians + equinoxTerms m asec2rad jdTt)

/-- `earth_tilt` — skyfield/nutationlib.py:381-389: mean and true obliquity in degrees, equation of the equinoxes in seconds
of time, nutation angles in arcseconds. -/
noncomputable def earthTilt (m : NutationMultipliers) (dPsi dEps meanObliquityRadians jdTt : ℝ) : ℝ × ℝ × ℝ × ℝ × ℝ :=
  let trueOb := meanObliquityRadians + dEps
  let cTerms := equinoxTerms m asec2rad jdTt
  let eqEq := dPsi * cos meanObliquityRadians + cTerms
  (meanObliquityRadians / deg2rad, trueOb / deg2rad, eqEq / asec2rad / 15.0, dPsi / asec2rad, dEps / asec2rad)

end Skyfield
