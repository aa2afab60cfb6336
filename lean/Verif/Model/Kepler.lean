import Verif.Model.Spherical
import Mathlib.Analysis.SpecialFunctions.Trigonometric.Inverse
import Mathlib.Analysis.SpecialFunctions.Trigonometric.Arctan
import Mathlib.Analysis.SpecialFunctions.Pow.Real

/-
Orbital elements — skyfield/keplerlib.py, skyfield/data/mpc.py.  Exact real arithmetic, scalar arguments.
-/
namespace Skyfield
open Real

/-! ### From elements to a state -/

/-- What `ele_to_vec` does. Used at skyfield/keplerlib.py:323-373. -/
inductive EleResult
  | state (position velocity : Vec3)
  | valueError

/-- `ele_to_vec` — skyfield/keplerlib.py:323-373, for scalars (lines 343-345 and 351-353 are the checks).  Where line 355
divides by zero (`1 + e*cos(v) == 0`: the point at infinity) the code gives infinities and `nan`; theorems exclude that. -/
noncomputable def eleToVec (p e i Om w v mu : ℝ) : EleResult :=
  open Classical in
  if e > 1 ∧ v > arccos (-1 / e) then .valueError
  else if ¬ (0 ≤ i ∧ i ≤ π) then .valueError
  else
    let r := p / (1 + e * cos v)
    let h := √(p * mu)
    let u := v + w
    let X := r * (cos Om * cos u - sin Om * sin u * cos i)
    let Y := r * (sin Om * cos u + cos Om * sin u * cos i)
    let Z := r * (sin i * sin u)
    let Xdot := X * h * e / (r * p) * sin v - h / r * (cos Om * sin u + sin Om * cos u * cos i)
    let Ydot := Y * h * e / (r * p) * sin v - h / r * (sin Om * sin u - cos Om * cos u * cos i)
    let Zdot := Z * h * e / (r * p) * sin v + h / r * sin i * cos u
    .state ⟨X, Y, Z⟩ ⟨Xdot, Ydot, Zdot⟩

/-! ### Anomalies -/

/-- `normpi` — skyfield/elementslib.py:242-243. -/
noncomputable def normpi (x : ℝ) : ℝ := pyMod (x + π) tau - π

/-- The loop of `eccentric_anomaly` — skyfield/keplerlib.py:283-292; `none` is `ValueError`.  A division by zero gives
`nan`, which never passes the test of line 289. -/
noncomputable def eccentricLoop (e M : ℝ) : ℕ → ℝ → Option ℝ
  | 0, _ => none
  | n + 1, E =>
    let f1 := 1 - e * cos E
    let f2 := e * sin E
    let f := E - f2 - M
    let den := f1 * f1 - 1 / 2 * f * f2
    open Classical in
    if den = 0 then none
    else
      let dE := f * f1 / den
      let E' := E - dE
      if |dE| < 1e-14 then some E' else eccentricLoop e M n E'

/-- `eccentric_anomaly` — skyfield/keplerlib.py:271-292.  A division by zero (e = 0, or ebar = 0, that is e = π/4) raises
`ZeroDivisionError` for Python floats and for NumPy floats leads to `nan` and then `ValueError`; either is `none`. -/
noncomputable def eccentricAnomaly (e M : ℝ) : Option ℝ :=
  let M := normpi M
  let signM := SignType.sign M
  let M := M * (signM : ℝ)
  open Classical in
  if e = 0 then none
  else
    let ebar := 1 / 4 * π / e - 1
    if ebar = 0 then none
    else
      let E := 1 / 2 * π * ebar * ((SignType.sign ebar : ℝ) * √(1 + M / (e * ebar * ebar)) - 1)
      (eccentricLoop e M 10 E).map (· * (signM : ℝ))

/-- `true_anomaly_hyperbolic` — skyfield/keplerlib.py:294-300. -/
noncomputable def trueAnomalyHyperbolic (e E : ℝ) : ℝ := 2 * arctan (√((e + 1) / (e - 1)) * tanh (E / 2))

/-- `true_anomaly_closed` — skyfield/keplerlib.py:302-308. -/
noncomputable def trueAnomalyClosed (e E : ℝ) : ℝ := 2 * arctan (√((1 + e) / (1 - e)) * tan (E / 2))

/-- `true_anomaly_parabolic` — skyfield/keplerlib.py:310-321. -/
noncomputable def trueAnomalyParabolic (p gm M : ℝ) : ℝ :=
  let deltaT := √(2 * p ^ 3 / gm) * M
  let periapsis := p / 2
  let A := 3 / 2 * √(gm / (2 * periapsis ^ 3)) * deltaT
  let B := (A + (A * A + 1)) ^ (1 / 3 : ℝ)
  2 * arctan (B - 1 / B)

/-- The true anomaly of `_from_mean_anomaly` — skyfield/keplerlib.py:193-202. -/
noncomputable def trueFromMean (p e gm M : ℝ) : Option ℝ :=
  open Classical in
  if e < 1 then (eccentricAnomaly e M).map (trueAnomalyClosed e)
  else if e > 1 then (eccentricAnomaly e M).map (trueAnomalyHyperbolic e)
  else some (trueAnomalyParabolic p gm M)

/-! ### Comets -/

/-- The semilatus rectum of `comet_orbit` — skyfield/data/mpc.py:216-221. -/
noncomputable def cometP (q e : ℝ) : ℝ :=
  open Classical in
  if e = 1 then q * 2
  else
    let a := q / (1 - e)
    a * (1 - e * e)

/-- The semilatus rectum of `_comet_orbits` — skyfield/data/mpc.py:240-244, one element. -/
noncomputable def cometsP (q e : ℝ) : ℝ :=
  open Classical in
  let parabolic : ℝ := if e = 1 then 1 else 0
  let p := (1 - e * e) / (1 - e + parabolic)
  let p := if e = 1 then p + 2 else p
  p * q

end Skyfield
