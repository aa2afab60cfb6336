import Verif.Model.MinorPlanets
import Verif.Model.TextPck

/-
The Minor Planet Center's orbit file — skyfield/data/mpc.py:15-110.  One line of the file; how pandas turns the text of a field into a
number is a parameter.
-/
namespace Skyfield

/-- `_MPCORB_COLUMNS` — skyfield/data/mpc.py:15-39. -/
def mpcorbColumns : List (String × ℕ × ℕ) :=
  [("designation_packed", 0, 7), ("magnitude_H", 8, 13), ("magnitude_G", 14, 19), ("epoch_packed", 20, 25),
   ("mean_anomaly_degrees", 26, 35), ("argument_of_perihelion_degrees", 37, 46), ("longitude_of_ascending_node_degrees", 48, 57),
   ("inclination_degrees", 59, 68), ("eccentricity", 70, 79), ("mean_daily_motion_degrees", 80, 91), ("semimajor_axis_au", 92, 103),
   ("uncertainty", 105, 106), ("reference", 107, 116), ("observations", 117, 122), ("oppositions", 123, 126),
   ("observation_period", 127, 136), ("rms_residual_arcseconds", 137, 141), ("coarse_perturbers", 142, 145),
   ("precise_perturbers", 146, 149), ("computer_name", 150, 160), ("hex_flags", 161, 165), ("designation", 166, 194),
   ("last_observation_date", 194, 202)]

/-- The fields of a line in `load_mpcorb_dataframe`, by name — skyfield/data/mpc.py:59-78: pandas' `read_fwf` takes the columns from
`start` up to `stop` and strips them. -/
def mpcorbFields (line : List Char) : List (String × List Char) :=
  mpcorbColumns.map fun c => (c.1, pyStrip ((line.drop c.2.1).take (c.2.2 - c.2.1)))

/-- The numbers of a row that `mpcorb_orbit` reads, by attribute — skyfield/data/mpc.py:81-83, 94-104; `none` where the field is not
a number. -/
def mpcorbRow (toNumber : List Char → Option ℝ) (line : List Char) : Option MinorPlanetRow := do
  let row := mpcorbFields line
  let a ← (← row.lookup "semimajor_axis_au") |> toNumber
  let e ← (← row.lookup "eccentricity") |> toNumber
  let epochPacked ← row.lookup "epoch_packed"
  let i ← (← row.lookup "inclination_degrees") |> toNumber
  let Om ← (← row.lookup "longitude_of_ascending_node_degrees") |> toNumber
  let w ← (← row.lookup "argument_of_perihelion_degrees") |> toNumber
  let M ← (← row.lookup "mean_anomaly_degrees") |> toNumber
  return { epochPacked, M, w, Om, i, e, a }

/-- `mpcorb_orbit(row, ts, gm)` for the row that `load_mpcorb_dataframe` makes of a line — skyfield/data/mpc.py:59-110. -/
noncomputable def mpcorbLineOrbit (toNumber : List Char → Option ℝ) (ts : Timescale ℝ) (gm : ℝ) (line : List Char) :
    Option KeplerOrbit :=
  (mpcorbRow toNumber line).bind fun row => mpcorbOrbit ts row gm

end Skyfield
