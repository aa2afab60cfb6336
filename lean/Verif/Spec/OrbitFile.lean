import Verif.Spec.DataFiles

/-
The format of the Minor Planet Center's orbit file, as its documentation gives it: columns counted from one, both ends included.
-/
namespace Spec

/-- The columns of a field, counted from one, both ends included. -/
def columnsOf (line : List Char) (first last : ℕ) : List Char := (List.range' first (last + 1 - first)).filterMap fun c => line[c - 1]?

/-- `text` stands alone in the columns, with blanks around it. -/
def StandsIn (line : List Char) (first last : ℕ) (text : List Char) : Prop :=
  ∃ before after, columnsOf line first last = before ++ text ++ after ∧ (∀ c ∈ before, Blank c) ∧ (∀ c ∈ after, Blank c) ∧
    (∀ c, text.head? = some c → ¬ Blank c) ∧ ∀ c, text.getLast? = some c → ¬ Blank c

/-- The fields of a line of `MPCORB.DAT`, under the names Skyfield gives them, with the columns of the Minor Planet Center's
"Export Format For Minor-Planet Orbits". -/
def mpcorbFormat : List (String × ℕ × ℕ) :=
  [("designation_packed", 1, 7), ("magnitude_H", 9, 13), ("magnitude_G", 15, 19), ("epoch_packed", 21, 25),
   ("mean_anomaly_degrees", 27, 35), ("argument_of_perihelion_degrees", 38, 46), ("longitude_of_ascending_node_degrees", 49, 57),
   ("inclination_degrees", 60, 68), ("eccentricity", 71, 79), ("mean_daily_motion_degrees", 81, 91), ("semimajor_axis_au", 93, 103),
   ("uncertainty", 106, 106), ("reference", 108, 116), ("observations", 118, 122), ("oppositions", 124, 126),
   ("observation_period", 128, 136), ("rms_residual_arcseconds", 138, 141), ("coarse_perturbers", 143, 145),
   ("precise_perturbers", 147, 149), ("computer_name", 151, 160), ("hex_flags", 162, 165), ("designation", 167, 194),
   ("last_observation_date", 195, 202)]

end Spec
