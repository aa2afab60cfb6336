import Verif.Model.Linear

/-
Light-travel-time correction — skyfield/vectorlib.py:98-104, 167-205.  Exact real arithmetic.  An array of N observation
times is `Fin n → ℝ` (TDB days); a scalar time is n = 1.
-/
namespace Skyfield

/-- `max(abs(delta), initial=0.0)` — skyfield/vectorlib.py:192. -/
noncomputable def maxAbs {n : ℕ} (delta : Fin n → ℝ) : ℝ := (List.ofFn fun i => |delta i|).foldl max 0

/-- `target._at(t)` for an array of times; it raises if it does for any of them.  A time is given by its TDB Julian date,
`whole + tdb_fraction`. Used at skyfield/vectorlib.py:189-204. -/
noncomputable def evalAll {n : ℕ} (target : ℝ → Option (Vec3 × Vec3)) (ts : Fin n → ℝ) : Option (Fin n → Vec3 × Vec3) :=
  open Classical in
  if h : ∀ i, (target (ts i)).isSome = true then some fun i => (target (ts i)).get (h i) else none

/-- What `observe()` computes, or the exception. Used at skyfield/vectorlib.py:189-204. -/
inductive Observed (n : ℕ)
  | ok (position velocity : Fin n → Vec3) (lightTime : Fin n → ℝ)
  | notConverged
  | targetRaised

/-- The loop — skyfield/vectorlib.py:189-204.  `cur` holds the target's position and velocity, `lt0` the previous light
time; `fuel` is what is left of `range(10)`. -/
noncomputable def lightTimeLoop {n : ℕ} (c : ℝ) (target : ℝ → Option (Vec3 × Vec3)) (t : Fin n → ℝ)
    (obs : Fin n → Vec3 × Vec3) : ℕ → (Fin n → Vec3 × Vec3) → (Fin n → ℝ) → Observed n
  | 0, _, _ => .notConverged
  | fuel + 1, cur, lt0 =>
    let lt := fun i => ((cur i).1 - (obs i).1).length / c
    if maxAbs (fun i => lt i - lt0 i) < 1e-12 then
      .ok (fun i => (cur i).1 - (obs i).1) (fun i => (cur i).2 - (obs i).2) lt
    else
      match evalAll target (fun i => t i - lt i) with
      | none => .targetRaised
      | some cur' => lightTimeLoop c target t obs fuel cur' lt

/-- `_correct_for_light_travel_time` — skyfield/vectorlib.py:167-205.  `c` is `C_AUDAY`; `obs` is the observer's
barycentric position and velocity at `t`. -/
noncomputable def correctForLightTime {n : ℕ} (c : ℝ) (target : ℝ → Option (Vec3 × Vec3)) (t : Fin n → ℝ)
    (obs : Fin n → Vec3 × Vec3) : Observed n :=
  match evalAll target t with
  | none => .targetRaised
  | some cur => lightTimeLoop c target t obs 10 cur fun _ => 0

end Skyfield
