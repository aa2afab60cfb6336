import Verif.Model.Spherical

/-
The stereographic chart — skyfield/projections.py:38-71.  Exact real arithmetic; `none` is a division by zero (NaN or infinity
in the code).
-/
namespace Skyfield

/-- `p / length_of(p)`: the zero vector gives NaN — skyfield/projections.py:45, 55. -/
noncomputable def unitOf (p : Vec3) : Option Vec3 :=
  open Classical in
  if p.length = 0 then none else some ⟨p.x / p.length, p.y / p.length, p.z / p.length⟩

/-- The center of the chart: the direction of a single position, or the normalised mean of the directions of several —
skyfield/projections.py:44-51. -/
noncomputable def chartCenter : List Vec3 → Option Vec3
  | [p] => unitOf p
  | ps => do
    let us ← ps.mapM unitOf
    let n : ℝ := us.length
    unitOf ⟨(us.map (·.x)).sum / n, (us.map (·.y)).sum / n, (us.map (·.z)).sum / n⟩

/-- `project`, for the unit vector `c` at the center — skyfield/projections.py:53-69. -/
noncomputable def chartProject (c : Vec3) (p : Vec3) : Option (ℝ × ℝ) :=
  open Classical in do
  let u ← unitOf p
  if √(c.x ^ 2 + c.y ^ 2) = 0 then none
  else
    let t0 := 1 / √(c.x ^ 2 + c.y ^ 2)
    let t1 := u.x * c.x
    let t2 := √(-c.z ^ 2 + 1)
    let t3 := t0 * t2
    let t4 := u.y * c.y
    if t1 * t3 + t3 * t4 + u.z * c.z + 1 = 0 then none
    else
      let t5 := 1 / (t1 * t3 + t3 * t4 + u.z * c.z + 1)
      let t6 := t0 * c.z
      some (t0 * t5 * (u.x * c.y - c.x * u.y), -t5 * (t1 * t6 - t2 * u.z + t4 * t6))

/-- `build_stereographic_projection(center)(position)` — skyfield/projections.py:38-71. -/
noncomputable def stereographic (center : List Vec3) (p : Vec3) : Option (ℝ × ℝ) := do
  let c ← chartCenter center
  chartProject c p

end Skyfield
