import Verif.Model.Broadcast
import Verif.Model.Star
import Verif.Model.Geometry

/-
Observing arrays of stars and at arrays of times, with NumPy's broadcasting written out.  Exact real arithmetic.
-/
namespace Skyfield

/-- `length_of` — skyfield/functions.py:50-57. -/
noncomputable def lengthNd (v : Nd ℝ) : Option (Nd ℝ) := do
  let squares ← Nd.map2 (· * ·) v v
  let s ← squares.sum0
  return s.map Real.sqrt

/-- `dots` — skyfield/functions.py:22-30. -/
noncomputable def dotsNd (v u : Nd ℝ) : Option (Nd ℝ) := do
  let products ← Nd.map2 (· * ·) v u
  products.sum0

/-- `angle_between` — skyfield/functions.py:59-73. -/
noncomputable def angleBetweenNd (u v : Nd ℝ) : Option (Nd ℝ) := do
  let a ← Nd.map2 (· * ·) u (← lengthNd v)
  let b ← Nd.map2 (· * ·) v (← lengthNd u)
  let angle ← Nd.map2 arctan2 (← lengthNd (← Nd.map2 (· - ·) a b)) (← lengthNd (← Nd.map2 (· + ·) a b))
  return angle.map (2.0 * ·)

/-- `ICRF.separation_from`, in radians — skyfield/positionlib.py:360-372. -/
noncomputable def separationNd (u v : Nd ℝ) : Option (Nd ℝ) :=
  let du := u.shape.length
  let dv := v.shape.length
  if du > dv then angleBetweenNd u (v.addAxes (du - dv))
  else if du < dv then angleBetweenNd (u.addAxes (dv - du)) v
  else angleBetweenNd u v

/-- `light_time_difference` — skyfield/relativity.py:104-123. -/
noncomputable def lightTimeDifferenceNd (tiny : ℝ) (position deflectorPosition : Nd ℝ) : Option (Nd ℝ) := do
  let dis ← lengthNd position
  let u1 ← Nd.map2 (· / ·) position (dis.map (· + tiny))
  let diflt ← Nd.einsum0 u1 deflectorPosition
  return diflt.map (· / cAuDay)

/-- What `_observe_from_bcrs` returns: two arrays of vectors, the times (as the dates `tt`), the light times.
Used at skyfield/starlib.py:109-133. -/
structure StarSights where
  vector : Nd ℝ
  velocity : Nd ℝ
  tt : Nd ℝ
  lightTime : Nd ℝ

/-- The vectors from the observer to the moved stars, and the relative velocities — skyfield/starlib.py:117-126. -/
noncomputable def starRelativeNd (moved velocity observer observerVelocity : Nd ℝ) : Option (Nd ℝ × Nd ℝ) :=
  if moved.shape.length > 1 then
    if observer.shape.length > 1 then do
      let vector ← Nd.map2 (· - ·) moved observer
      let vel ← Nd.map2 (· - ·) observerVelocity.transpose velocity
      return (vector, vel.transpose)
    else do
      let vector ← Nd.map2 (· - ·) moved.transpose observer
      let vel ← Nd.map2 (· - ·) observerVelocity velocity.transpose
      return (vector.transpose, vel.transpose)
  else do
    let vector ← Nd.map2 (· - ·) moved observer
    let vel ← Nd.map2 (· - ·) observerVelocity.transpose velocity
    return (vector, vel.transpose)

/-- Where the stars have moved to — skyfield/starlib.py:112-116. -/
noncomputable def starMovedNd (tiny : ℝ) (position velocity epoch tdb observer : Nd ℝ) : Option (Nd ℝ) := do
  let dt ← lightTimeDifferenceNd tiny position observer
  let elapsed ← Nd.map2 (· - ·) (← Nd.map2 (· + ·) tdb dt) epoch
  if tdb.shape ≠ [] then (Nd.map2 (· + ·) (Nd.outer (· * ·) velocity elapsed).transpose position).map Nd.transpose
  else do Nd.map2 (· + ·) position (← Nd.map2 (· * ·) velocity elapsed)

/-- `Star._observe_from_bcrs` — skyfield/starlib.py:109-133.  `position` and `velocity` are those that `_compute_vectors` stored,
`tdb` and `tt` the time's, `observer` and `observerVelocity` the observer's. -/
noncomputable def starObserveNd (tiny : ℝ) (position velocity epoch tdb tt observer observerVelocity : Nd ℝ) :
    Option StarSights := do
  let moved ← starMovedNd tiny position velocity epoch tdb observer
  let relative ← starRelativeNd moved velocity observer observerVelocity
  let distance ← lengthNd relative.1
  let filled : Nd ℝ := if moved.shape.length > 1 ∧ tdb.shape = [] then ⟨moved.shape.drop 1, fun _ => tt.entry []⟩ else tt
  return { vector := relative.1, velocity := relative.2, tt := filled, lightTime := distance.map (· / cAuDay) }

/-- An operation in place, like `a *= b`: the result must have the shape of `a`.
Used at skyfield/relativity.py:164-187. -/
def Nd.inPlace (f : ℝ → ℝ → ℝ) (a b : Nd ℝ) : Option (Nd ℝ) :=
  (Nd.map2 f a b).bind fun r => if r.shape = a.shape then some r else none

/-- `add_aberration` — skyfield/relativity.py:164-187; the result is the new content of `position`. -/
noncomputable def addAberrationNd (tiny : ℝ) (position velocity lightTime : Nd ℝ) : Option (Nd ℝ) := do
  let p1mag := lightTime.map (· * cAuDay)
  let vemag ← lengthNd velocity
  let beta := vemag.map (· / cAuDay)
  let dot ← dotsNd position velocity
  let cosd ← Nd.map2 (· / ·) dot ((← Nd.map2 (· * ·) p1mag vemag).map (· + tiny))
  let gammai := (← Nd.map2 (· * ·) beta beta).map fun b => √(1 - b)
  let p ← Nd.map2 (· * ·) beta cosd
  let q ← Nd.map2 (· * ·) ((← Nd.map2 (· / ·) p (gammai.map (1 + ·))).map (1 + ·)) lightTime
  let r := p.map (1 + ·)
  let position ← Nd.inPlace (· * ·) position gammai
  let position ← Nd.inPlace (· + ·) position (← Nd.map2 (· * ·) q velocity)
  Nd.inPlace (· / ·) position r

/-- The aberration in `Astrometric.apparent`, without deflectors — skyfield/positionlib.py:750-766, 797: the observer's velocity is
given another axis when there are more targets. -/
noncomputable def apparentAberrationNd (tiny : ℝ) (target observerVelocity lightTime : Nd ℝ) : Option (Nd ℝ) :=
  let velocity := if observerVelocity.shape.length < target.shape.length then observerVelocity.addAxes 1 else observerVelocity
  addAberrationNd tiny target velocity lightTime

end Skyfield
