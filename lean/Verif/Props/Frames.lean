import Verif.Model.Frames
import Verif.Props.Rotations
import Verif.Props.Spherical
import Mathlib.Analysis.SpecialFunctions.Trigonometric.Deriv

/-
C38: positions and velocities in reference frames (and the round trips of C36 through rotated coordinates).
-/
namespace Skyfield
open Real

/-! ### Round trips -/

/-- **C38.** For a frame with an orthogonal rotation and any rate, building a position from frame vectors and reading it
in the frame is the identity, in both directions, for position and velocity. -/
theorem C38_identity (f : RefFrame) (t : SkyTime) (h : IsIsometry (f.rotationAt t)) (r v : Vec3) :
    (let p := fromFrameVectors f t r v
     frameXyzAndVelocity f t p.1 p.2 = (r, v)) ∧
    (let p := frameXyzAndVelocity f t r v
     fromFrameVectors f t p.1 p.2 = (r, v)) := by
  constructor
  · unfold fromFrameVectors frameXyzAndVelocity
    cases f.rateAt with
    | none => simp only [h.undo']
    | some rate => simp only [h.undo', sub_add_cancel]
  · unfold fromFrameVectors frameXyzAndVelocity
    cases f.rateAt with
    | none => simp only [h.undo]
    | some rate => simp only [h.undo, add_sub_cancel_right]

/-- **C38.** Reading only the position agrees with reading position and velocity. -/
theorem C38_xyz (f : RefFrame) (t : SkyTime) (r v : Vec3) : frameXyz f t r = (frameXyzAndVelocity f t r v).1 := by
  unfold frameXyz frameXyzAndVelocity
  cases f.rateAt <;> rfl

/-- **C38.** For the library's frames, whose rotation is orthogonal to within ε (C35_frames: 2e-14), the round trip is the
identity to within ε. -/
theorem C38_identity_up_to (f : RefFrame) (t : SkyTime) (ε ω : ℝ) (h : IsometryUpTo ε (f.rotationAt t)) (r v : Vec3)
    (hε : 0 ≤ ε)
    (hω : ∀ rate, f.rateAt = some rate → ∀ u : Vec3, ((rate t).mulVec u).length ≤ ω * u.length) (hω0 : 0 ≤ ω) :
    let p := fromFrameVectors f t r v
    let q := frameXyzAndVelocity f t p.1 p.2
    (q.1 - r).length ≤ ε * r.length ∧ (q.2 - v).length ≤ ε * (v.length + 2 * ω * r.length) := by
  unfold fromFrameVectors frameXyzAndVelocity
  have hr := Vec3.length_nonneg r
  cases hf : f.rateAt with
  | none =>
    refine ⟨h.undo' r, (h.undo' v).trans ?_⟩
    have : 0 ≤ ε * (2 * ω * r.length) := by positivity
    nlinarith
  | some rate =>
    refine ⟨h.undo' r, ?_⟩
    simp only
    generalize hR : (f.rotationAt t) = R at h ⊢
    generalize hV : rate t = V
    have hb : ∀ u : Vec3, (V.mulVec u).length ≤ ω * u.length := by rw [← hV]; exact hω rate hf
    have e : R.mulVec (R.transpose.mulVec (v - V.mulVec r)) + V.mulVec (R.mulVec (R.transpose.mulVec r)) - v =
        (R.mulVec (R.transpose.mulVec (v - V.mulVec r)) - (v - V.mulVec r)) +
        V.mulVec (R.mulVec (R.transpose.mulVec r) - r) := by
      rw [Mat3.mulVec_sub V]; abel
    rw [e]
    refine (Vec3.length_add_le _ _).trans ?_
    have h1 := h.undo' (v - V.mulVec r)
    have h2 := hb (R.mulVec (R.transpose.mulVec r) - r)
    have h3 := h.undo' r
    have h4 : (v - V.mulVec r).length ≤ v.length + ω * r.length := by
      have := Vec3.length_add_le v (-(V.mulVec r))
      rw [Vec3.length_neg, ← sub_eq_add_neg] at this
      linarith [hb r]
    nlinarith [mul_le_mul_of_nonneg_left h4 hε, mul_le_mul_of_nonneg_left h3 hω0]

theorem itrsAngvelMatrix_bound (u : Vec3) : (itrsAngvelMatrix.mulVec u).length ≤ dayS' * angvel * u.length := by
  have hw : 0 ≤ dayS' * angvel := by unfold dayS' angvel; norm_num
  have h : (itrsAngvelMatrix.mulVec u).length = (dayS' * angvel) * (⟨u.y, -u.x, 0⟩ : Vec3).length := by
    rw [← Vec3.length_smul_of_nonneg hw]
    congr 1
    ext <;> simp [itrsAngvelMatrix, Mat3.mulVec, Vec3.dot]
  rw [h]
  refine mul_le_mul_of_nonneg_left ?_ hw
  unfold Vec3.length
  apply Real.sqrt_le_sqrt
  nlinarith [mul_self_nonneg u.z]

/-- **C38.** The Earth-fixed frame of any date: the round trip to within 2e-14 (times the speed of Earth rotation). -/
theorem C38_itrs (t : SkyTime) (r v : Vec3) :
    let p := fromFrameVectors itrsFrame t r v
    let q := frameXyzAndVelocity itrsFrame t p.1 p.2
    (q.1 - r).length ≤ 2e-14 * r.length ∧ (q.2 - v).length ≤ 2e-14 * (v.length + 2 * (dayS' * angvel) * r.length) := by
  refine C38_identity_up_to itrsFrame t 2e-14 (dayS' * angvel) (C35_frames t 0 0 0 0).2.2.2.1 r v (by norm_num) ?_ ?_
  · intro rate hr u
    simp only [itrsFrame, Option.some.injEq] at hr
    rw [← hr]
    exact itrsAngvelMatrix_bound u
  · unfold dayS' angvel; norm_num

/-- **C38.** The distance is the same in every frame with an orthogonal rotation, and the separation of two
objects too. -/
theorem C38_distance (f : RefFrame) (t : SkyTime) (h : IsIsometry (f.rotationAt t)) (r s : Vec3) :
    (frameXyz f t r).length = r.length ∧ (frameLatlon f t r).1 = r.length ∧
    (frameXyz f t r).dot (frameXyz f t s) = r.dot s := by
  have : (frameXyz f t r).length = r.length := h.length r
  exact ⟨this, this, h.dot r s⟩

/-! ### Rotating frames: the velocity is the derivative -/

theorem MovesWith.mulVec {p : ℝ → Vec3} {s : ℝ} {v : Vec3} (h : MovesWith p s v) (m : Mat3) :
    MovesWith (fun s => m.mulVec (p s)) s (m.mulVec v) := by
  obtain ⟨hx, hy, hz⟩ := h
  refine ⟨?_, ?_, ?_⟩
  · exact ((hx.const_mul m.r1.x).add (hy.const_mul m.r1.y)).add (hz.const_mul m.r1.z)
  · exact ((hx.const_mul m.r2.x).add (hy.const_mul m.r2.y)).add (hz.const_mul m.r2.z)
  · exact ((hx.const_mul m.r3.x).add (hy.const_mul m.r3.y)).add (hz.const_mul m.r3.z)

theorem MovesWith.rotZ {p : ℝ → Vec3} {s : ℝ} {v : Vec3} (h : MovesWith p s v) {θ : ℝ → ℝ} {ω : ℝ}
    (hθ : HasDerivAt θ ω s) :
    MovesWith (fun s => (rotZ (θ s)).mulVec (p s)) s
      ((Skyfield.rotZ (θ s)).mulVec v + (⟨0, 0, ω⟩ : Vec3).cross ((Skyfield.rotZ (θ s)).mulVec (p s))) := by
  obtain ⟨hx, hy, hz⟩ := h
  have hc := hθ.cos
  have hs := hθ.sin
  refine ⟨?_, ?_, ?_⟩
  · have := (((hc.mul hx).add (hs.neg.mul hy)).add (hz.const_mul 0))
    refine this.congr_deriv ?_
    simp [Skyfield.rotZ, Mat3.mulVec, Vec3.dot, Vec3.cross]; ring
  · have := (((hs.mul hx).add (hc.mul hy)).add (hz.const_mul 0))
    refine this.congr_deriv ?_
    simp [Skyfield.rotZ, Mat3.mulVec, Vec3.dot, Vec3.cross]; ring
  · have := (((hx.const_mul 0).add (hy.const_mul 0)).add (hz.const_mul 1))
    refine this.congr_deriv ?_
    simp [Skyfield.rotZ, Mat3.mulVec, Vec3.dot, Vec3.cross]

theorem MovesWith.rotX {p : ℝ → Vec3} {s : ℝ} {v : Vec3} (h : MovesWith p s v) {θ : ℝ → ℝ} {ω : ℝ}
    (hθ : HasDerivAt θ ω s) :
    MovesWith (fun s => (rotX (θ s)).mulVec (p s)) s
      ((Skyfield.rotX (θ s)).mulVec v + (⟨ω, 0, 0⟩ : Vec3).cross ((Skyfield.rotX (θ s)).mulVec (p s))) := by
  obtain ⟨hx, hy, hz⟩ := h
  have hc := hθ.cos
  have hs := hθ.sin
  refine ⟨?_, ?_, ?_⟩
  · have := (((hx.const_mul 1).add (hy.const_mul 0)).add (hz.const_mul 0))
    refine this.congr_deriv ?_
    simp [Skyfield.rotX, Mat3.mulVec, Vec3.dot, Vec3.cross]
  · have := (((hx.const_mul 0).add (hc.mul hy)).add (hs.neg.mul hz))
    refine this.congr_deriv ?_
    simp [Skyfield.rotX, Mat3.mulVec, Vec3.dot, Vec3.cross]; ring
  · have := (((hx.const_mul 0).add (hs.mul hy)).add (hc.mul hz))
    refine this.congr_deriv ?_
    simp [Skyfield.rotX, Mat3.mulVec, Vec3.dot, Vec3.cross]; ring

/-- Times during which Earth turns at the library's constant rate, and its axis stays put: what the library's velocity
transformations assume. -/
structure UniformRotation (t : ℝ → SkyTime) (s : ℝ) : Prop where
  axis : ∀ s', (t s').M = (t s).M
  polar : ∀ s', (t s').polar = none
  turns : HasDerivAt (fun s' => (t s').gast * tau / 24) (dayS' * angvel) s

/-- **C38.** In the Earth-fixed frames the velocity read is the derivative of the coordinates read. -/
theorem C38_earth_fixed_velocity (t : ℝ → SkyTime) (s : ℝ) (ht : UniformRotation t s) (p : ℝ → Vec3) (v : Vec3)
    (h : MovesWith p s v) :
    MovesWith (fun s' => frameXyz tirsFrame (t s') (p s')) s (frameXyzAndVelocity tirsFrame (t s) (p s) v).2 ∧
    MovesWith (fun s' => frameXyz itrsFrame (t s') (p s')) s (frameXyzAndVelocity itrsFrame (t s) (p s) v).2 := by
  have h1 := (h.mulVec (t s).M).rotZ ht.turns.neg
  have key : MovesWith (fun s' => (tirsRotation (t s')).mulVec (p s')) s
      ((tirsRotation (t s)).mulVec v + itrsAngvelMatrix.mulVec ((tirsRotation (t s)).mulVec (p s))) := by
    have e : (fun s' => (tirsRotation (t s')).mulVec (p s')) =
        fun s' => (rotZ (-((t s').gast * tau / 24))).mulVec ((t s).M.mulVec (p s')) := by
      funext s'
      unfold tirsRotation
      rw [Mat3.mul_mulVec, ht.axis s']
      congr 2; ring
    have e' : -((t s).gast * tau / 24) = -(t s).gast * tau / 24 := by ring
    rw [e]
    simp only [Pi.neg_apply] at h1
    have e2 : (tirsRotation (t s)).mulVec v + itrsAngvelMatrix.mulVec ((tirsRotation (t s)).mulVec (p s)) =
        (rotZ (-((t s).gast * tau / 24))).mulVec ((t s).M.mulVec v) +
        (⟨0, 0, -(dayS' * angvel)⟩ : Vec3).cross ((rotZ (-((t s).gast * tau / 24))).mulVec ((t s).M.mulVec (p s))) := by
      unfold tirsRotation
      rw [Mat3.mul_mulVec, Mat3.mul_mulVec, e']
      congr 1
      ext <;> simp [itrsAngvelMatrix, Mat3.mulVec, Vec3.dot, Vec3.cross]
    rw [e2]
    exact h1
  refine ⟨key, ?_⟩
  have hi : ∀ s', itrsRotation (t s') = tirsRotation (t s') := by
    intro s'
    unfold itrsRotation tirsRotation
    rw [ht.polar s']
  simp only [frameXyz, itrsFrame, frameXyzAndVelocity, hi]
  exact key

/-- **C38.** In the altazimuth frame of a place on Earth too, although that frame is left-handed. -/
theorem C38_horizon_velocity (t : ℝ → SkyTime) (s : ℝ) (ht : UniformRotation t s) (lat lon : ℝ) (p : ℝ → Vec3)
    (v : Vec3) (h : MovesWith p s v) :
    MovesWith (fun s' => frameXyz (horizonFrame lat lon) (t s') (p s')) s
      (frameXyzAndVelocity (horizonFrame lat lon) (t s) (p s) v).2 := by
  have h1 := (C38_earth_fixed_velocity t s ht p v h).2.mulVec (latlonRotation lat lon)
  have e : (fun s' => frameXyz (horizonFrame lat lon) (t s') (p s')) =
      fun s' => (latlonRotation lat lon).mulVec (frameXyz itrsFrame (t s') (p s')) := by
    funext s'
    simp only [frameXyz, horizonFrame, horizonRotation, itrsFrame, Mat3.mul_mulVec]
  rw [e]
  have e2 : (frameXyzAndVelocity (horizonFrame lat lon) (t s) (p s) v).2 =
      (latlonRotation lat lon).mulVec (frameXyzAndVelocity itrsFrame (t s) (p s) v).2 := by
    simp only [frameXyzAndVelocity, horizonFrame, horizonRotation, itrsFrame, Mat3.mul_mulVec, Mat3.mulVec_add]
    congr 1
    generalize (itrsRotation (t s)).mulVec (p s) = u
    have s1 := sin_sq_add_cos_sq lat
    have s2 := sin_sq_add_cos_sq lon
    ext <;> simp [latlonRotation, latRotation, Mat3.flipRows, rotY, Skyfield.rotZ, Mat3.mul, Mat3.transpose,
      earthAngularVelocity, angularVelocityMatrix, itrsAngvelMatrix, Mat3.mulVec, Vec3.dot]
    · ring
    · grind
    · ring
  rw [e2]
  exact h1

/-- Non-vacuity: a uniformly turning Earth. -/
example : UniformRotation (fun s => ⟨2451545, (dayS' * angvel) * s * (24 / tau), 0, 0, none⟩) 3 := by
  have ht : tau ≠ 0 := tau_pos.ne'
  refine ⟨fun _ => rfl, fun _ => rfl, ?_⟩
  have : (fun s' : ℝ => (dayS' * angvel) * s' * (24 / tau) * tau / 24) = fun s' => (dayS' * angvel) * s' := by
    funext s'; field_simp
  simp only [this]
  simpa using (hasDerivAt_id (3 : ℝ)).const_mul (dayS' * angvel)

/-- **C38.** A place on Earth is at rest in the Earth-fixed frame and where it was put, to within 4e-14 of the rotation
speed; exactly if the rotation is exactly orthogonal. -/
theorem C38_place_at_rest (t : SkyTime) (r : Vec3) :
    (let p := itrsPlaceAt r t
     let q := frameXyzAndVelocity itrsFrame t p.1 p.2
     (q.1 - r).length ≤ 2e-14 * r.length ∧ q.2.length ≤ 4e-14 * (dayS' * angvel * r.length)) ∧
    (IsIsometry (itrsRotation t) → let p := itrsPlaceAt r t
      frameXyzAndVelocity itrsFrame t p.1 p.2 = (r, 0)) := by
  have e : itrsPlaceAt r t = fromFrameVectors itrsFrame t r 0 := by
    unfold itrsPlaceAt fromFrameVectors itrsFrame
    simp only
    congr 2
    ext <;> simp [itrsVelocity, itrsAngvelMatrix, Mat3.mulVec, Vec3.dot] <;> (left; ring)
  rw [e]
  constructor
  · have h := C38_itrs t r 0
    simp only [sub_zero, Vec3.length_zero, zero_add] at h
    refine ⟨h.1, h.2.trans (le_of_eq ?_)⟩
    ring
  · intro h
    exact (C38_identity itrsFrame t h r 0).1

/-! ### Planets -/

/-- Angles of a planet moving with the rates that the segment reports (which are per second). -/
structure AnglesMove (a : ℝ → PckAngles) (s : ℝ) : Prop where
  ra : HasDerivAt (fun s' => (a s').ra) ((a s).raDot * dayS') s
  dec : HasDerivAt (fun s' => (a s').dec) ((a s).decDot * dayS') s
  w : HasDerivAt (fun s' => (a s').w) ((a s).wDot * dayS') s

theorem transpose_planet (a : PckAngles) :
    ((rotZ (-a.w)).mul ((rotX (-a.dec)).mul (rotZ (-a.ra)))).transpose = (rotZ a.ra).mul ((rotX a.dec).mul (rotZ a.w)) := by
  ext <;> simp [rotZ, rotX, Mat3.mul, Mat3.transpose, Vec3.dot] <;> ring

theorem planet_rate_none (a : ℝ → PckAngles) (s : ℝ) (h : AnglesMove a s) (p : Vec3) :
    MovesWith (fun s' => (planetPlaceAt none p (a s')).1) s (planetPlaceAt none p (a s)).2 := by
  have h0 : MovesWith (fun _ => p) s 0 := ⟨hasDerivAt_const s p.x, hasDerivAt_const s p.y, hasDerivAt_const s p.z⟩
  have h1 := ((h0.rotZ h.w).rotX h.dec).rotZ h.ra
  have e : (fun s' => (planetPlaceAt none p (a s')).1) =
      fun s' => (rotZ (a s').ra).mulVec ((rotX (a s').dec).mulVec ((rotZ (a s').w).mulVec p)) := by
    funext s'
    simp only [planetPlaceAt, planetRotationAndRate, transpose_planet, Mat3.mul_mulVec]
  rw [e]
  have e2 : ∀ u v : Vec3, MovesWith (fun s' => (rotZ (a s').ra).mulVec ((rotX (a s').dec).mulVec ((rotZ (a s').w).mulVec p)))
      s u → u = v → MovesWith (fun s' => (rotZ (a s').ra).mulVec ((rotX (a s').dec).mulVec ((rotZ (a s').w).mulVec p))) s v :=
    fun u v h e => e ▸ h
  refine e2 _ _ h1 ?_
  have s1 := sin_sq_add_cos_sq (a s).ra
  have s2 := sin_sq_add_cos_sq (a s).dec
  have s3 := sin_sq_add_cos_sq (a s).w
  generalize a s = b at *
  simp only [planetPlaceAt, planetRotationAndRate]
  generalize cos b.ra = c1 at *
  ext
  · simp [rotZ, rotX, Mat3.mul, Mat3.transpose, Vec3.dot, Vec3.cross, Mat3.mulVec, Mat3.scale]
    grind
  · simp [rotZ, rotX, Mat3.mul, Mat3.transpose, Vec3.dot, Vec3.cross, Mat3.mulVec, Mat3.scale]
    grind
  · simp [rotZ, rotX, Mat3.mul, Mat3.transpose, Vec3.dot, Vec3.cross, Mat3.mulVec, Mat3.scale]
    grind

theorem transpose_scale_mul (k : ℝ) (m x : Mat3) :
    ((m.mul x).scale k).transpose = (x.scale k).transpose.mul m.transpose := by
  ext <;> simp [Mat3.scale, Mat3.mul, Mat3.transpose, Vec3.dot] <;> ring

theorem planet_some (m : Mat3) (p : Vec3) (a : PckAngles) :
    planetPlaceAt (some m) p a = planetPlaceAt none (m.transpose.mulVec p) a := by
  unfold planetPlaceAt planetRotationAndRate
  simp only
  rw [Mat3.transpose_mul, Mat3.mul_mulVec, transpose_scale_mul, Mat3.mul_mulVec]

/-- **C38.** The velocity of a place on a planet is the time derivative of its position. -/
theorem C38_planet_velocity (matrix : Option Mat3) (a : ℝ → PckAngles) (s : ℝ) (h : AnglesMove a s) (p : Vec3) :
    MovesWith (fun s' => (planetPlaceAt matrix p (a s')).1) s (planetPlaceAt matrix p (a s)).2 := by
  cases matrix with
  | none => exact planet_rate_none a s h p
  | some m =>
    simp only [planet_some]
    exact planet_rate_none a s h _

/-- **C38.** The rotation returned along with its rate is the rotation of the frame. -/
theorem C38_planet_rotation (matrix : Option Mat3) (a : PckAngles) :
    (planetRotationAndRate matrix a).1 = planetRotation matrix a.ra a.dec a.w := by
  cases matrix <;> rfl

/-- **C38.** A place on a planet is at the given distance from its center, at the given latitude and longitude. -/
theorem C38_planet_place (lat lon d : ℝ) : planetPlace lat lon d = fromSpherical d lat lon := by
  ext <;> simp [planetPlace, fromSpherical, rotZ, rotY, Mat3.mulVec, Vec3.dot] <;> ring

/-- **C38 (limitation).** Planet frames have no rate, so the velocity read in one leaves out the planet's rotation: a place
fixed on a turning planet has a non-zero velocity in the planet's own frame, although its coordinates do not change. -/
theorem C38_planet_frame_velocity_lacks_rotation :
    ∃ (a : PckAngles) (p : Vec3), ∀ t : SkyTime,
      (let q := planetPlaceAt none p a
       frameXyz (planetFrame none fun _ => a) t q.1 = p ∧
       (frameXyzAndVelocity (planetFrame none fun _ => a) t q.1 q.2).2 ≠ 0) := by
  refine ⟨⟨0, 0, 0, 0, 0, 1⟩, ⟨1, 0, 0⟩, fun t => ⟨?_, ?_⟩⟩
  · ext <;> simp [planetPlaceAt, planetRotationAndRate, frameXyz, planetFrame, planetRotation, rotZ, rotX, Mat3.mul,
      Mat3.transpose, Mat3.mulVec, Vec3.dot]
  · intro h
    have := congrArg Vec3.y h
    simp [planetPlaceAt, planetRotationAndRate, frameXyzAndVelocity, planetFrame, planetRotation, rotZ, rotX, Mat3.mul,
      Mat3.transpose, Mat3.mulVec, Vec3.dot, Mat3.scale, dayS'] at this

/-- Non-vacuity: a planet turning with constant rates. -/
example : AnglesMove (fun s => ⟨1e-9 * dayS' * s, 0.5, 1e-5 * dayS' * s, 1e-9, 0, 1e-5⟩) 7 := by
  refine ⟨?_, ?_, ?_⟩
  · simpa using (hasDerivAt_id (7 : ℝ)).const_mul (1e-9 * dayS')
  · simpa using hasDerivAt_const (7 : ℝ) (0.5 : ℝ)
  · simpa using (hasDerivAt_id (7 : ℝ)).const_mul (1e-5 * dayS')

/-! ### C36 through rotated coordinates -/

/-- **C36.** Altitude, azimuth and distance: a position built from them reads them back; and the other way round. -/
theorem C36_altaz (m : Mat3) (h : IsIsometry m) (d alt az : ℝ) (hd : 0 < d) (halt : |alt| < π / 2) (h0 : 0 ≤ az)
    (h1 : az < 2 * π) (r : Vec3) :
    altaz m (fromAltaz m d alt az) = (d, alt, az) ∧
    (let a := altaz m r
     fromAltaz m a.1 a.2.1 a.2.2 = r) := by
  constructor
  · unfold altaz fromAltaz
    rw [h.undo', C36_round_trip' d alt az hd halt h0 h1]
  · unfold altaz fromAltaz
    simp only
    rw [C36_round_trip, h.undo]

/-- **C36.** The actual horizon of a place on Earth: the vector comes back to within 2e-14. -/
theorem C36_altaz_earth (lat lon : ℝ) (t : SkyTime) (r : Vec3) :
    let a := altaz (horizonRotation lat lon t) r
    (fromAltaz (horizonRotation lat lon t) a.1 a.2.1 a.2.2 - r).length ≤ 2e-14 * r.length := by
  unfold altaz fromAltaz
  simp only
  rw [C36_round_trip]
  exact (C35_frames t 0 0 lat lon).2.2.2.2.2.2.2.undo r

/-- **C36.** Right ascension and declination in the ICRS: coordinates in range come back, in hours and degrees. -/
theorem C36_radec (ra dec d : ℝ) (hd : 0 < d) (hdec : |dec| < 90) (h0 : 0 ≤ ra) (h1 : ra < 24) :
    let c := radec none (fromRadec ra dec d none)
    c.1 = d ∧ c.2.1 * 360 / tau = dec ∧ c.2.2 * 24 / tau = ra := by
  have ht : 0 < tau := tau_pos
  have ht2 : tau = 2 * π := rfl
  have hpi := pi_pos
  simp only [radec, fromRadec]
  rw [C36_round_trip' d _ _ hd ?_ ?_ ?_]
  · refine ⟨rfl, ?_, ?_⟩ <;> simp only <;> field_simp
  · rw [abs_lt] at hdec ⊢
    rw [ht2]
    constructor <;> nlinarith
  · positivity
  · rw [ht2]
    rw [show ra / 24 * (2 * π) = (ra / 24) * (2 * π) by ring]
    have : ra / 24 < 1 := by linarith
    nlinarith

/-- **C36.** With an epoch: the vector comes back to within 2e-14. -/
theorem C36_radec_epoch (t : SkyTime) (r : Vec3) :
    let c := radec (some t) r
    (fromRadec (c.2.2 * 24 / tau) (c.2.1 * 360 / tau) c.1 (some t) - r).length ≤ 2e-14 * r.length := by
  have ht : tau ≠ 0 := tau_pos.ne'
  simp only [radec, fromRadec]
  have e : ∀ x : ℝ, x * 24 / tau / 24 * tau = x := fun x => by field_simp
  have e' : ∀ x : ℝ, x * 360 / tau / 360 * tau = x := fun x => by field_simp
  rw [e, e', C36_round_trip]
  exact (isometryUpTo_M t).undo r

end Skyfield
