import Verif.Model.SkyCoordinates
import Verif.Props.Frames
import Verif.Props.EarthRotation
import Verif.Props.Units
import Mathlib.Geometry.Euclidean.Angle.Unoriented.TriangleInequality
import Mathlib.Analysis.InnerProductSpace.PiL2

/-
C79: coordinates on the sky, their rates, and the agreement of the methods that give them.
-/
namespace Skyfield
open Real

/-! ### Rates -/

/-- The distance, latitude and longitude `c s'` at the times around `s` change at the rates that `q` reports, and at time `s` are
those that `q` reports.  The longitude jumps from 360° to 0°; it is its continuous continuation, which differs from it by whole
turns, that has a rate. -/
def ReportsRates (c : ℝ → ℝ × ℝ × ℝ) (s : ℝ) (q : SphericalRates) : Prop :=
  c s = (q.length, q.lat, q.lon) ∧
  HasDerivAt (fun s' => (c s').1) q.rangeRate s ∧
  HasDerivAt (fun s' => (c s').2.1) q.latRate s ∧
  ∃ lon : ℝ → ℝ, (∀ s', ∃ n : ℤ, lon s' = (c s').2.2 + n * (2 * π)) ∧ HasDerivAt lon q.lonRate s

theorem ne_zero_of_off_axis {r : Vec3} (h : r.x ≠ 0 ∨ r.y ≠ 0) : r ≠ 0 := by
  rintro rfl
  rcases h with h | h <;> exact h rfl

theorem pyMod_tau_turns (x : ℝ) : ∃ n : ℤ, x = pyMod x tau + n * (2 * π) := by
  refine ⟨⌊x / tau⌋, ?_⟩
  simp only [pyMod, tau]
  ring

/-- **C79.** In any frame whose velocities are the rates of its coordinates, the rates of `frame_latlon_and_rates` are those of the
latitude, longitude and distance of `frame_latlon`. -/
theorem C79_rates (f : RefFrame) (t : ℝ → SkyTime) (p : ℝ → Vec3) (s : ℝ) (v : Vec3)
    (h : MovesWith (fun s' => frameXyz f (t s') (p s')) s (frameXyzAndVelocity f (t s) (p s) v).2)
    (h0 : (frameXyz f (t s) (p s)).x ≠ 0 ∨ (frameXyz f (t s) (p s)).y ≠ 0) :
    ReportsRates (fun s' => frameLatlon f (t s') (p s')) s (frameLatlonAndRates 0 f (t s) (p s) v) := by
  have e : (frameXyzAndVelocity f (t s) (p s) v).1 = frameXyz f (t s) (p s) := by
    unfold frameXyzAndVelocity frameXyz
    cases f.rateAt <;> rfl
  have eq : frameLatlonAndRates 0 f (t s) (p s) v =
      toSphericalAndRates 0 (frameXyz f (t s) (p s)) (frameXyzAndVelocity f (t s) (p s) v).2 := by
    unfold frameLatlonAndRates
    simp only [e]
  rw [eq]
  have h1 := C57_range_rate _ s _ h (ne_zero_of_off_axis h0)
  have h2 := C57_lat_rate _ s _ h h0
  obtain ⟨h3, h4⟩ := C57_lon_rate _ s _ h h0
  refine ⟨rfl, h1, h2, ?_⟩
  by_cases hax : (frameXyz f (t s) (p s)).y = 0 ∧ 0 ≤ (frameXyz f (t s) (p s)).x
  · refine ⟨_, fun s' => ?_, h4 hax⟩
    exact pyMod_tau_turns _
  · exact ⟨_, fun s' => ⟨0, by simp; rfl⟩, h3 hax⟩

/-- **C79.** In the Earth-fixed frames: the rates of geocentric latitude, longitude and distance. -/
theorem C79_earth_fixed_rates (t : ℝ → SkyTime) (s : ℝ) (ht : UniformRotation t s) (p : ℝ → Vec3) (v : Vec3) (h : MovesWith p s v)
    (h0 : (frameXyz itrsFrame (t s) (p s)).x ≠ 0 ∨ (frameXyz itrsFrame (t s) (p s)).y ≠ 0) :
    ReportsRates (fun s' => frameLatlon itrsFrame (t s') (p s')) s (frameLatlonAndRates 0 itrsFrame (t s) (p s) v) :=
  C79_rates _ _ _ _ _ (C38_earth_fixed_velocity t s ht p v h).2 h0

/-- **C79.** In the horizon system of a place on Earth: the rates of the distance, altitude and azimuth of `altaz()`. -/
theorem C79_altaz_rates (t : ℝ → SkyTime) (s : ℝ) (ht : UniformRotation t s) (lat lon : ℝ) (p : ℝ → Vec3) (v : Vec3)
    (h : MovesWith p s v)
    (h0 : (frameXyz (horizonFrame lat lon) (t s) (p s)).x ≠ 0 ∨ (frameXyz (horizonFrame lat lon) (t s) (p s)).y ≠ 0) :
    ReportsRates (fun s' => altaz (horizonRotation lat lon (t s')) (p s')) s
      (frameLatlonAndRates 0 (horizonFrame lat lon) (t s) (p s) v) :=
  C79_rates _ _ _ _ _ (C38_horizon_velocity t s ht lat lon p v h) h0

/-- **C79.** In a frame that does not turn, such as the galactic frame: for any motion. -/
theorem C79_inertial_rates (m : Mat3) (t : ℝ → SkyTime) (s : ℝ) (p : ℝ → Vec3) (v : Vec3) (h : MovesWith p s v)
    (h0 : (m.mulVec (p s)).x ≠ 0 ∨ (m.mulVec (p s)).y ≠ 0) :
    ReportsRates (fun s' => frameLatlon (inertialFrame m) (t s') (p s')) s
      (frameLatlonAndRates 0 (inertialFrame m) (t s) (p s) v) :=
  C79_rates _ _ _ _ _ (h.mulVec m) h0

/-- **C79.** The angle rates in the units that they are read in, as turns per day. -/
theorem C79_rate_units (f : RefFrame) (t : SkyTime) (r v : Vec3) (u : AngleRateUnit) (per : RateUnit) :
    let q := frameLatlonAndRates 0 f t r v
    rateIn (angleRatePerDay q.latRate u) per * u.turns / per.days = q.latRate / (2 * π) ∧
    rateIn (angleRatePerDay q.lonRate u) per * u.turns / per.days = q.lonRate / (2 * π) :=
  ⟨C20_angle_rate _ u per, C20_angle_rate _ u per⟩

/-- **C79.** The number added to avoid a division by zero, about 2e-308, changes the longitude rate only by a factor within that
number over the squared distance from the axis, and leaves the rest except the latitude rate alone. -/
theorem C79_guard (tiny : ℝ) (ht : 0 < tiny) (r v : Vec3) :
    let q := toSphericalAndRates tiny r v
    let q0 := toSphericalAndRates 0 r v
    let d := r.x * r.x + r.y * r.y
    q.length = q0.length ∧ q.lat = q0.lat ∧ q.lon = q0.lon ∧ q.rangeRate = q0.rangeRate ∧
    (0 < d → q.lonRate = q0.lonRate * (1 - tiny / (d + tiny)) ∧ tiny / (d + tiny) < tiny / d) ∧
    (d = 0 → q.lonRate = 0 ∧ (r.z ≠ 0 → |q.latRate| ≤ √tiny * |v.z| / r.z ^ 2)) := by
  intro q q0 d
  refine ⟨rfl, rfl, rfl, rfl, fun hd => ?_, fun hd => ?_⟩
  · have : (0:ℝ) < d + tiny := by linarith
    constructor
    · simp only [q, q0, toSphericalAndRates, add_zero]
      change _ / (d + tiny) = _ / d * _
      field_simp
      ring
    · exact div_lt_div_of_pos_left ht hd (by linarith)
  · have hx : r.x = 0 := by nlinarith [mul_self_nonneg r.x, mul_self_nonneg r.y]
    have hy : r.y = 0 := by nlinarith [mul_self_nonneg r.x, mul_self_nonneg r.y]
    have hs : 0 < √tiny := Real.sqrt_pos.2 ht
    have hss : √tiny * √tiny = tiny := Real.mul_self_sqrt ht.le
    refine ⟨by simp [q, toSphericalAndRates, hx, hy], fun hz => ?_⟩
    have hz2 : 0 < r.z ^ 2 := by positivity
    have e : q.latRate = √tiny * v.z / (tiny + r.z ^ 2) := by
      simp only [q, toSphericalAndRates, hx, hy, mul_zero, zero_mul, zero_add, add_zero, sub_zero]
      have hzz : 0 ≤ r.z * r.z := mul_self_nonneg _
      rw [div_eq_div_iff (by positivity) (by positivity)]
      linear_combination (-(v.z * (tiny + r.z ^ 2))) * hss
    rw [e, abs_div, abs_mul, abs_of_pos hs, abs_of_pos (by linarith : 0 < tiny + r.z ^ 2)]
    exact div_le_div_of_nonneg_left (by positivity) hz2 (by linarith)

/-- Non-vacuity: an object moving along x, seen in a frame that does not turn. -/
example : MovesWith (fun s => ⟨1 + s, 2, 3⟩) 0 ⟨1, 0, 0⟩ ∧
    ((Mat3.one.mulVec ⟨1 + 0, 2, 3⟩).x ≠ 0 ∨ (Mat3.one.mulVec ⟨1 + 0, 2, 3⟩).y ≠ 0) := by
  refine ⟨⟨?_, hasDerivAt_const _ _, hasDerivAt_const _ _⟩, Or.inl ?_⟩
  · exact (hasDerivAt_id (0 : ℝ)).const_add 1
  · simp [Mat3.one, Mat3.mulVec, Vec3.dot]

/-! ### Separations -/

/-- **C79.** The separation of two positions follows from their coordinates, in the ICRF and in every frame with an orthogonal
rotation: the spherical law of cosines. -/
theorem C79_separation (f : RefFrame) (t : SkyTime) (hf : IsIsometry (f.rotationAt t)) (u v : Vec3) (hu : u ≠ 0) (hv : v ≠ 0) :
    let a := frameLatlon f t u
    let b := frameLatlon f t v
    cos (angleBetween u v) = sin a.2.1 * sin b.2.1 + cos a.2.1 * cos b.2.1 * cos (a.2.2 - b.2.2) ∧
    0 ≤ angleBetween u v ∧ angleBetween u v ≤ π ∧
    angleBetween (frameXyz f t u) (frameXyz f t v) = angleBetween u v := by
  intro a b
  obtain ⟨h1, h2, h3⟩ := C37_angle u v hu hv
  have lu := Vec3.length_pos hu
  have lv := Vec3.length_pos hv
  obtain ⟨ax, ay, az⟩ := C36_meaning ((f.rotationAt t).mulVec u)
  obtain ⟨bx, b_y, bz⟩ := C36_meaning ((f.rotationAt t).mulVec v)
  have la : (toSpherical ((f.rotationAt t).mulVec u)).1 = u.length := hf.length u
  have lb : (toSpherical ((f.rotationAt t).mulVec v)).1 = v.length := hf.length v
  rw [la] at ax ay az
  rw [lb] at bx b_y bz
  have hd := hf.dot u v
  refine ⟨?_, h2, h3, ?_⟩
  · rw [h1, ← hd, div_eq_iff (by positivity)]
    simp only [Vec3.dot]
    change _ = (sin a.2.1 * sin b.2.1 + cos a.2.1 * cos b.2.1 * cos (a.2.2 - b.2.2)) * _
    rw [ax, ay, az, bx, b_y, bz, cos_sub]
    simp only [a, b, frameLatlon]
    ring
  · have nz : ∀ w : Vec3, w ≠ 0 → (f.rotationAt t).mulVec w ≠ 0 := by
      intro w hw h
      have := hf.length w
      rw [h, Vec3.length_zero] at this
      exact (Vec3.length_pos hw).ne this
    unfold frameXyz
    rw [C37_arccos _ _ (nz u hu) (nz v hv), C37_arccos u v hu hv, hd, hf.length, hf.length]

/-- Non-vacuity: an orthogonal frame that is not the ICRF, and two directions. -/
example (t : SkyTime) : IsIsometry ((inertialFrame (rotZ 1)).rotationAt t) ∧ (⟨1, 2, 3⟩ : Vec3) ≠ 0 ∧ (⟨0, 0, -4⟩ : Vec3) ≠ 0 := by
  refine ⟨C35_rot_z 1, ?_, ?_⟩ <;> intro h <;> have := congrArg Vec3.z h <;> norm_num at this

/-- The vector as a point of Mathlib's Euclidean space. -/
noncomputable def Vec3.toEuclidean (v : Vec3) : EuclideanSpace ℝ (Fin 3) := !₂[v.x, v.y, v.z]

theorem Vec3.inner_toEuclidean (u v : Vec3) : inner ℝ u.toEuclidean v.toEuclidean = u.dot v := by
  simp [Vec3.toEuclidean, PiLp.inner_apply, Fin.sum_univ_three, Vec3.dot]
  ring

theorem Vec3.norm_toEuclidean (v : Vec3) : ‖v.toEuclidean‖ = v.length := by
  rw [EuclideanSpace.norm_eq]
  simp [Vec3.toEuclidean, Fin.sum_univ_three, Vec3.length, sq]

/-- **C79.** The separation is the angle of Euclidean geometry. -/
theorem C79_euclidean (u v : Vec3) (hu : u ≠ 0) (hv : v ≠ 0) :
    angleBetween u v = InnerProductGeometry.angle u.toEuclidean v.toEuclidean := by
  rw [C37_arccos u v hu hv, InnerProductGeometry.angle, Vec3.inner_toEuclidean, Vec3.norm_toEuclidean, Vec3.norm_toEuclidean]

/-- **C79.** Separations satisfy the triangle inequality: no detour on the sky is shorter than the separation. -/
theorem C79_triangle (u v w : Vec3) (hu : u ≠ 0) (hv : v ≠ 0) (hw : w ≠ 0) :
    angleBetween u w ≤ angleBetween u v + angleBetween v w := by
  rw [C79_euclidean u w hu hw, C79_euclidean u v hu hv, C79_euclidean v w hv hw]
  exact InnerProductGeometry.angle_le_angle_add_angle _ _ _

/-- The single positions of a position or an array of positions. -/
def Places.list : Places → List Vec3
  | .single r => [r]
  | .array rs => rs

/-- **C79.** Separations of arrays: an array against a single position gives one separation for each, and two arrays of one length
give the separations position by position; in either order, the same separations. -/
theorem C79_arrays (us vs : List Vec3) (u v : Vec3) :
    separationFrom (.single u) (.single v) = .ok [angleBetween u v] ∧
    separationFrom (.array us) (.single v) = .ok (us.map fun u => angleBetween u v) ∧
    separationFrom (.single u) (.array vs) = .ok (vs.map fun v => angleBetween u v) ∧
    (us.length = vs.length → ∃ as, separationFrom (.array us) (.array vs) = .ok as ∧ as.length = us.length ∧
      ∀ i (hi : i < us.length) (hj : i < vs.length) (hk : i < as.length), as[i] = angleBetween us[i] vs[i]) ∧
    (∀ p q : Places, separationFrom p q = separationFrom q p) := by
  refine ⟨rfl, rfl, rfl, fun h => ⟨_, if_pos h, by simp [h], fun i hi hj hk => by simp⟩, ?_⟩
  have sym : ∀ (a : Vec3) (l : List Vec3), (l.map fun b => angleBetween a b) = l.map fun b => angleBetween b a := by
    intro a l
    exact List.map_congr_left fun b _ => C37_symmetric a b
  intro p q
  cases p with
  | single a =>
    cases q with
    | single b => simp [separationFrom, C37_symmetric a b]
    | array l => simp only [separationFrom, sym]
  | array l =>
    cases q with
    | single b => simp only [separationFrom, sym]
    | array m =>
      simp only [separationFrom]
      by_cases hl : l.length = m.length
      · rw [if_pos hl, if_pos hl.symm]
        congr 1
        rw [List.zipWith_comm]
        congr 1
        funext a b
        exact C37_symmetric _ _
      · rw [if_neg hl, if_neg (Ne.symm hl)]
        match l, m with
        | [], [] => exact absurd rfl hl
        | [], [a] => simp
        | [], a :: b :: c => rfl
        | [a], [] => simp
        | [a], [b] => exact absurd rfl hl
        | [a], b :: c :: d => simp only [sym]
        | a :: b :: c, [] => rfl
        | a :: b :: c, [d] => simp only [sym]
        | a :: b :: c, d :: e :: f => rfl

/-- **C79.** Arrays that cannot be matched are refused: of different lengths, neither of them one. -/
theorem C79_mismatch (us vs : List Vec3) (h : us.length ≠ vs.length) (hu : us.length ≠ 1) (hv : vs.length ≠ 1) :
    separationFrom (.array us) (.array vs) = .error .valueError := by
  simp only [separationFrom]
  rw [if_neg h]
  match us, vs with
  | [], [] => exact absurd rfl h
  | [], [a] => exact absurd rfl hv
  | [], a :: b :: c => rfl
  | [a], _ => exact absurd rfl hu
  | a :: b :: c, [] => rfl
  | a :: b :: c, [d] => exact absurd rfl hv
  | a :: b :: c, d :: e :: f => rfl

/-! ### Epochs -/

/-- **C79.** The epoch of coordinates: a `Time` is used as it is, `'date'` is the position's own time, any other object (an integer
date among them) is refused with a ValueError; and a float is the precession and nutation of that Terrestrial Time.  For a position
with a time, nothing else is refused, by `radec()` and the ecliptic methods. -/
theorem C79_epochs (t own : EpochTime) (bare : ℝ → SkyTime) (tt : ℝ) (r : Vec3) :
    radecAt (some own) bare none r = .ok (toSpherical r) ∧
    radecAt (some own) bare (some (.time t)) r = .ok (toSpherical (t.sky.M.mulVec r)) ∧
    radecAt (some own) bare (some .date) r = .ok (frameLatlon trueEquatorFrame own.sky r) ∧
    radecAt (some own) bare (some (.float tt)) r = .ok (toSpherical ((bare tt).M.mulVec r)) ∧
    radecAt (some own) bare (some .other) r = .error .valueError ∧
    eclipticLatlon (some own) bare none r = .ok (frameLatlon eclipJ2000Frame own.sky r) ∧
    eclipticLatlon (some own) bare (some .date) r = .ok (frameLatlon eclipticFrame own.sky r) ∧
    eclipticLatlon (some own) bare (some (.time t)) r = .ok (frameLatlon eclipticFrame t.sky r) ∧
    eclipticLatlon (some own) bare (some (.float tt)) r = .ok (frameLatlon eclipticFrame (bare tt) r) ∧
    eclipticLatlon (some own) bare (some .other) r = .error .valueError :=
  ⟨rfl, rfl, rfl, rfl, rfl, rfl, rfl, rfl, rfl, rfl⟩

/-- **C79.** Latitudes and longitudes of the deprecated methods belong to the vectors that they return for the same epoch, and those
vectors have the length of the position, if the rotation is orthogonal. -/
theorem C79_ecliptic_agree (own : Option EpochTime) (bare : ℝ → SkyTime) (epoch : Option EpochArg) (r w : Vec3) (c : ℝ × ℝ × ℝ)
    (h1 : eclipticXyz own bare epoch r = .ok w) (h2 : eclipticLatlon own bare epoch r = .ok c) :
    w = fromSpherical c.1 c.2.1 c.2.2 := by
  unfold eclipticXyz at h1
  unfold eclipticLatlon at h2
  cases epoch with
  | none =>
    simp only [Except.ok.injEq] at h1 h2
    rw [← h1, ← h2]
    exact (C36_round_trip _).symm
  | some e =>
    simp only at h1 h2
    cases ht : resolveEpoch own bare e with
    | error x => rw [ht] at h1; simp at h1
    | ok t =>
      rw [ht] at h1 h2
      simp only [Except.ok.injEq] at h1 h2
      rw [← h1, ← h2]
      exact (C36_round_trip _).symm

/-- **C79.** `ecliptic_velocity()` is the rate of change of `ecliptic_xyz()`, for any motion whatever. -/
theorem C79_ecliptic_velocity (own : ℝ → Option EpochTime) (bare : ℝ → SkyTime) (t : SkyTime) (p w : ℝ → Vec3) (s : ℝ) (v : Vec3)
    (h : MovesWith p s v) (hw : ∀ s', eclipticXyz (own s') bare none (p s') = .ok (w s')) :
    MovesWith w s (eclipticVelocity t (p s) v) := by
  have e : w = fun s' => eclipJ2000Matrix.mulVec (p s') := by
    funext s'
    have := hw s'
    simp only [eclipticXyz, Except.ok.injEq] at this
    exact this.symm
  rw [e]
  exact h.mulVec _

/-- A straight motion along the ecliptic: the x axis is shared with the equator. -/
example (t : SkyTime) : MovesWith (fun s => (⟨s, 0, 0⟩ : Vec3)) 2 ⟨1, 0, 0⟩ ∧
    (∀ s' : ℝ, eclipticXyz none (fun _ => t) none ⟨s', 0, 0⟩ = .ok (eclipJ2000Matrix.mulVec ⟨s', 0, 0⟩)) ∧
    (eclipticVelocity t ⟨2, 0, 0⟩ ⟨1, 0, 0⟩).x = eclipJ2000Matrix.r1.x := by
  refine ⟨⟨hasDerivAt_id _, hasDerivAt_const _ _, hasDerivAt_const _ _⟩, fun _ => rfl, ?_⟩
  simp [eclipticVelocity, frameXyzAndVelocity, eclipJ2000Frame, inertialFrame, Mat3.mulVec, Vec3.dot]

/-- **C79 (finding).** `cirs_xyz()` and `cirs_radec()` document a floating-point epoch but always raise AttributeError for it, although
`radec()` accepts it: the time built from the number has no time scale, hence no UT1. -/
theorem C79_cirs_float (own : Option EpochTime) (bare : ℝ → SkyTime) (tt : ℝ) (r : Vec3) :
    cirsXyz own bare (.float tt) r = .error .attributeError ∧ cirsRadec own bare (.float tt) r = .error .attributeError ∧
    ∃ c, radecAt own bare (some (.float tt)) r = .ok c :=
  ⟨rfl, rfl, _, rfl⟩

/-! ### The two systems of right ascension -/

theorem rotZ_lon (θ : ℝ) (w : Vec3) (hoff : w.x ≠ 0 ∨ w.y ≠ 0) :
    (toSpherical ((rotZ θ).mulVec w)).1 = (toSpherical w).1 ∧ (toSpherical ((rotZ θ).mulVec w)).2.1 = (toSpherical w).2.1 ∧
    ∃ n : ℤ, (toSpherical ((rotZ θ).mulVec w)).2.2 = (toSpherical w).2.2 + θ + 2 * π * n := by
  set u := (rotZ θ).mulVec w with hu
  have hux : u.x = cos θ * w.x - sin θ * w.y := by rw [hu]; simp [rotZ, Mat3.mulVec, Vec3.dot]; ring
  have huy : u.y = sin θ * w.x + cos θ * w.y := by rw [hu]; simp [rotZ, Mat3.mulVec, Vec3.dot]
  have huz : u.z = w.z := by rw [hu]; simp [rotZ, Mat3.mulVec, Vec3.dot]
  have hsc := sin_sq_add_cos_sq θ
  have hh : hypot u.x u.y = hypot w.x w.y := by
    unfold hypot
    congr 1
    rw [hux, huy]
    linear_combination (w.x ^ 2 + w.y ^ 2) * hsc
  have hwpos : 0 < hypot w.x w.y := hypot_pos_of hoff
  have huoff : u.x ≠ 0 ∨ u.y ≠ 0 := by
    by_contra hc
    push Not at hc
    rw [hc.1, hc.2] at hh
    rw [← hh] at hwpos
    simp [hypot] at hwpos
  obtain ⟨cu, su⟩ := toSpherical_lon_cos_sin u huoff
  obtain ⟨cw, sw⟩ := toSpherical_lon_cos_sin w hoff
  rw [hh] at cu su
  refine ⟨?_, ?_, ?_⟩
  · simp only [toSpherical, Vec3.length]
    congr 1
    rw [hux, huy, huz]
    linear_combination (w.x ^ 2 + w.y ^ 2) * hsc
  · simp only [toSpherical]; rw [hh, huz]
  · have hc : cos (toSpherical u).2.2 = cos ((toSpherical w).2.2 + θ) := by
      have : cos (toSpherical u).2.2 * hypot w.x w.y = cos ((toSpherical w).2.2 + θ) * hypot w.x w.y := by
        rw [cu, cos_add, hux]; linear_combination (-cos θ) * cw + sin θ * sw
      exact mul_right_cancel₀ hwpos.ne' this
    have hs : sin (toSpherical u).2.2 = sin ((toSpherical w).2.2 + θ) := by
      have : sin (toSpherical u).2.2 * hypot w.x w.y = sin ((toSpherical w).2.2 + θ) * hypot w.x w.y := by
        rw [su, sin_add, huy]; linear_combination (-sin θ) * cw - cos θ * sw
      exact mul_right_cancel₀ hwpos.ne' this
    obtain ⟨k, hk⟩ := Real.Angle.angle_eq_iff_two_pi_dvd_sub.1 (Real.Angle.cos_sin_inj hc hs)
    exact ⟨k, by linear_combination hk⟩

/-- **C79.** `cirs_radec()` and `radec()` of one epoch agree on distance and declination, and their right ascensions differ, up to
whole turns, by the Earth rotation angle less the apparent sidereal time, whatever the position. -/
theorem C79_cirs (own : Option EpochTime) (bare : ℝ → SkyTime) (epoch : EpochArg) (r : Vec3) (e : EpochTime) (era : ℝ)
    (h : resolveEpoch own bare epoch = .ok e) (he : e.era = some era)
    (hoff : (e.sky.M.mulVec r).x ≠ 0 ∨ (e.sky.M.mulVec r).y ≠ 0) :
    ∃ c d, cirsRadec own bare epoch r = .ok c ∧ radecAt own bare (some epoch) r = .ok d ∧ c.1 = d.1 ∧ c.2.1 = d.2.1 ∧
      ∃ n : ℤ, c.2.2 = d.2.2 + 2 * π * (era - e.sky.gast / 24) + 2 * π * n := by
  obtain ⟨h1, h2, h3⟩ := rotZ_lon (2 * π * (era - e.sky.gast / 24)) (e.sky.M.mulVec r) hoff
  refine ⟨toSpherical ((cirsRotation e.sky era).mulVec r), toSpherical (e.sky.M.mulVec r), ?_, ?_, ?_⟩
  · simp only [cirsRadec, cirsXyz, h, he]
  · simp only [radecAt, h, radec]
  · unfold cirsRotation
    rw [Mat3.mul_mulVec]
    exact ⟨h1, h2, h3⟩

/-- **C79.** Right ascension counted from the Celestial Intermediate Origin is what the Earth rotation angle measures: without polar
motion, `hadec()` gives as hour angle the longitude plus the Earth rotation angle less the right ascension of `cirs_radec('date')`,
up to whole turns, and the same declination. -/
theorem C79_hour_angle (t : SkyTime) (era lon : ℝ) (bare : ℝ → SkyTime) (r : Vec3) (hp : t.polar = none)
    (hoff : (t.M.mulVec r).x ≠ 0 ∨ (t.M.mulVec r).y ≠ 0) :
    ∃ c, cirsRadec (some ⟨t, some era⟩) bare .date r = .ok c ∧ (hadec t lon r).2.1 = c.2.1 ∧
      ∃ n : ℤ, (hadec t lon r).1 = lon + 2 * π * era - c.2.2 + 2 * π * n := by
  obtain ⟨c, d, hc, hd, -, h2, n, h3⟩ := C79_cirs (some ⟨t, some era⟩) bare .date r ⟨t, some era⟩ era rfl rfl hoff
  obtain ⟨⟨k, hk⟩, hk2⟩ := C49_sidereal_minus_ra t lon r hp hoff
  have hd' : d = frameLatlon trueEquatorFrame t r := by
    have := (C79_epochs ⟨t, some era⟩ ⟨t, some era⟩ bare 0 r).2.2.1
    rw [this] at hd
    exact (Except.ok.inj hd).symm
  refine ⟨c, hc, by rw [hk2, h2, hd'], n - k, ?_⟩
  rw [hk, h3, hd']
  push_cast
  ring

/-- Non-vacuity: as for C49, some direction is off the pole. -/
example (t : SkyTime) (era : ℝ) (_ : t.polar = none) : ∃ r : Vec3, ((t.M.mulVec r).x ≠ 0 ∨ (t.M.mulVec r).y ≠ 0) ∧
    resolveEpoch (some ⟨t, some era⟩) (fun _ => t) .date = .ok ⟨t, some era⟩ := by
  refine ⟨t.M.transpose.mulVec ⟨1, 0, 0⟩, Or.inl ?_, rfl⟩
  have h := (isometryUpTo_M t).undo' ⟨1, 0, 0⟩
  intro h0
  have hx : ((t.M.mulVec (t.M.transpose.mulVec ⟨1, 0, 0⟩) - (⟨1, 0, 0⟩ : Vec3)).x) = -1 := by
    simp only [Vec3.sub_x, h0]; norm_num
  have h1 : 1 ≤ (t.M.mulVec (t.M.transpose.mulVec ⟨1, 0, 0⟩) - (⟨1, 0, 0⟩ : Vec3)).length := by
    unfold Vec3.length
    rw [Real.one_le_sqrt, hx]
    nlinarith [mul_self_nonneg (t.M.mulVec (t.M.transpose.mulVec ⟨1, 0, 0⟩) - (⟨1, 0, 0⟩ : Vec3)).y,
      mul_self_nonneg (t.M.mulVec (t.M.transpose.mulVec ⟨1, 0, 0⟩) - (⟨1, 0, 0⟩ : Vec3)).z]
  have h2 : (⟨1, 0, 0⟩ : Vec3).length = 1 := by simp [Vec3.length]
  rw [h2] at h
  norm_num at h
  linarith

/-! ### Earth-fixed vectors to GCRS -/

/-- **C79.** The old function `ITRF_to_GCRS2` agrees with building a position from vectors in the frame `tirs`; and with the frame
`itrs` and with `ITRF_to_GCRS` where no polar motion is installed. -/
theorem C79_itrf (t : SkyTime) (r v : Vec3) :
    itrfToGcrs2 t none r v = fromFrameVectors tirsFrame t r v ∧
    (t.polar = none → itrfToGcrs2 t none r v = fromFrameVectors itrsFrame t r v ∧
      (itrfToGcrs2 t none r v).1 = itrfToGcrs t r) := by
  have e : (t.MT.mul (rotZ (t.gast / 24 * tau))) = (tirsRotation t).transpose := by
    unfold tirsRotation SkyTime.MT
    rw [Mat3.transpose_mul]
    congr 1
    rw [show -t.gast * tau / 24 = -(t.gast / 24 * tau) by ring]
    ext <;> simp [rotZ, Mat3.transpose]
  have e2 : (⟨⟨0 * angvel, -dayS' * angvel, 0 * angvel⟩, ⟨dayS' * angvel, 0 * angvel, 0 * angvel⟩,
      ⟨0 * angvel, 0 * angvel, 0 * angvel⟩⟩ : Mat3).mulVec r = -itrsAngvelMatrix.mulVec r := by
    ext <;> simp [itrsAngvelMatrix, Mat3.mulVec, Vec3.dot]
  have key : itrfToGcrs2 t none r v = fromFrameVectors tirsFrame t r v := by
    unfold itrfToGcrs2 fromFrameVectors tirsFrame
    simp only
    rw [e, e2, ← sub_eq_add_neg]
  refine ⟨key, fun hp => ?_⟩
  have hi : itrsRotation t = tirsRotation t := by
    unfold itrsRotation tirsRotation
    rw [hp]
  have h3 : fromFrameVectors tirsFrame t r v = fromFrameVectors itrsFrame t r v := by
    unfold fromFrameVectors tirsFrame itrsFrame
    simp only [hi]
  refine ⟨key.trans h3, ?_⟩
  rw [key.trans h3]
  rfl

/-- **C79 (finding).** With `_high_accuracy`, sidereal time passing through 24 hours within the second makes Earth turn backwards, some
86 000 times too fast: a point at rest on the equator of an Earth turning as it should (by the same angle up to a whole turn)
is given a westward velocity. -/
theorem C79_high_accuracy_wrap (t : SkyTime) (later : ℝ) (h : later + 23 < t.gast) :
    let p := (itrfToGcrs2 t (some later) ⟨1, 0, 0⟩ 0).2
    let q := (itrfToGcrs2 t (some (later + 24)) ⟨1, 0, 0⟩ 0).2
    ∃ a b : ℝ, a < -23 / 24 * (86400 * 2 * π) ∧ p = a • (t.MT.mul (rotZ (t.gast / 24 * tau))).mulVec ⟨0, 1, 0⟩ ∧
      q = b • (t.MT.mul (rotZ (t.gast / 24 * tau))).mulVec ⟨0, 1, 0⟩ ∧ a = b - 86400 * (2 * π) := by
  have hpi := pi_pos
  refine ⟨86400 * ((later - t.gast) / 24 * (2 * π)), 86400 * ((later + 24 - t.gast) / 24 * (2 * π)), ?_, ?_, ?_, by ring⟩
  · nlinarith
  · ext <;> simp [itrfToGcrs2, Mat3.mulVec, Vec3.dot, dayS', tau] <;> ring
  · ext <;> simp [itrfToGcrs2, Mat3.mulVec, Vec3.dot, dayS', tau] <;> ring

/-- Non-vacuity of the wrap: sidereal time just before and just after 24 hours. -/
example : (0.0001 : ℝ) + 23 < (⟨2451545, 23.9998, 0, 0, none⟩ : SkyTime).gast := by norm_num

end Skyfield
