import Verif.Model.Horizon
import Verif.Spec.Horizon
import Verif.Props.Geoid
import Verif.Props.Spherical
import Verif.Props.Rotations
import Verif.Props.EarthRotation
import Verif.Props.Almanac

/-
C100: altitude and azimuth are measured from the horizon, the zenith and the north of the place.
-/
namespace Skyfield
open Real Spec

/-! ### The compass of a place -/

theorem _root_.Spec.Moves.unique {r : ℝ → Vec3} {s : ℝ} {u v : Vec3} (h : Moves r s u) (k : Moves r s v) : u = v := by
  ext
  · exact h.x.unique k.x
  · exact h.y.unique k.y
  · exact h.z.unique k.z

private theorem smul_unit_unique {j k : ℝ} {u v : Vec3} (hj : 0 < j) (hk : 0 < k) (hu : u.length = 1) (hv : v.length = 1)
    (h : j • u = k • v) : u = v := by
  have h1 := congrArg Vec3.length h
  rw [Vec3.length_smul_of_nonneg hj.le, Vec3.length_smul_of_nonneg hk.le, hu, hv, mul_one, mul_one] at h1
  subst h1
  ext
  · have := congrArg Vec3.x h; simpa [hj.ne'] using this
  · have := congrArg Vec3.y h; simpa [hj.ne'] using this
  · have := congrArg Vec3.z h; simpa [hj.ne'] using this

theorem _root_.Spec.CompassAt.unique {place : ℝ → ℝ → ℝ → Vec3} {lat lon h : ℝ} {n e u n' e' u' : Vec3}
    (a : CompassAt place lat lon h n e u) (b : CompassAt place lat lon h n' e' u') : n = n' ∧ e = e' ∧ u = u' := by
  obtain ⟨j, hj, h1⟩ := a.north_moves
  obtain ⟨k, hk, h2⟩ := b.north_moves
  obtain ⟨j', hj', h3⟩ := a.east_moves
  obtain ⟨k', hk', h4⟩ := b.east_moves
  exact ⟨smul_unit_unique hj hk a.north_unit b.north_unit (h1.unique h2),
    smul_unit_unique hj' hk' a.east_unit b.east_unit (h3.unique h4), a.up_moves.unique b.up_moves⟩

/-- The three directions in formulas. -/
noncomputable def groundNorth (lat lon : ℝ) : Vec3 := ⟨-sin lat * cos lon, -sin lat * sin lon, cos lat⟩
noncomputable def groundEast (lon : ℝ) : Vec3 := ⟨-sin lon, cos lon, 0⟩

private theorem hasDerivAt_c (o lat : ℝ) (hq : 0 < cos lat * cos lat + sin lat * sin lat * o) :
    HasDerivAt (fun φ : ℝ => 1 / √(cos φ * cos φ + sin φ * sin φ * o))
      (sin lat * cos lat * (1 - o) /
        ((cos lat * cos lat + sin lat * sin lat * o) * √(cos lat * cos lat + sin lat * sin lat * o))) lat := by
  have h1 : HasDerivAt (fun φ : ℝ => cos φ * cos φ + sin φ * sin φ * o)
      (((-sin lat) * cos lat + cos lat * (-sin lat)) + (cos lat * sin lat + sin lat * cos lat) * o) lat :=
    ((hasDerivAt_cos lat).mul (hasDerivAt_cos lat)).add (((hasDerivAt_sin lat).mul (hasDerivAt_sin lat)).mul_const o)
  have h2 := (h1.sqrt hq.ne').inv (Real.sqrt_pos.2 hq).ne'
  have h3 := Real.sqrt_pos.2 hq
  have h4 := Real.mul_self_sqrt hq.le
  have e : (fun φ : ℝ => 1 / √(cos φ * cos φ + sin φ * sin φ * o)) = (fun φ : ℝ => √(cos φ * cos φ + sin φ * sin φ * o))⁻¹ := by
    funext φ; simp [Pi.inv_apply]
  rw [e]
  refine h2.congr_deriv ?_
  rw [pow_two, h4]
  field_simp
  ring

private theorem meridian_xy {a o h s c S : ℝ} (h1 : s ^ 2 + c ^ 2 = 1) (hq : 0 < c * c + s * s * o) (hS : 0 < S) :
    a * (s * c * (1 - o) / ((c * c + s * s * o) * S)) * c + (a * (1 / S) + h) * -s =
      -(a * o / ((c * c + s * s * o) * S) + h) * s := by
  have hq' := hq.ne'
  have : a * (1 / S) = a * (c * c + s * s * o) / ((c * c + s * s * o) * S) := by
    rw [mul_comm (c * c + s * s * o) S, mul_div_mul_right _ _ hq']; ring
  rw [this]
  generalize (c * c + s * s * o) * S = K
  linear_combination (-(a * o * s / K)) * h1

private theorem meridian_z {a o h s c S : ℝ} (h1 : s ^ 2 + c ^ 2 = 1) (hq : 0 < c * c + s * s * o) (hS : 0 < S) :
    a * (o * (s * c * (1 - o) / ((c * c + s * s * o) * S))) * s + (a * (o * (1 / S)) + h) * c =
      (a * o / ((c * c + s * s * o) * S) + h) * c := by
  have hq' := hq.ne'
  have : a * (o * (1 / S)) = a * o * (c * c + s * s * o) / ((c * c + s * s * o) * S) := by
    rw [mul_comm (c * c + s * s * o) S, mul_div_mul_right _ _ hq']; ring
  rw [this]
  generalize (c * c + s * s * o) * S = K
  linear_combination (a * o * c / K) * h1

/-- **C100.** Every place built from latitude, longitude and elevation, off the poles and not deeper than the smallest radius of
curvature of the ellipsoid, has a compass, and only one; its directions are these. -/
theorem C100_compass (g : Geoid) (hg : g.Proper) (lat lon h : ℝ) (hlat : |lat| < π / 2)
    (hh : -(g.polarRadius ^ 2 / g.radius) < h) :
    CompassAt g.latlon lat lon h (groundNorth lat lon) (groundEast lon) (vertical lat lon) ∧
    ∀ n e u, CompassAt g.latlon lat lon h n e u → n = groundNorth lat lon ∧ e = groundEast lon ∧ u = vertical lat lon := by
  have main : CompassAt g.latlon lat lon h (groundNorth lat lon) (groundEast lon) (vertical lat lon) := by
    have hi : g.inverseFlattening ≠ 0 := by have := hg.flattening; linarith
    have ha := hg.radius
    have ho := hg.omf2_pos
    have ho1 := hg.omf2_lt_one
    have hb : g.polarRadius ^ 2 / g.radius = g.radius * g.omf2 := by
      rw [g.polar_sq hi]; field_simp
    rw [hb] at hh
    have hq := hg.q_pos lat
    have hs := Real.sqrt_pos.2 hq
    have hsq := Real.mul_self_sqrt hq.le
    have h1 := sin_sq_add_cos_sq lat
    have h2 := sin_sq_add_cos_sq lon
    have hq1 : cos lat * cos lat + sin lat * sin lat * g.omf2 ≤ 1 := by nlinarith [mul_self_nonneg (sin lat)]
    have hs1 : √(cos lat * cos lat + sin lat * sin lat * g.omf2) ≤ 1 := by
      rw [Real.sqrt_le_left (by norm_num)]; linarith
    have hc : 0 < cos lat := by
      rw [abs_lt] at hlat
      exact cos_pos_of_mem_Ioo ⟨by linarith, hlat.2⟩
    have hN : g.radius ≤ g.radius * (1 / √(cos lat * cos lat + sin lat * sin lat * g.omf2)) := by
      have : 1 ≤ 1 / √(cos lat * cos lat + sin lat * sin lat * g.omf2) := by rw [le_div_iff₀ hs]; linarith
      nlinarith
    have dc := hasDerivAt_c g.omf2 lat hq
    have hM : g.radius * g.omf2 ≤ g.radius * g.omf2 /
        ((cos lat * cos lat + sin lat * sin lat * g.omf2) * √(cos lat * cos lat + sin lat * sin lat * g.omf2)) := by
      rw [le_div_iff₀ (by positivity)]
      have : (cos lat * cos lat + sin lat * sin lat * g.omf2) * √(cos lat * cos lat + sin lat * sin lat * g.omf2) ≤ 1 := by
        nlinarith
      have h3 : 0 < g.radius * g.omf2 := by positivity
      nlinarith
    refine ⟨?_, ?_, ?_, ?_, ?_, ?_⟩
    · rw [Vec3.length_eq, show (groundNorth lat lon).dot (groundNorth lat lon) = 1 by
        unfold groundNorth Vec3.dot; simp only
        linear_combination (sin lat ^ 2) * h2 + h1]
      exact Real.sqrt_one
    · rw [Vec3.length_eq, show (groundEast lon).dot (groundEast lon) = 1 by
        unfold groundEast Vec3.dot; simp only
        linear_combination h2]
      exact Real.sqrt_one
    · exact (C42_position g hg lat lon h).2.2.1
    · refine ⟨?_, ?_, ?_⟩
      · have := (((hasDerivAt_id h).const_add (g.radius * (1 / √(cos lat * cos lat + sin lat * sin lat * g.omf2)))).mul_const
          (cos lat)).mul_const (cos lon)
        simpa [Geoid.latlon, vertical] using this
      · have := (((hasDerivAt_id h).const_add (g.radius * (1 / √(cos lat * cos lat + sin lat * sin lat * g.omf2)))).mul_const
          (cos lat)).mul_const (sin lon)
        simpa [Geoid.latlon, vertical] using this
      · have := ((hasDerivAt_id h).const_add (g.radius * (g.omf2 * (1 / √(cos lat * cos lat + sin lat * sin lat * g.omf2))))).mul_const
          (sin lat)
        simpa [Geoid.latlon, vertical] using this
    · refine ⟨g.radius * g.omf2 /
        ((cos lat * cos lat + sin lat * sin lat * g.omf2) * √(cos lat * cos lat + sin lat * sin lat * g.omf2)) + h,
        by linarith, ?_, ?_, ?_⟩
      · have := (((dc.const_mul g.radius).add_const h).mul (hasDerivAt_cos lat)).mul_const (cos lon)
        refine this.congr_deriv ?_
        simp only [groundNorth, Vec3.smul_x]
        rw [meridian_xy h1 hq hs]
        ring
      · have := (((dc.const_mul g.radius).add_const h).mul (hasDerivAt_cos lat)).mul_const (sin lon)
        refine this.congr_deriv ?_
        simp only [groundNorth, Vec3.smul_y]
        rw [meridian_xy h1 hq hs]
        ring
      · have := (((dc.const_mul g.omf2).const_mul g.radius).add_const h).mul (hasDerivAt_sin lat)
        refine this.congr_deriv ?_
        simp only [groundNorth, Vec3.smul_z]
        exact meridian_z h1 hq hs
    · refine ⟨(g.radius * (1 / √(cos lat * cos lat + sin lat * sin lat * g.omf2)) + h) * cos lat,
        mul_pos (by nlinarith) hc, ?_, ?_, ?_⟩
      · have := (hasDerivAt_cos lon).const_mul ((g.radius * (1 / √(cos lat * cos lat + sin lat * sin lat * g.omf2)) + h) * cos lat)
        simpa [Geoid.latlon, groundEast] using this
      · have := (hasDerivAt_sin lon).const_mul ((g.radius * (1 / √(cos lat * cos lat + sin lat * sin lat * g.omf2)) + h) * cos lat)
        simpa [Geoid.latlon, groundEast] using this
      · have := hasDerivAt_const lon (g.latlon lat lon h).z
        simpa [Geoid.latlon, groundEast] using this
  exact ⟨main, fun n e u hc => hc.unique main⟩

/-- Non-vacuity: Greenwich-like latitude 1 rad, on the WGS84 ellipsoid (in meters), 100 m up. -/
example : (⟨6378137, 298.257223563⟩ : Geoid).Proper ∧ |(1:ℝ)| < π / 2 ∧
    -((⟨6378137, 298.257223563⟩ : Geoid).polarRadius ^ 2 / 6378137) < (100:ℝ) := by
  refine ⟨⟨by norm_num, by norm_num⟩, ?_, ?_⟩
  · rw [abs_one]; have := pi_gt_three; linarith
  · have : 0 ≤ (⟨6378137, 298.257223563⟩ : Geoid).polarRadius ^ 2 / 6378137 := by positivity
    linarith

/-! ### Altitude and azimuth against the compass -/

private theorem horizon_components (lat lon : ℝ) (q : Vec3) :
    (latlonRotation lat lon).mulVec q = ⟨q.dot (groundNorth lat lon), q.dot (groundEast lon), q.dot (vertical lat lon)⟩ := by
  ext <;> simp [latlonRotation, latRotation, Mat3.flipRows, rotY, rotZ, Mat3.mul, Mat3.transpose, Mat3.mulVec, Vec3.dot,
    groundNorth, groundEast, vertical] <;> ring

/-- The general form, at any latitude. -/
theorem altaz_components (lat lon : ℝ) (t : SkyTime) (r : Vec3) :
    let q := frameXyz itrsFrame t r
    let a := altaz (horizonRotation lat lon t) r
    a.1 = q.length ∧ |a.2.1| ≤ π / 2 ∧ 0 ≤ a.2.2 ∧ a.2.2 < 2 * π ∧
    q.dot (vertical lat lon) = a.1 * sin a.2.1 ∧ q.dot (groundNorth lat lon) = a.1 * cos a.2.1 * cos a.2.2 ∧
    q.dot (groundEast lon) = a.1 * cos a.2.1 * sin a.2.2 := by
  have e : altaz (horizonRotation lat lon t) r = toSpherical ((latlonRotation lat lon).mulVec (frameXyz itrsFrame t r)) := by
    unfold altaz horizonRotation frameXyz itrsFrame
    rw [Mat3.mul_mulVec]
  simp only [e]
  obtain ⟨h1, -, h3, h4, h5⟩ := C36_range ((latlonRotation lat lon).mulVec (frameXyz itrsFrame t r))
  obtain ⟨m1, m2, m3⟩ := C36_meaning ((latlonRotation lat lon).mulVec (frameXyz itrsFrame t r))
  refine ⟨?_, h3, h4, h5, ?_, ?_, ?_⟩
  · rw [h1]; exact (C35_horizon lat lon).1.length _
  · rw [← m3, horizon_components]
  · rw [← m1, horizon_components]
  · rw [← m2, horizon_components]

/-- **C100.** `altaz()` measures from the compass of the place: turned into Earth-fixed coordinates, the position lies at the
reported distance, as far up as the altitude says, and as far north and east as altitude and azimuth say; the altitude is within a
quarter turn and the azimuth in [0, one turn). -/
theorem C100_altaz (g : Geoid) (hg : g.Proper) (lat lon h : ℝ) (hlat : |lat| < π / 2)
    (hh : -(g.polarRadius ^ 2 / g.radius) < h) (north east up : Vec3) (hc : CompassAt g.latlon lat lon h north east up)
    (t : SkyTime) (r : Vec3) :
    let q := frameXyz itrsFrame t r
    let a := altaz (horizonRotation lat lon t) r
    a.1 = q.length ∧ |a.2.1| ≤ π / 2 ∧ 0 ≤ a.2.2 ∧ a.2.2 < 2 * π ∧
    q.dot up = a.1 * sin a.2.1 ∧ q.dot north = a.1 * cos a.2.1 * cos a.2.2 ∧ q.dot east = a.1 * cos a.2.1 * sin a.2.2 := by
  obtain ⟨rfl, rfl, rfl⟩ := (C100_compass g hg lat lon h hlat hh).2 _ _ _ hc
  exact altaz_components lat lon t r

/-! ### The turn into Earth-fixed coordinates can be undone -/

theorem IsometryUpTo.surjective {ε : ℝ} (he : ε < 1) {m : Mat3} (h : IsometryUpTo ε m) (q : Vec3) : ∃ r, m.mulVec r = q := by
  have kerT : ∀ v, m.transpose.mulVec v = 0 → v = 0 := by
    intro v hv
    have := h.undo' v
    rw [hv, show m.mulVec 0 - v = -v by ext <;> simp [Mat3.mulVec, Vec3.dot], Vec3.length_neg] at this
    have h0 := Vec3.length_nonneg v
    exact Vec3.length_eq_zero.1 (by nlinarith)
  have ker : ∀ v, m.mulVec v = 0 → v = 0 := by
    intro v hv
    have := h.undo v
    rw [hv, show m.transpose.mulVec 0 - v = -v by ext <;> simp [Mat3.mulVec, Vec3.dot], Vec3.length_neg] at this
    have h0 := Vec3.length_nonneg v
    exact Vec3.length_eq_zero.1 (by nlinarith)
  have hdet : m.det ≠ 0 := by
    intro hd
    have h1 : m.r1.cross m.r2 = 0 := ker _ (by
      ext
      · simp [Mat3.mulVec, Vec3.dot, Vec3.cross]; ring
      · simp [Mat3.mulVec, Vec3.dot, Vec3.cross]; ring
      · simp only [Mat3.mulVec, Vec3.zero_z]
        rw [← hd]; simp [Mat3.det, Vec3.dot, Vec3.cross]; ring)
    have hx := congrArg Vec3.x h1
    have hy := congrArg Vec3.y h1
    have hz := congrArg Vec3.z h1
    simp only [Vec3.cross, Vec3.zero_x, Vec3.zero_y, Vec3.zero_z] at hx hy hz
    have h2 := kerT ⟨m.r1.dot m.r2, -m.r1.dot m.r1, 0⟩ (by
      ext <;> simp only [Mat3.mulVec, Mat3.transpose, Vec3.dot, Vec3.zero_x, Vec3.zero_y, Vec3.zero_z]
      · linear_combination m.r1.y * hz - m.r1.z * hy
      · linear_combination m.r1.z * hx - m.r1.x * hz
      · linear_combination m.r1.x * hy - m.r1.y * hx)
    have h3 : m.r1.dot m.r1 = 0 := by have := congrArg Vec3.y h2; simpa using this
    have h4 : m.r1 = 0 := Vec3.dot_self_eq_zero.1 h3
    have h5 := kerT ⟨1, 0, 0⟩ (by
      ext <;> simp [Mat3.mulVec, Mat3.transpose, Vec3.dot, h4])
    have := congrArg Vec3.x h5
    simp at this
  refine ⟨(1 / m.det) • (q.x • m.r2.cross m.r3 + q.y • m.r3.cross m.r1 + q.z • m.r1.cross m.r2), ?_⟩
  rw [Mat3.mulVec_smul]
  have e : m.mulVec (q.x • m.r2.cross m.r3 + q.y • m.r3.cross m.r1 + q.z • m.r1.cross m.r2) = m.det • q := by
    ext <;> simp [Mat3.mulVec, Mat3.det, Vec3.dot, Vec3.cross] <;> ring
  rw [e]
  ext <;> simp [hdet]

/-- Every Earth-fixed vector is that of some position. -/
theorem earth_fixed_reached (t : SkyTime) (q : Vec3) : ∃ r, frameXyz itrsFrame t r = q :=
  IsometryUpTo.surjective (by norm_num) (C35_frames t 0 0 0 0).2.2.2.1 q

/-- Non-vacuity: at a place with a compass, something stands exactly in the north-east on the horizon. -/
example (t : SkyTime) : ∃ r, (frameXyz itrsFrame t r).dot (groundNorth 1 2) = 1 ∧ (frameXyz itrsFrame t r).dot (groundEast 2) = 1 ∧
    (frameXyz itrsFrame t r).dot (vertical 1 2) = 0 := by
  obtain ⟨r, hr⟩ := earth_fixed_reached t (groundNorth 1 2 + groundEast 2)
  have h1 := sin_sq_add_cos_sq (1:ℝ)
  have h2 := sin_sq_add_cos_sq (2:ℝ)
  refine ⟨r, ?_, ?_, ?_⟩ <;> rw [hr] <;> simp only [groundNorth, groundEast, vertical, Vec3.dot, Vec3.add_x, Vec3.add_y, Vec3.add_z]
  · linear_combination (sin 1 ^ 2) * h2 + h1
  · linear_combination h2
  · linear_combination (-(sin 1 * cos 1)) * h2

private theorem vertical_unit (lat lon : ℝ) : (vertical lat lon).length = 1 := by
  rw [Vec3.length_eq, show (vertical lat lon).dot (vertical lat lon) = 1 by
    unfold vertical Vec3.dot; simp only
    linear_combination (cos lat ^ 2) * sin_sq_add_cos_sq lon + sin_sq_add_cos_sq lat]
  exact Real.sqrt_one

/-- **C100.** The altitude is a quarter turn less the angle from the zenith. -/
theorem C100_zenith_distance (lat lon : ℝ) (t : SkyTime) (r : Vec3) (h0 : frameXyz itrsFrame t r ≠ 0) :
    (altaz (horizonRotation lat lon t) r).2.1 = π / 2 - angleBetween (frameXyz itrsFrame t r) (vertical lat lon) := by
  obtain ⟨h1, h2, -, -, h5, -, -⟩ := altaz_components lat lon t r
  have hu := vertical_unit lat lon
  have hv : vertical lat lon ≠ 0 := by
    intro h; rw [h, Vec3.length_zero] at hu; norm_num at hu
  have hl := Vec3.length_pos h0
  rw [C37_arccos _ _ h0 hv, hu, mul_one, h5, h1, mul_div_cancel_left₀ _ hl.ne']
  rw [abs_le] at h2
  rw [arccos_eq_pi_div_two_sub_arcsin, arcsin_sin h2.1 h2.2]
  ring

/-- Non-vacuity. -/
example (t : SkyTime) : ∃ r, frameXyz itrsFrame t r ≠ 0 := by
  obtain ⟨r, hr⟩ := earth_fixed_reached t ⟨0, 0, 1⟩
  refine ⟨r, ?_⟩
  rw [hr]
  intro h
  have := congrArg Vec3.z h
  simp at this

/-- **C100.** What stands above the pole of the Earth stands in the north, as high as the latitude. -/
theorem C100_pole (lat lon : ℝ) (hlat : |lat| ≤ π / 2) (t : SkyTime) (r : Vec3) (d : ℝ) (hd : 0 < d)
    (hr : frameXyz itrsFrame t r = ⟨0, 0, d⟩) : altaz (horizonRotation lat lon t) r = (d, lat, 0) := by
  have e : altaz (horizonRotation lat lon t) r = toSpherical (fromSpherical d lat 0) := by
    unfold altaz horizonRotation
    rw [Mat3.mul_mulVec, show (itrsRotation t).mulVec r = ⟨0, 0, d⟩ from hr, horizon_components]
    congr 1
    ext <;> simp [fromSpherical, Vec3.dot, groundNorth, groundEast, vertical]
  rw [e]
  ext
  · exact fromSpherical_length hd.le _ _
  · exact toSpherical_lat hd hlat _
  · have hc := cos_nonneg_of_abs hlat
    simp only [toSpherical, fromSpherical, cos_zero, sin_zero, mul_one, mul_zero]
    have h0 : arctan2 0 (d * cos lat) = 0 := Complex.arg_ofReal_of_nonneg (by positivity)
    rw [h0]
    simp [pyMod]

/-- **C100.** Altitude and azimuth agree with the hour angle and declination of `hadec()` through the formulas of the
astronomical triangle. -/
theorem C100_hadec (lat lon : ℝ) (t : SkyTime) (r : Vec3) (h0 : frameXyz itrsFrame t r ≠ 0) :
    let a := altaz (horizonRotation lat lon t) r
    let d := hadec t lon r
    a.1 = d.2.2 ∧
    sin a.2.1 = sin lat * sin d.2.1 + cos lat * cos d.2.1 * cos d.1 ∧
    cos a.2.1 * cos a.2.2 = cos lat * sin d.2.1 - sin lat * cos d.2.1 * cos d.1 ∧
    cos a.2.1 * sin a.2.2 = -(cos d.2.1 * sin d.1) ∧
    AltitudeIs lat d.2.1 d.1 a.2.1 := by
  obtain ⟨h1, -, -, -, h5, h6, h7⟩ := altaz_components lat lon t r
  obtain ⟨-, -, n, hn⟩ := C49_hour_angle t lon r
  obtain ⟨m1, m2, m3⟩ := C36_meaning (frameXyz itrsFrame t r)
  have hl := Vec3.length_pos h0
  have hd1 : (toSpherical (frameXyz itrsFrame t r)).1 = (frameXyz itrsFrame t r).length := rfl
  have hd : (hadec t lon r).2.1 = (toSpherical (frameXyz itrsFrame t r)).2.1 := rfl
  have hs : (frameLatlon itrsFrame t r).2.2 = (toSpherical (frameXyz itrsFrame t r)).2.2 := rfl
  have ha : (hadec t lon r).2.2 = (frameXyz itrsFrame t r).length := rfl
  rw [hs] at hn
  have hcos : cos (hadec t lon r).1 = cos (lon - (toSpherical (frameXyz itrsFrame t r)).2.2) := by
    rw [hn, mul_comm (2 * π) (n:ℝ), cos_sub_int_mul_two_pi]
  have hsin : sin (hadec t lon r).1 = sin (lon - (toSpherical (frameXyz itrsFrame t r)).2.2) := by
    rw [hn, mul_comm (2 * π) (n:ℝ), sin_sub_int_mul_two_pi]
  simp only
  rw [h1] at h5 h6 h7
  rw [hd1] at m1 m2 m3
  simp only [vertical, groundNorth, groundEast, Vec3.dot] at h5 h6 h7
  rw [m1, m2, m3] at h5 h6 h7
  have key : sin (altaz (horizonRotation lat lon t) r).2.1 = sin lat * sin (hadec t lon r).2.1 +
      cos lat * cos (hadec t lon r).2.1 * cos (hadec t lon r).1 := by
    rw [hd, hcos, cos_sub]
    refine mul_left_cancel₀ hl.ne' ?_
    linear_combination -h5
  refine ⟨by rw [h1, ha], key, ?_, ?_, ?_⟩
  · rw [hd, hcos, cos_sub]
    refine mul_left_cancel₀ hl.ne' ?_
    linear_combination -h6
  · rw [hd, hsin, sin_sub]
    refine mul_left_cancel₀ hl.ne' ?_
    linear_combination -h7
  · intro lst
    rw [altitude_formula, key]

/-- **C100.** Local sidereal time is the right ascension of the zenith: without polar motion, `lst_hours_at` gives the right ascension
on the true equator and equinox of date of what stands in the zenith, but for the correction of 47 millionths of an arcsecond per
century, up to whole days; and the declination of the zenith is the latitude. -/
theorem C100_sidereal_time (t : SkyTime) (lat lon whole tdb : ℝ) (hp : t.polar = none) (hlat : |lat| < π / 2) (z : Vec3)
    (hz : frameXyz itrsFrame t z = vertical lat lon) :
    (frameLatlon trueEquatorFrame t z).2.1 = lat ∧
    ∃ n : ℤ, lstHoursAt t.gast (lon / (2 * π) * 24) whole tdb =
      (frameLatlon trueEquatorFrame t z).2.2 / (2 * π) * 24 - 47e-6 / 3600 / 15 * ((whole + tdb - 2451545) / 36525) + 24 * n := by
  have hc : 0 < cos lat := by
    rw [abs_lt] at hlat
    exact cos_pos_of_mem_Ioo ⟨by linarith, hlat.2⟩
  have hv : vertical lat lon = fromSpherical 1 lat lon := by
    ext <;> simp [vertical, fromSpherical]
  have hrot : (rotZ (-t.gast * tau / 24)).mulVec (t.M.mulVec z) = vertical lat lon := by
    rw [← hz]
    simp only [frameXyz, itrsFrame, itrsRotation, hp]
    rw [Mat3.mul_mulVec]
  have hne : (vertical lat lon).x ≠ 0 ∨ (vertical lat lon).y ≠ 0 := by
    by_contra hcon
    push Not at hcon
    obtain ⟨h1, h2⟩ := hcon
    simp only [vertical, mul_eq_zero, hc.ne', false_or] at h1 h2
    have := sin_sq_add_cos_sq lon
    rw [h1, h2] at this
    norm_num at this
  have hoff : (t.M.mulVec z).x ≠ 0 ∨ (t.M.mulVec z).y ≠ 0 := by
    by_contra hcon
    push Not at hcon
    obtain ⟨h1, h2⟩ := hcon
    generalize t.M.mulVec z = w at hrot h1 h2
    rcases hne with h | h
    · apply h; rw [← hrot]; simp [rotZ, Mat3.mulVec, Vec3.dot, h1, h2]
    · apply h; rw [← hrot]; simp [rotZ, Mat3.mulVec, Vec3.dot, h1, h2]
  obtain ⟨⟨n, hn⟩, hdec⟩ := C49_sidereal_minus_ra t lon z hp hoff
  obtain ⟨-, -, m, hm⟩ := C49_hour_angle t lon z
  obtain ⟨-, -, -, k, hk⟩ := C49_apparent_and_local 0 0 t.gast (lon / (2 * π) * 24) whole tdb
  have hsub : (frameLatlon itrsFrame t z).2.2 = (toSpherical (vertical lat lon)).2.2 := by rw [← hz]; rfl
  obtain ⟨c1, c2⟩ := toSpherical_lon_cos_sin (vertical lat lon) hne
  have hhyp : hypot (vertical lat lon).x (vertical lat lon).y = cos lat := by
    simp only [vertical]; exact hypot_polar hc.le
  rw [hhyp] at c1 c2
  have c3 : cos (toSpherical (vertical lat lon)).2.2 = cos lon := by
    simp only [vertical] at c1 ⊢
    refine mul_right_cancel₀ hc.ne' (c1.trans (mul_comm _ _))
  have c4 : sin (toSpherical (vertical lat lon)).2.2 = sin lon := by
    simp only [vertical] at c2 ⊢
    refine mul_right_cancel₀ hc.ne' (c2.trans (mul_comm _ _))
  obtain ⟨j, hj⟩ := Real.Angle.angle_eq_iff_two_pi_dvd_sub.1 (Real.Angle.cos_sin_inj c3 c4)
  have hpi := pi_pos
  refine ⟨?_, n - m - j - k, ?_⟩
  · rw [← hdec]
    have : (hadec t lon z).2.1 = (toSpherical (vertical lat lon)).2.1 := by rw [← hz]; rfl
    rw [this, hv]
    exact toSpherical_lat one_pos hlat.le _
  · rw [hk]
    have e : (frameLatlon trueEquatorFrame t z).2.2 =
        t.gast * (2 * π) / 24 + lon + 2 * π * (j + m - n) := by
      rw [hn, hsub] at hm
      linarith
    rw [e]
    push_cast
    field_simp
    ring

/-- Non-vacuity. -/
example (t : SkyTime) : ∃ z, frameXyz itrsFrame t z = vertical 1 2 := earth_fixed_reached t _

/-! ### The ground -/

private theorem normal_facts (g : Geoid) (hg : g.Proper) (lat lon : ℝ) :
    ∃ k : ℝ, 0 < k ∧ normalAt g (g.latlon lat lon 0) = k • vertical lat lon ∧
      (normalAt g (g.latlon lat lon 0)).dot (g.latlon lat lon 0) = 1 := by
  obtain ⟨h1, -, -, k, hk, h4⟩ := C42_position g hg lat lon 0
  refine ⟨k, hk, h4, ?_⟩
  rw [← h1]
  unfold normalAt Vec3.dot
  simp only
  ring

/-- The quadratic form of the ellipsoid. -/
private noncomputable def quad (g : Geoid) (p : Vec3) : ℝ :=
  (p.x / g.radius) ^ 2 + (p.y / g.radius) ^ 2 + (p.z / g.polarRadius) ^ 2

private theorem polar_pos {g : Geoid} (hg : g.Proper) : 0 < g.polarRadius := by
  unfold Geoid.polarRadius
  have h1 := hg.flattening
  have h2 : 1 / g.inverseFlattening < 1 := by rw [div_lt_one (by linarith)]; exact h1
  exact mul_pos hg.radius (by linarith)

private theorem quad_nonneg (g : Geoid) (p : Vec3) : 0 ≤ quad g p := by unfold quad; positivity

private theorem quad_pos {g : Geoid} (hg : g.Proper) {p : Vec3} (h : p ≠ 0) : 0 < quad g p := by
  have ha := hg.radius
  have hb := polar_pos hg
  rcases (quad_nonneg g p).lt_or_eq with h0 | h0
  · exact h0
  · exfalso
    apply h
    unfold quad at h0
    have h1 : (p.x / g.radius) ^ 2 = 0 := by nlinarith [sq_nonneg (p.x / g.radius), sq_nonneg (p.y / g.radius), sq_nonneg (p.z / g.polarRadius)]
    have h2 : (p.y / g.radius) ^ 2 = 0 := by nlinarith [sq_nonneg (p.x / g.radius), sq_nonneg (p.y / g.radius), sq_nonneg (p.z / g.polarRadius)]
    have h3 : (p.z / g.polarRadius) ^ 2 = 0 := by nlinarith [sq_nonneg (p.x / g.radius), sq_nonneg (p.y / g.radius), sq_nonneg (p.z / g.polarRadius)]
    ext
    · simpa [ha.ne'] using h1
    · simpa [ha.ne'] using h2
    · simpa [hb.ne'] using h3

private theorem quad_add (g : Geoid) (p d : Vec3) (s : ℝ) :
    quad g (p + s • d) = quad g p + 2 * s * (normalAt g p).dot d + s ^ 2 * quad g d := by
  unfold quad normalAt Vec3.dot
  simp only [Vec3.add_x, Vec3.add_y, Vec3.add_z, Vec3.smul_x, Vec3.smul_y, Vec3.smul_z]
  ring

/-- How far above the tangent plane a point lies, against how far outside the ellipsoid. -/
private theorem above_plane (g : Geoid) (p x : Vec3) :
    2 * (normalAt g p).dot x = quad g x + (normalAt g p).dot p - quad g (x - p) := by
  unfold quad normalAt Vec3.dot
  simp only [Vec3.sub_x, Vec3.sub_y, Vec3.sub_z]
  ring

/-- **C100.** From a place on or above the ellipsoid, nothing that stands at altitude zero or higher is seen through the ground. -/
theorem C100_clear_view (g : Geoid) (hg : g.Proper) (lat lon h : ℝ) (hh : 0 ≤ h) (t : SkyTime) (r : Vec3)
    (ha : 0 ≤ (altaz (horizonRotation lat lon t) r).2.1) :
    ¬ LooksIntoGround g (g.latlon lat lon h) (frameXyz itrsFrame t r) := by
  rintro ⟨s, hs, hin⟩
  obtain ⟨h1, h2, -, -, h5, -, -⟩ := altaz_components lat lon t r
  obtain ⟨k, hk, hn, hnp⟩ := normal_facts g hg lat lon
  have hup : 0 ≤ (frameXyz itrsFrame t r).dot (vertical lat lon) := by
    rw [h5, h1]
    refine mul_nonneg (Vec3.length_nonneg _) (sin_nonneg_of_nonneg_of_le_pi ha ?_)
    rw [abs_le] at h2
    linarith [pi_pos]
  have hx := above_plane g (g.latlon lat lon 0) (g.latlon lat lon h + s • frameXyz itrsFrame t r)
  have hq := quad_nonneg g (g.latlon lat lon h + s • frameXyz itrsFrame t r - g.latlon lat lon 0)
  have hin' : quad g (g.latlon lat lon h + s • frameXyz itrsFrame t r) < 1 := hin
  rw [hnp] at hx
  have hv := vertical_unit lat lon
  have hvv : (vertical lat lon).dot (vertical lat lon) = 1 := by rw [← Vec3.length_mul_self, hv]; norm_num
  have e : (normalAt g (g.latlon lat lon 0)).dot (g.latlon lat lon h + s • frameXyz itrsFrame t r) =
      1 + k * h + s * k * (frameXyz itrsFrame t r).dot (vertical lat lon) := by
    rw [(C42_position g hg lat lon h).2.1, Vec3.dot_add, Vec3.dot_add, hnp, hn]
    simp only [Vec3.smul_dot, Vec3.dot_smul]
    rw [hvv, Vec3.dot_comm (vertical lat lon)]
    ring
  rw [e] at hx
  have p1 : 0 ≤ k * h := by positivity
  have p2 : 0 ≤ s * k * (frameXyz itrsFrame t r).dot (vertical lat lon) := by positivity
  linarith

/-- **C100.** From a place on the ellipsoid, a position stands at a negative altitude exactly if the line of sight runs into the
ground. -/
theorem C100_horizon (g : Geoid) (hg : g.Proper) (lat lon : ℝ) (t : SkyTime) (r : Vec3) :
    (altaz (horizonRotation lat lon t) r).2.1 < 0 ↔ LooksIntoGround g (g.latlon lat lon 0) (frameXyz itrsFrame t r) := by
  constructor
  · intro ha
    obtain ⟨h1, h2, -, -, h5, -, -⟩ := altaz_components lat lon t r
    obtain ⟨k, hk, hn, hnp⟩ := normal_facts g hg lat lon
    have hsin : sin (altaz (horizonRotation lat lon t) r).2.1 < 0 := by
      rw [abs_le] at h2
      exact sin_neg_of_neg_of_neg_pi_lt ha (by linarith [pi_pos])
    have hne : frameXyz itrsFrame t r ≠ 0 := by
      intro h0
      have e : altaz (horizonRotation lat lon t) r = toSpherical 0 := by
        unfold altaz horizonRotation
        rw [Mat3.mul_mulVec, show (itrsRotation t).mulVec r = 0 from h0]
        congr 1
        ext <;> simp [Mat3.mulVec, Vec3.dot]
      rw [e] at ha
      simp [toSpherical, hypot, arctan2_zero_zero] at ha
    have hl := Vec3.length_pos hne
    have hup : (frameXyz itrsFrame t r).dot (vertical lat lon) < 0 := by
      rw [h5, h1]; exact mul_neg_of_pos_of_neg hl hsin
    have hQ := quad_pos hg hne
    have hnd : (normalAt g (g.latlon lat lon 0)).dot (frameXyz itrsFrame t r) < 0 := by
      rw [hn, Vec3.smul_dot, Vec3.dot_comm]; exact mul_neg_of_pos_of_neg hk hup
    generalize hD : (normalAt g (g.latlon lat lon 0)).dot (frameXyz itrsFrame t r) = D at hnd
    refine ⟨-D / quad g (frameXyz itrsFrame t r), div_pos (by linarith) hQ, ?_⟩
    show quad g _ < 1
    rw [quad_add, hD, show quad g (g.latlon lat lon 0) = 1 from (C42_position g hg lat lon 0).1]
    have e : 2 * (-D / quad g (frameXyz itrsFrame t r)) * D +
        (-D / quad g (frameXyz itrsFrame t r)) ^ 2 * quad g (frameXyz itrsFrame t r) =
        -(D ^ 2 / quad g (frameXyz itrsFrame t r)) := by
      field_simp; ring
    have : 0 < D ^ 2 / quad g (frameXyz itrsFrame t r) := div_pos (by nlinarith) hQ
    linarith
  · intro hin
    by_contra ha
    exact C100_clear_view g hg lat lon 0 le_rfl t r (not_lt.1 ha) hin

/-- **C100.** Two different places on the ellipsoid see each other below the horizon. -/
theorem C100_neighbours (g : Geoid) (hg : g.Proper) (lat lon lat' lon' : ℝ) (t : SkyTime) (r : Vec3)
    (hr : frameXyz itrsFrame t r = g.latlon lat' lon' 0 - g.latlon lat lon 0)
    (hne : g.latlon lat' lon' 0 ≠ g.latlon lat lon 0) : (altaz (horizonRotation lat lon t) r).2.1 < 0 := by
  rw [C100_horizon g hg]
  have hd : g.latlon lat' lon' 0 - g.latlon lat lon 0 ≠ 0 := by
    intro h0
    apply hne
    have h1 := congrArg Vec3.x h0
    have h2 := congrArg Vec3.y h0
    have h3 := congrArg Vec3.z h0
    simp only [Vec3.sub_x, Vec3.sub_y, Vec3.sub_z, Vec3.zero_x, Vec3.zero_y, Vec3.zero_z] at h1 h2 h3
    ext <;> linarith
  have hQ := quad_pos hg hd
  refine ⟨1 / 2, by norm_num, ?_⟩
  show quad g _ < 1
  rw [quad_add, hr, show quad g (g.latlon lat lon 0) = 1 from (C42_position g hg lat lon 0).1, Vec3.dot_sub]
  have hx := above_plane g (g.latlon lat lon 0) (g.latlon lat' lon' 0)
  rw [show quad g (g.latlon lat' lon' 0) = 1 from (C42_position g hg lat' lon' 0).1] at hx
  obtain ⟨k, hk, hn, hnp⟩ := normal_facts g hg lat lon
  rw [hnp] at hx ⊢
  nlinarith

/-- Non-vacuity: the poles of an ellipsoid, for instance. -/
example (g : Geoid) (hg : g.Proper) (t : SkyTime) :
    g.latlon (π / 2) 0 0 ≠ g.latlon (-(π / 2)) 0 0 ∧
    ∃ r, frameXyz itrsFrame t r = g.latlon (π / 2) 0 0 - g.latlon (-(π / 2)) 0 0 := by
  refine ⟨?_, earth_fixed_reached t _⟩
  intro h
  have hz := congrArg Vec3.z h
  have h1 := hg.omf2_pos
  have h2 := hg.radius
  have h3 := Real.sqrt_pos.2 h1
  simp [Geoid.latlon] at hz
  have h4 : 0 < g.radius * (g.omf2 * (√g.omf2)⁻¹) := by positivity
  linarith

/-- **C100.** What stands on the same latitude and longitude but higher is in the zenith; lower, in the nadir. -/
theorem C100_overhead (g : Geoid) (hg : g.Proper) (lat lon h h' : ℝ) (t : SkyTime) (r : Vec3)
    (hr : frameXyz itrsFrame t r = g.latlon lat lon h' - g.latlon lat lon h) :
    (altaz (horizonRotation lat lon t) r).1 = |h' - h| ∧
    (h < h' → (altaz (horizonRotation lat lon t) r).2.1 = π / 2) ∧
    (h' < h → (altaz (horizonRotation lat lon t) r).2.1 = -(π / 2)) := by
  obtain ⟨h1, h2, -, -, h5, -, -⟩ := altaz_components lat lon t r
  have e : frameXyz itrsFrame t r = (h' - h) • vertical lat lon := by
    rw [hr, (C42_position g hg lat lon h').2.1, (C42_position g hg lat lon h).2.1]
    ext <;> simp <;> ring
  have hv := vertical_unit lat lon
  have hvv : (vertical lat lon).dot (vertical lat lon) = 1 := by rw [← Vec3.length_mul_self, hv]; norm_num
  have hlen : (altaz (horizonRotation lat lon t) r).1 = |h' - h| := by rw [h1, e, Vec3.length_smul, hv, mul_one]
  rw [hlen, e, Vec3.smul_dot, hvv, mul_one] at h5
  rw [abs_le] at h2
  refine ⟨hlen, fun hlt => ?_, fun hlt => ?_⟩
  · rw [abs_of_pos (by linarith)] at h5
    have : sin (altaz (horizonRotation lat lon t) r).2.1 = 1 := by
      have hp : 0 < h' - h := by linarith
      nlinarith
    rw [← arcsin_sin h2.1 h2.2, this, arcsin_one]
  · rw [abs_of_neg (by linarith)] at h5
    have : sin (altaz (horizonRotation lat lon t) r).2.1 = -1 := by
      have hp : 0 < h - h' := by linarith
      nlinarith
    rw [← arcsin_sin h2.1 h2.2, this, arcsin_neg_one]

/-- Non-vacuity. -/
example (g : Geoid) (t : SkyTime) : ∃ r, frameXyz itrsFrame t r = g.latlon 1 2 400 - g.latlon 1 2 0 := earth_fixed_reached t _

/-! ### With the weather -/

/-- **C100.** Without a temperature, `altaz()` of a place gives the altitude in degrees, the azimuth and the distance of
`C100_altaz`, whatever the pressure. -/
theorem C100_no_weather (p : GeoPosition) (t : SkyTime) (pressure : Weather) (fuel : ℕ) (r : Vec3) :
    let a := altaz (horizonRotation p.latitude p.longitude t) r
    p.altaz t none pressure fuel r = .answer (a.2.1 * 180 / π) a.2.2 a.1 := by
  simp only [GeoPosition.altaz, toAltaz, altaz]
  congr 1
  unfold tau
  field_simp
  ring

/-- **C100.** With a temperature, and air of at most about 1.4 times the standard density, `altaz()` ends; azimuth and distance are
those without it; the altitude is raised or left, and solves the refraction equation to 3e-5 degrees. -/
theorem C100_weather (p : GeoPosition) (t : SkyTime) (T P : ℝ) (r : Vec3) (h0 : 0 ≤ 0.28 * P / (T + 273))
    (h1 : 0.28 * P / (T + 273) ≤ 1.4) :
    let a := altaz (horizonRotation p.latitude p.longitude t) r
    ∃ x, (∀ fuel, 1100 ≤ fuel → p.altaz t (some (.number T)) (.number P) fuel r = .answer x a.2.2 a.1) ∧
      a.2.1 * 57.295779513082321 ≤ x ∧ |x - (a.2.1 * 57.295779513082321 + refraction x T P)| ≤ 3.0e-5 := by
  obtain ⟨x, hx, h2, h3⟩ := C61_refract ((altaz (horizonRotation p.latitude p.longitude t) r).2.1 * 57.295779513082321) T P h0 h1
  refine ⟨x, fun fuel hf => ?_, h2, h3⟩
  have := hx fuel hf
  simp only [altaz] at this
  simp only [GeoPosition.altaz, toAltaz, placeRefract, Magnitude.rad2deg, this, altaz]

/-- **C100.** `'standard'` stands for 10°C, and for 1010 mbar falling off by a factor e with every 9100 m of elevation; so the
default weather is safe at every elevation above -1000 m. -/
theorem C100_standard_weather (p : GeoPosition) (t : SkyTime) (fuel : ℕ) (r : Vec3) :
    p.altaz t (some .standard) .standard fuel r =
      p.altaz t (some (.number 10)) (.number (1010 * exp (-(p.elevation * 149597870700) / 9100))) fuel r ∧
    (-1000 ≤ p.elevation * 149597870700 →
      0 ≤ 0.28 * (1010 * exp (-(p.elevation * 149597870700) / 9100)) / ((10:ℝ) + 273) ∧
      0.28 * (1010 * exp (-(p.elevation * 149597870700) / 9100)) / ((10:ℝ) + 273) ≤ 1.4) := by
  have e : standardPressure (p.elevation * auM) = 1010 * exp (-(p.elevation * 149597870700) / 9100) := by
    unfold standardPressure auM; norm_num
  constructor
  · simp only [GeoPosition.altaz, toAltaz, placeRefract, e]
  · intro h
    have := C61_standard (p.elevation * auM) (by unfold auM; exact h)
    rw [e] at this
    exact this

/-- **C100.** A center without an atmosphere of its own (`refract`) cannot be given a temperature. -/
theorem C100_no_atmosphere (rotation : Mat3) (w pressure : Weather) (fuel : ℕ) (r : Vec3) :
    toAltaz rotation none (some w) pressure fuel r = .valueError := rfl

/-- Non-vacuity: ordinary weather at a place made with `latlon`. -/
example : (0:ℝ) ≤ 0.28 * 1000 / (20 + 273) ∧ (0.28:ℝ) * 1000 / (20 + 273) ≤ 1.4 ∧
    (-1000:ℝ) ≤ (wgs84Au.place 45 10 500).elevation * 149597870700 := by
  refine ⟨by norm_num, by norm_num, ?_⟩
  simp [Geoid.place, auM]
  norm_num

end Skyfield
