import Verif.Model.SatelliteAltitude
import Verif.Props.Rotations
import Verif.Props.Spherical

/-
C68: the shortcut that `find_events` takes does not change the altitude.
-/
namespace Skyfield
open Real

/-- Specification: where the satellite stands, seen from the place, worked out in Earth-fixed coordinates: the SGP4
position turned by the sidereal angle `theta` of 1982 about the pole, and by the polar motion if any, minus the place;
then along the axes north, east and up of the place. -/
noncomputable def seenFrom (polar : Option (ℝ × ℝ × ℝ)) (theta lat lon : ℝ) (place sgp4 : Vec3) : Vec3 :=
  let pef : Vec3 := ⟨sgp4.x * cos theta + sgp4.y * sin theta, -sgp4.x * sin theta + sgp4.y * cos theta, sgp4.z⟩
  let d := (match polar with
    | some (sprime, x, y) => (SkyTime.polarMotionMatrix sprime x y).mulVec pef
    | none => pef) - place
  ⟨d.dot ⟨-(sin lat * cos lon), -(sin lat * sin lon), cos lat⟩, d.dot ⟨-sin lon, cos lon, 0⟩,
    d.dot ⟨cos lat * cos lon, cos lat * sin lon, sin lat⟩⟩

theorem rotZ_mul_transpose (a b : ℝ) (v : Vec3) : (rotZ a).mulVec ((rotZ b).transpose.mulVec v) = (rotZ (a - b)).mulVec v := by
  ext <;> simp [rotZ, Mat3.mulVec, Mat3.transpose, Vec3.dot, cos_sub, sin_sub] <;> ring

theorem rotZ_neg_mulVec (θ : ℝ) (v : Vec3) : (rotZ (-θ)).mulVec v =
    ⟨v.x * cos θ + v.y * sin θ, -v.x * sin θ + v.y * cos θ, v.z⟩ := by
  ext <;> simp [rotZ, Mat3.mulVec, Vec3.dot] <;> ring

theorem latlon_mulVec (lat lon : ℝ) (d : Vec3) : (latlonRotation lat lon).mulVec d =
    ⟨d.dot ⟨-(sin lat * cos lon), -(sin lat * sin lon), cos lat⟩, d.dot ⟨-sin lon, cos lon, 0⟩,
      d.dot ⟨cos lat * cos lon, cos lat * sin lon, sin lat⟩⟩ := by
  ext <;> simp [latlonRotation, latRotation, Mat3.flipRows, rotY, rotZ, Mat3.mul, Mat3.mulVec, Mat3.transpose, Vec3.dot]
    <;> ring

/-- The polar motion part of the Earth-fixed rotation. -/
noncomputable def wobble (polar : Option (ℝ × ℝ × ℝ)) : Mat3 :=
  match polar with
  | some (sprime, x, y) => SkyTime.polarMotionMatrix sprime x y
  | none => Mat3.one

theorem wobble_isometry (polar : Option (ℝ × ℝ × ℝ)) : IsIsometry (wobble polar) := by
  unfold wobble
  split
  · exact (C35_polar_motion _ _ _).1
  · exact isIsometry_one

theorem itrs_eq (t : Sidereal) : t.itrs = ((wobble t.polar).mul (rotZ (-t.gast * tau / 24))).mul t.m := by
  unfold Sidereal.itrs wobble
  cases t.polar with
  | none => simp only; rw [Mat3.one_mul]
  | some p => simp only; rw [Mat3.mul_assoc]

theorem seenFrom_eq (polar : Option (ℝ × ℝ × ℝ)) (theta lat lon : ℝ) (place sgp4 : Vec3) :
    seenFrom polar theta lat lon place sgp4 =
      (latlonRotation lat lon).mulVec ((wobble polar).mulVec ((rotZ (-theta)).mulVec sgp4) - place) := by
  rw [latlon_mulVec, rotZ_neg_mulVec]
  unfold seenFrom wobble
  cases polar with
  | none => simp only [Mat3.one_mulVec]
  | some p => rfl

/-- The vector whose direction is the altitude and azimuth, in terms of the matrix `m`. -/
theorem horizon_vector (t : Sidereal) (theta lat lon : ℝ) (place sgp4 : Vec3) :
    ((latlonRotation lat lon).mul t.itrs).mulVec (-placeAt t place + satelliteAt t theta sgp4) =
      ((latlonRotation lat lon).mul ((wobble t.polar).mul (rotZ (-t.gast * tau / 24)))).mulVec
        (t.m.mulVec (t.m.transpose.mulVec
          ((rotZ (theta - t.gast / 24 * tau)).transpose.mulVec sgp4 -
            ((wobble t.polar).mul (rotZ (-t.gast * tau / 24))).transpose.mulVec place))) := by
  unfold placeAt satelliteAt Sidereal.teme
  rw [itrs_eq]
  simp only [Mat3.transpose_mul, Mat3.mul_mulVec, Mat3.mulVec_sub]
  have e : ∀ u v : Vec3, -u + v = v - u := fun u v => by abel
  rw [e]
  simp only [Mat3.mulVec_sub]

theorem sidereal_vector (t : Sidereal) (theta lat lon : ℝ) (place sgp4 : Vec3) :
    ((latlonRotation lat lon).mul ((wobble t.polar).mul (rotZ (-t.gast * tau / 24)))).mulVec
      ((rotZ (theta - t.gast / 24 * tau)).transpose.mulVec sgp4 -
        ((wobble t.polar).mul (rotZ (-t.gast * tau / 24))).transpose.mulVec place) =
    seenFrom t.polar theta lat lon place sgp4 := by
  have hiso := (wobble_isometry t.polar).mul (C35_rot_z (-t.gast * tau / 24))
  rw [seenFrom_eq, Mat3.mul_mulVec, Mat3.mulVec_sub, hiso.undo', Mat3.mul_mulVec, rotZ_mul_transpose]
  rw [show -t.gast * tau / 24 - (theta - t.gast / 24 * tau) = -theta by ring]

/-- **C68.** With the shortcut, the altitude, azimuth and distance are exactly those of the satellite as seen from the
place in Earth-fixed coordinates, whatever the honest sidereal time and precession-nutation matrix were. -/
theorem C68_shortcut_value (t : Sidereal) (theta lat lon : ℝ) (place sgp4 : Vec3) :
    satelliteAltaz t.cheat theta lat lon place sgp4 = toSpherical (seenFrom t.polar theta lat lon place sgp4) := by
  unfold satelliteAltaz
  simp only
  rw [horizon_vector]
  have h1 : t.cheat.m = Mat3.one := rfl
  have h2 : (Mat3.one).transpose = Mat3.one := rfl
  rw [h1, h2, Mat3.one_mulVec, Mat3.one_mulVec, sidereal_vector]
  rfl

/-- **C68.** The shortcut changes nothing: if the precession-nutation matrix preserves lengths and angles, the altitude,
azimuth and distance are the same with the shortcut as without. -/
theorem C68_shortcut_exact (t : Sidereal) (hm : IsIsometry t.m) (theta lat lon : ℝ) (place sgp4 : Vec3) :
    satelliteAltaz t.cheat theta lat lon place sgp4 = satelliteAltaz t theta lat lon place sgp4 := by
  rw [C68_shortcut_value]
  unfold satelliteAltaz
  simp only
  rw [horizon_vector, hm.undo', sidereal_vector]

theorem sin_lat_of (v : Vec3) : sin (toSpherical v).2.1 * v.length = v.z := by
  rw [← (C36_range v).1]
  have h := (C36_meaning v).2.2
  linarith

/-- **C68.** For every date, with the matrix the code actually uses (a rotation to within 2·10⁻¹⁴, C35), the shortcut
moves the satellite's distance by no more than a relative 2·10⁻¹⁴ and the sine of its altitude by no more than
4·10⁻¹⁴. -/
theorem C68_shortcut (t : SkyTime) (theta lat lon : ℝ) (place sgp4 : Vec3)
    (hne : seenFrom t.polar theta lat lon place sgp4 ≠ 0) :
    let a := satelliteAltaz t.sidereal.cheat theta lat lon place sgp4
    let b := satelliteAltaz t.sidereal theta lat lon place sgp4
    |b.1 - a.1| ≤ 2e-14 * a.1 ∧ |sin b.2.1 - sin a.2.1| ≤ 4e-14 := by
  intro a b
  set g := seenFrom t.polar theta lat lon place sgp4 with hg
  have ha : a = toSpherical g := C68_shortcut_value t.sidereal theta lat lon place sgp4
  set A := (latlonRotation lat lon).mul ((wobble t.polar).mul (rotZ (-t.gast * tau / 24))) with hA
  set x := (rotZ (theta - t.gast / 24 * tau)).transpose.mulVec sgp4 -
        ((wobble t.polar).mul (rotZ (-t.gast * tau / 24))).transpose.mulVec place with hx
  have hAiso : IsIsometry A := (C35_horizon lat lon).1.mul ((wobble_isometry t.polar).mul (C35_rot_z _))
  have hAx : A.mulVec x = g := sidereal_vector t.sidereal theta lat lon place sgp4
  have hb : b = toSpherical (A.mulVec (t.M.mulVec (t.M.transpose.mulVec x))) := by
    show satelliteAltaz t.sidereal theta lat lon place sgp4 = _
    unfold satelliteAltaz
    simp only
    rw [horizon_vector]
    rfl
  set h := A.mulVec (t.M.mulVec (t.M.transpose.mulVec x)) with hh
  have hd : (h - g).length ≤ 2e-14 * g.length := by
    rw [← hAx, hh, ← Mat3.mulVec_sub, hAiso.length, hAiso.length]
    exact (isometryUpTo_M t).undo' x
  have hl : |h.length - g.length| ≤ 2e-14 * g.length := (Vec3.abs_length_sub_le h g).trans hd
  have hz : |h.z - g.z| ≤ 2e-14 * g.length := by
    refine le_trans ?_ hd
    rw [Vec3.length_eq, show h.z - g.z = (h - g).z from rfl]
    apply Real.abs_le_sqrt
    unfold Vec3.dot
    nlinarith [sq_nonneg (h - g).x, sq_nonneg (h - g).y]
  rw [ha, hb]
  refine ⟨by rw [(C36_range h).1, (C36_range g).1]; exact hl, ?_⟩
  have hg0 : 0 < g.length := Vec3.length_pos hne
  have s1 := sin_lat_of h
  have s2 := sin_lat_of g
  set p := sin (toSpherical h).2.1 with hp
  set q := sin (toSpherical g).2.1 with hq
  have hp1 : |p| ≤ 1 := abs_sin_le_one _
  have e : (p - q) * g.length = (h.z - g.z) - p * (h.length - g.length) := by
    rw [← s1, ← s2]; ring
  have h3 : |p - q| * g.length ≤ 4e-14 * g.length := by
    rw [← abs_of_pos hg0, ← abs_mul, e, abs_of_pos hg0]
    calc |h.z - g.z - p * (h.length - g.length)| ≤ |h.z - g.z| + |p * (h.length - g.length)| := abs_sub _ _
      _ ≤ 2e-14 * g.length + 1 * (2e-14 * g.length) := by
          rw [abs_mul]
          exact add_le_add hz (mul_le_mul hp1 hl (abs_nonneg _) zero_le_one)
      _ = 4e-14 * g.length := by ring
  exact le_of_mul_le_mul_right h3 hg0

/-- Without polar motion, a satellite over the equator on the meridian, seen from the pole of the frame. -/
example : seenFrom none 0 0 0 ⟨1, 0, 0⟩ ⟨2, 1, 1⟩ ≠ 0 := by
  intro h
  have := congrArg Vec3.z h
  norm_num [seenFrom, Vec3.dot] at this

end Skyfield
