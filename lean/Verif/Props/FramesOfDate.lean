import Verif.Model.EarthRotation
import Verif.Lemmas.Angles
import Verif.Props.Rotations
import Verif.Props.Spherical
import Mathlib.Analysis.Real.Pi.Bounds

/-
C75: where the axes of the frames of date point.
-/
namespace Skyfield
open Real

/-- Specification: the unit vector at longitude (right ascension) `lon` and latitude (declination) `lat`. -/
noncomputable def directionAt (lon lat : ℝ) : Vec3 := ⟨cos lat * cos lon, cos lat * sin lon, sin lat⟩

/-- Specification: in equatorial axes, the unit vector at ecliptic longitude `lon` and latitude `lat`, for an ecliptic that
cuts the equator at the first axis and is inclined to it by `obliquity`. -/
noncomputable def eclipticDirection (obliquity lon lat : ℝ) : Vec3 :=
  ⟨cos lat * cos lon, cos obliquity * (cos lat * sin lon) - sin obliquity * sin lat,
   sin obliquity * (cos lat * sin lon) + cos obliquity * sin lat⟩

/-- Specification: the polynomials of Capitaine et al. (2003) eqs. 37 to 40 as power series, in arcseconds: the precession of
the equator in longitude and in obliquity, and of the ecliptic along the equator. -/
noncomputable def publishedPsi (t : ℝ) : ℝ :=
  5038.481507 * t - 1.0790069 * t ^ 2 - 0.00114045 * t ^ 3 + 0.000132851 * t ^ 4 - 0.0000000951 * t ^ 5
noncomputable def publishedOmega (t : ℝ) : ℝ :=
  84381.406 - 0.025754 * t + 0.0512623 * t ^ 2 - 0.00772503 * t ^ 3 - 0.000000467 * t ^ 4 + 0.0000003337 * t ^ 5
noncomputable def publishedChi (t : ℝ) : ℝ :=
  10.556403 * t - 2.3814292 * t ^ 2 - 0.00121197 * t ^ 3 + 0.000170663 * t ^ 4 - 0.0000000560 * t ^ 5
noncomputable def publishedObliquity (t : ℝ) : ℝ :=
  84381.406 - 46.836769 * t - 0.0001831 * t ^ 2 + 0.00200340 * t ^ 3 - 0.000000576 * t ^ 4 - 0.0000000434 * t ^ 5

/-! ### Axis rotations move directions -/

theorem rotZ_direction (θ lon lat : ℝ) : (rotZ θ).mulVec (directionAt lon lat) = directionAt (lon + θ) lat := by
  ext <;> simp [rotZ, directionAt, Mat3.mulVec, Vec3.dot, cos_add, sin_add] <;> ring

theorem rotX_ecliptic (e θ lon lat : ℝ) :
    (rotX θ).mulVec (eclipticDirection e lon lat) = eclipticDirection (e + θ) lon lat := by
  ext <;> simp [rotX, eclipticDirection, Mat3.mulVec, Vec3.dot, cos_add, sin_add] <;> ring

theorem ecliptic_zero (lon lat : ℝ) : eclipticDirection 0 lon lat = directionAt lon lat := by
  ext <;> simp [eclipticDirection, directionAt]

/-- **C75.** Nutation carries the point at ecliptic longitude `lon` and latitude `lat` of the mean equinox and obliquity to
the point at longitude `lon + Δψ` and the same latitude for the true obliquity `ε + Δε`: it leaves the ecliptic in place,
and moves the equinox along it and tilts the equator. -/
theorem C75_nutation (t : SkyTime) (lon lat : ℝ) :
    t.nutationMatrix.mulVec (eclipticDirection (publishedObliquity ((t.tdb - t0) / 36525) * asec2rad) lon lat) =
      eclipticDirection (publishedObliquity ((t.tdb - t0) / 36525) * asec2rad + t.dEps) (lon + t.dPsi) lat := by
  have h : t.meanObliquityRadians = publishedObliquity ((t.tdb - t0) / 36525) * asec2rad := by
    unfold SkyTime.meanObliquityRadians meanObliquity publishedObliquity
    simp only; ring
  unfold SkyTime.nutationMatrix
  rw [buildNutationMatrix_eq, h, Mat3.mul_mulVec, Mat3.mul_mulVec, rotX_ecliptic, add_neg_cancel, ecliptic_zero,
    rotZ_direction, ← ecliptic_zero, rotX_ecliptic, zero_add]

/-- **C75.** Precession from J2000 carries the point at J2000 ecliptic longitude `lon` and latitude `lat` to the point at
longitude `lon + ψ` and the same latitude for the inclination `ω`, turned back along the equator by `χ`, with the
published polynomials for the three angles. -/
theorem C75_precession (t : SkyTime) (lon lat : ℝ) :
    t.precessionMatrix.mulVec (eclipticDirection (84381.406 * asec2rad) lon lat) =
      (rotZ (-(publishedChi ((t.tdb - t0) / 36525) * asec2rad))).mulVec
        (eclipticDirection (publishedOmega ((t.tdb - t0) / 36525) * asec2rad)
          (lon + publishedPsi ((t.tdb - t0) / 36525) * asec2rad) lat) := by
  have h : precessionAngles t.tdb = (publishedPsi ((t.tdb - t0) / 36525), publishedOmega ((t.tdb - t0) / 36525),
      publishedChi ((t.tdb - t0) / 36525)) := by
    unfold precessionAngles publishedPsi publishedOmega publishedChi
    simp only [Prod.mk.injEq]
    refine ⟨by ring, by ring, by ring⟩
  unfold SkyTime.precessionMatrix computePrecession
  rw [h]
  simp only
  rw [precessionFrom_eq, Mat3.mul_mulVec, Mat3.mul_mulVec, Mat3.mul_mulVec, rotX_ecliptic, add_neg_cancel, ecliptic_zero,
    rotZ_direction, ← ecliptic_zero, rotX_ecliptic, zero_add]

/-- **C75.** The directions in the two theorems above are all directions. -/
theorem C75_every_direction (e : ℝ) (v : Vec3) : ∃ r lon lat, v = (r : ℝ) • eclipticDirection e lon lat := by
  have h : ∀ v : Vec3, ∃ r lon lat, v = (r : ℝ) • directionAt lon lat := by
    intro v
    refine ⟨(toSpherical v).1, (toSpherical v).2.2, (toSpherical v).2.1, ?_⟩
    have h := C36_round_trip v
    conv_lhs => rw [← h]
    ext <;> simp [fromSpherical, directionAt] <;> ring
  obtain ⟨r, lon, lat, hv⟩ := h ((rotX (-e)).mulVec v)
  refine ⟨r, lon, lat, ?_⟩
  have := (C35_rot_x (-e)).undo v
  rw [hv, Mat3.mulVec_smul] at this
  rw [← this]
  congr 1
  have ht : (rotX (-e)).transpose = rotX e := by ext <;> simp [rotX, Mat3.transpose]
  rw [ht, ← ecliptic_zero, rotX_ecliptic, zero_add]

/-- **C75.** The ecliptic frame of date keeps the equinox of the true equator frame, and its latitudes and longitudes are
those of an ecliptic inclined by the true obliquity: a vector with these true equatorial components has ecliptic
longitude `lon` and latitude `lat`. -/
theorem C75_ecliptic (t : SkyTime) (v : Vec3) (r lon lat : ℝ)
    (h : (trueEquatorRotation t).mulVec v =
      r • eclipticDirection (publishedObliquity ((t.tdb - t0) / 36525) * asec2rad + t.dEps) lon lat) :
    (eclipticRotation t).mulVec v = r • directionAt lon lat := by
  have ho : t.meanObliquityRadians = publishedObliquity ((t.tdb - t0) / 36525) * asec2rad := by
    unfold SkyTime.meanObliquityRadians meanObliquity publishedObliquity
    simp only; ring
  unfold trueEquatorRotation at h
  unfold eclipticRotation
  rw [Mat3.mul_mulVec, h, Mat3.mulVec_smul, ho, rotX_ecliptic, add_neg_cancel, ecliptic_zero]

/-- **C75.** Right ascension becomes longitude.  For a vector at true right ascension `ra` and declination `dec`: in the
terrestrial intermediate frame its longitude is `ra` less the apparent sidereal time; in CIRS its right ascension is `ra`
less what apparent sidereal time exceeds the Earth rotation angle by; in TEME, less what it exceeds the 1982 sidereal time
by. -/
theorem C75_sidereal (t : SkyTime) (era theta : ℝ) (v : Vec3) (r ra dec : ℝ)
    (h : (trueEquatorRotation t).mulVec v = r • directionAt ra dec) :
    (tirsRotation t).mulVec v = r • directionAt (ra - t.gast * (2 * π / 24)) dec ∧
    (cirsRotation t era).mulVec v = r • directionAt (ra - (t.gast * (2 * π / 24) - era * (2 * π))) dec ∧
    (temeRotation t theta).mulVec v = r • directionAt (ra - (t.gast * (2 * π / 24) - theta)) dec := by
  unfold trueEquatorRotation at h
  unfold tirsRotation cirsRotation temeRotation tau
  simp only [Mat3.mul_mulVec, h, Mat3.mulVec_smul, rotZ_direction]
  refine ⟨?_, ?_, ?_⟩ <;> congr 2 <;> ring

/-- **C75.** So a point's longitude on the turning Earth comes out the same from each: CIRS right ascension less the Earth
rotation angle, TEME right ascension less the 1982 sidereal time, true right ascension less the apparent sidereal time. -/
theorem C75_three_ways (t : SkyTime) (era theta : ℝ) :
    (rotZ (-(era * (2 * π)))).mul (cirsRotation t era) = tirsRotation t ∧
    (rotZ (-theta)).mul (temeRotation t theta) = tirsRotation t ∧
    (rotZ (-(t.gast * (2 * π / 24)))).mul (trueEquatorRotation t) = tirsRotation t := by
  have add : ∀ a b : ℝ, ∀ m : Mat3, (rotZ a).mul ((rotZ b).mul m) = (rotZ (a + b)).mul m := by
    intro a b m
    rw [← Mat3.mul_assoc]
    congr 1
    ext <;> simp [rotZ, Mat3.mul, Mat3.transpose, Vec3.dot, cos_add, sin_add] <;> ring
  unfold tirsRotation cirsRotation temeRotation trueEquatorRotation tau
  rw [add, add]
  refine ⟨?_, ?_, ?_⟩ <;> congr 2 <;> ring

/-- **C75.** Polar motion: the pole of the terrestrial intermediate frame is seen, in the ITRS, `x` from the pole towards
longitude 0° and `y` towards longitude 90° west; and the point on its equator at longitude `s'` is seen within `x y` of
longitude zero. -/
theorem C75_polar_motion (t : SkyTime) (s x y : ℝ) (h : t.polar = some (s, x, y)) :
    ∃ w : Mat3, (∀ v, (itrsRotation t).mulVec v = w.mulVec ((tirsRotation t).mulVec v)) ∧ IsIsometry w ∧
      w.mulVec ⟨0, 0, 1⟩ =
        ⟨sin (x * asec2rad), -(cos (x * asec2rad) * sin (y * asec2rad)), cos (x * asec2rad) * cos (y * asec2rad)⟩ ∧
      w.mulVec (directionAt (s * asec2rad) 0) =
        ⟨cos (x * asec2rad), sin (x * asec2rad) * sin (y * asec2rad), -(sin (x * asec2rad) * cos (y * asec2rad))⟩ := by
  have e : itrsRotation t = (SkyTime.polarMotionMatrix s x y).mul (tirsRotation t) := by
    unfold itrsRotation tirsRotation; rw [h]
  refine ⟨SkyTime.polarMotionMatrix s x y, fun v => by rw [e, Mat3.mul_mulVec], (C35_polar_motion s x y).1, ?_, ?_⟩
  · unfold SkyTime.polarMotionMatrix Mat3.mul3
    rw [Mat3.mul_mulVec, Mat3.mul_mulVec]
    ext <;> simp [rotX, rotY, rotZ, Mat3.mulVec, Vec3.dot] <;> ring
  · unfold SkyTime.polarMotionMatrix Mat3.mul3
    rw [Mat3.mul_mulVec, Mat3.mul_mulVec, rotZ_direction]
    have : s * asec2rad + -s * asec2rad = 0 := by ring
    rw [this]
    ext <;> simp [rotX, rotY, directionAt, Mat3.mulVec, Vec3.dot] <;> ring

/-- **C75.** Without a polar motion table the ITRS is the terrestrial intermediate frame. -/
theorem C75_no_polar_motion (t : SkyTime) (h : t.polar = none) : itrsRotation t = tirsRotation t := by
  unfold itrsRotation tirsRotation; rw [h]

/-- **C75.** The constant rate used for Earth-fixed velocities is the rate of the Earth rotation angle, to within a
hundred-millionth: two days apart by `d` the angles differ by `d` times it, in turns, up to whole turns. -/
theorem C75_rate (jd d : ℝ) : ∃ turns : ℤ,
    |(earthRotationAngle (jd + d) 0 - earthRotationAngle jd 0 - turns) * (2 * π) - dayS' * angvel * d| ≤
      2.1e-8 * (2 * π) * |d| := by
  have era : ∀ jd : ℝ, ∃ k : ℤ, earthRotationAngle jd 0 =
      0.7790572732640 + 0.00273781191135448 * (jd - t0 + 0) + jd - k := by
    intro jd
    unfold earthRotationAngle
    simp only
    obtain ⟨a, ha⟩ := pyMod_eq_sub' (0.7790572732640 + 0.00273781191135448 * (jd - t0 + 0)) (1 : ℝ)
    obtain ⟨b, hb⟩ := pyMod_eq_sub' jd (1 : ℝ)
    rw [ha, hb]
    obtain ⟨c, hc⟩ := pyMod_eq_sub' (0.7790572732640 + 0.00273781191135448 * (jd - t0 + 0) - 1 * a + (jd - 1 * b) + 0) (1 : ℝ)
    exact ⟨a + b + c, by rw [hc]; push_cast; ring⟩
  obtain ⟨k, hk⟩ := era jd
  obtain ⟨l, hl⟩ := era (jd + d)
  refine ⟨k - l, ?_⟩
  have e : (earthRotationAngle (jd + d) 0 - earthRotationAngle jd 0 - ((k - l : ℤ) : ℝ)) * (2 * π) - dayS' * angvel * d =
      ((0.00273781191135448 + 1) * (2 * π) - dayS' * angvel) * d := by
    rw [hk, hl]; push_cast; ring
  rw [e, abs_mul]
  refine mul_le_mul_of_nonneg_right ?_ (abs_nonneg d)
  have h1 := pi_gt_d20
  have h2 := pi_lt_d20
  unfold dayS' angvel
  rw [abs_le]
  constructor <;> linarith

/-! ### The hypotheses are met -/

/-- Every position has a distance, true right ascension and declination as in `C75_sidereal`, and true ecliptic longitude and
latitude as in `C75_ecliptic`. -/
example (t : SkyTime) (v : Vec3) :
    (∃ r ra dec, (trueEquatorRotation t).mulVec v = (r : ℝ) • directionAt ra dec) ∧
    ∃ r lon lat, (trueEquatorRotation t).mulVec v =
      (r : ℝ) • eclipticDirection (publishedObliquity ((t.tdb - t0) / 36525) * asec2rad + t.dEps) lon lat := by
  refine ⟨?_, C75_every_direction _ _⟩
  obtain ⟨r, lon, lat, h⟩ := C75_every_direction 0 ((trueEquatorRotation t).mulVec v)
  exact ⟨r, lon, lat, by rw [h, ecliptic_zero]⟩

/-- A date with polar motion as measured in 2020: 0.08″ and 0.28″. -/
example : (⟨2459000, 5, 1e-5, 1e-5, some (-1e-5, 0.08, 0.28)⟩ : SkyTime).polar = some (-1e-5, 0.08, 0.28) := rfl

end Skyfield
