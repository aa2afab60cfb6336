import Verif.Model.PositionAngle
import Verif.Props.Spherical
import Mathlib.Tactic.LinearCombination

/-
C71: position angles.
-/
namespace Skyfield
open Real

/-- Specification: the direction with the given latitude and longitude. -/
noncomputable def skyDir (lat lon : ℝ) : Vec3 := ⟨cos lat * cos lon, cos lat * sin lon, sin lat⟩
/-- Specification: from there, the direction in which the latitude grows. -/
noncomputable def upDir (lat lon : ℝ) : Vec3 := ⟨-(sin lat * cos lon), -(sin lat * sin lon), cos lat⟩
/-- Specification: from there, the direction in which the longitude grows. -/
noncomputable def onDir (lon : ℝ) : Vec3 := ⟨-sin lon, cos lon, 0⟩

/-- Specification: `pa` is the angle, counted from the direction `up` towards the direction `side`, under which the
position `q` is seen from `p`: the part of `q` across the line of sight, as long as the sine of the separation, makes
that angle with `up`. -/
def SeenUnder (pa : ℝ) (p q up side : Vec3) : Prop :=
  q.dot up = sin (angleBetween p q) * cos pa ∧ q.dot side = sin (angleBetween p q) * sin pa ∧ 0 ≤ pa ∧ pa < 2 * π

theorem skyDir_length (lat lon : ℝ) : (skyDir lat lon).length = 1 := by
  have := fromSpherical_length (zero_le_one) lat lon
  simpa [fromSpherical, skyDir] using this

theorem skyDir_ne (lat lon : ℝ) : skyDir lat lon ≠ 0 := by
  intro h
  have := skyDir_length lat lon
  rw [h, Vec3.length_zero] at this
  norm_num at this

theorem sin_sep (a b c d : ℝ) :
    sin (angleBetween (skyDir a b) (skyDir c d)) =
      hypot ((skyDir c d).dot (upDir a b)) ((skyDir c d).dot (onDir b)) := by
  obtain ⟨h1, h2, h3⟩ := C37_angle _ _ (skyDir_ne a b) (skyDir_ne c d)
  rw [skyDir_length, skyDir_length, mul_one, div_one] at h1
  have hs : 0 ≤ sin (angleBetween (skyDir a b) (skyDir c d)) := sin_nonneg_of_nonneg_of_le_pi h2 h3
  unfold hypot
  rw [← sqrt_sq hs]
  congr 1
  have e := sin_sq_add_cos_sq (angleBetween (skyDir a b) (skyDir c d))
  rw [h1] at e
  simp only [skyDir, upDir, onDir, Vec3.dot] at e ⊢
  have i1 := sin_sq_add_cos_sq a
  have i2 := sin_sq_add_cos_sq b
  have i3 := sin_sq_add_cos_sq c
  have i4 := sin_sq_add_cos_sq d
  grind

/-- The formula gives the angle from the direction of growing latitude to the direction of growing longitude. -/
theorem position_angle_core (a b c d : ℝ) (h : |c| < π / 2) :
    SeenUnder (pyMod (arctan2 (sin (d - b)) (cos a * tan c - sin a * cos (d - b))) tau) (skyDir a b) (skyDir c d)
      (upDir a b) (onDir b) := by
  have hc : 0 < cos c := cos_pos_of_mem_Ioo ⟨(abs_lt.1 h).1, (abs_lt.1 h).2⟩
  have e1 : (skyDir c d).dot (onDir b) = cos c * sin (d - b) := by
    simp only [skyDir, onDir, Vec3.dot, sin_sub]; ring
  have e2 : (skyDir c d).dot (upDir a b) = cos c * (cos a * tan c - sin a * cos (d - b)) := by
    simp only [skyDir, upDir, Vec3.dot, cos_sub, tan_eq_sin_div_cos]
    field_simp
    ring
  have hs := sin_sep a b c d
  set y := sin (d - b)
  set x := cos a * tan c - sin a * cos (d - b)
  have hh : hypot (cos c * x) (cos c * y) = cos c * hypot x y := by
    unfold hypot
    rw [show cos c * x * (cos c * x) + cos c * y * (cos c * y) = (cos c) ^ 2 * (x * x + y * y) by ring,
      sqrt_mul (sq_nonneg _), sqrt_sq hc.le]
  rw [e1, e2, hh] at hs
  refine ⟨?_, ?_, pyMod_nonneg' _ tau_pos, pyMod_lt' _ tau_pos⟩
  · rw [cos_pyMod_tau, hs, e2, mul_assoc, hypot_mul_cos_arctan2]
  · rw [sin_pyMod_tau, hs, e1, mul_assoc, hypot_mul_sin_arctan2]

/-- A right ascension and a declination, as `radec()` returns them. -/
def radecPair (ra dec : ℝ) : SkyAngle × SkyAngle := (⟨ra, false, true⟩, ⟨dec, true, false⟩)
/-- An altitude and an azimuth, as `altaz()` returns them; also a latitude and a longitude, as `frame_latlon()` does. -/
def altazPair (alt az : ℝ) : SkyAngle × SkyAngle := (⟨alt, true, false⟩, ⟨az, false, false⟩)

/-- **C71.** Of two positions given by right ascension and declination, the position angle is the angle at the first from
north, towards east, to the second. -/
theorem C71_radec (ra dec ra' dec' : ℝ) (h : |dec'| < π / 2) :
    SeenUnder (positionAngleOf (radecPair ra dec) (radecPair ra' dec')) (skyDir dec ra) (skyDir dec' ra') (upDir dec ra)
      (onDir ra) := by
  have := position_angle_core dec ra dec' ra' h
  simpa [positionAngleOf, latLonOf, radecPair] using this

/-- **C71.** The order of the two angles in a pair does not matter, since the declination is signed. -/
theorem C71_order (p q : SkyAngle × SkyAngle) (h1 : p.1.signed = true) (h2 : p.2.signed = false) :
    positionAngleOf (p.2, p.1) q = positionAngleOf p q ∧ positionAngleOf q (p.2, p.1) = positionAngleOf q p := by
  have : latLonOf (p.2, p.1) = latLonOf p := by simp [latLonOf, h1, h2]
  unfold positionAngleOf
  rw [this]
  exact ⟨rfl, rfl⟩

/-- **C71.** Of two positions given by altitude and azimuth, it is the angle at the first from straight up, towards the
left (where the azimuth decreases), to the second. -/
theorem C71_altaz (alt az alt' az' : ℝ) (h : |alt'| < π / 2) :
    SeenUnder (positionAngleOf (altazPair alt az) (altazPair alt' az')) (skyDir alt az) (skyDir alt' az') (upDir alt az)
      (-onDir az) := by
  obtain ⟨h1, h2, h3, h4⟩ := position_angle_core alt (-az) alt' (-az') h
  have ea : angleBetween (skyDir alt (-az)) (skyDir alt' (-az')) = angleBetween (skyDir alt az) (skyDir alt' az') := by
    rw [C37_arccos _ _ (skyDir_ne _ _) (skyDir_ne _ _), C37_arccos _ _ (skyDir_ne _ _) (skyDir_ne _ _)]
    simp only [skyDir_length]
    congr 2
    simp [skyDir, Vec3.dot]
  rw [ea] at h1 h2
  have e1 : (skyDir alt' (-az')).dot (upDir alt (-az)) = (skyDir alt' az').dot (upDir alt az) := by
    simp [skyDir, upDir, Vec3.dot]
  have e2 : (skyDir alt' (-az')).dot (onDir (-az)) = (skyDir alt' az').dot (-onDir az) := by
    simp [skyDir, onDir, Vec3.dot]
  rw [e1] at h1
  rw [e2] at h2
  have : positionAngleOf (altazPair alt az) (altazPair alt' az') =
      pyMod (arctan2 (sin (-az' - -az)) (cos alt * tan alt' - sin alt * cos (-az' - -az))) tau := by
    simp [positionAngleOf, latLonOf, altazPair]
  rw [this]
  exact ⟨h1, h2, h3, h4⟩

/-- The separation of two directions that are neither the same nor opposite has a positive sine, so that `SeenUnder` pins
the position angle down. -/
theorem C71_unique (pa pa' : ℝ) (p q up side : Vec3) (hp : p ≠ 0) (hq : q ≠ 0) (h1 : SeenUnder pa p q up side)
    (h2 : SeenUnder pa' p q up side) (hne : angleBetween p q ≠ 0 ∧ angleBetween p q ≠ π) : pa = pa' := by
  obtain ⟨-, a, b⟩ := C37_angle p q hp hq
  have hs : 0 < sin (angleBetween p q) :=
    sin_pos_of_pos_of_lt_pi (lt_of_le_of_ne a hne.1.symm) (lt_of_le_of_ne b hne.2)
  obtain ⟨c1, s1, l1, u1⟩ := h1
  obtain ⟨c2, s2, l2, u2⟩ := h2
  have hc : cos pa = cos pa' := mul_left_cancel₀ hs.ne' (c1.symm.trans c2)
  have hsn : sin pa = sin pa' := mul_left_cancel₀ hs.ne' (s1.symm.trans s2)
  have hsub : cos (pa - pa') = 1 := by
    rw [cos_sub, hc, hsn]
    linear_combination sin_sq_add_cos_sq pa'
  have := (cos_eq_one_iff_of_lt_of_lt (by linarith) (by linarith)).1 hsub
  linarith

/-- **C71.** The four cardinal directions: straight north, east (along the equator), south and west. -/
theorem C71_cardinal (ra dec step : ℝ) (h0 : 0 < step) (h1 : step < π) :
    (|dec + step| < π / 2 → positionAngleOf (radecPair ra dec) (radecPair ra (dec + step)) = 0) ∧
    (|dec - step| < π / 2 → positionAngleOf (radecPair ra dec) (radecPair ra (dec - step)) = π) ∧
    positionAngleOf (radecPair ra 0) (radecPair (ra + step) 0) = π / 2 ∧
    positionAngleOf (radecPair ra 0) (radecPair (ra - step) 0) = 3 * π / 2 := by
  have hst : 0 < sin step := sin_pos_of_pos_of_lt_pi h0 h1
  have small : ∀ x, 0 ≤ x → x < 2 * π → pyMod x tau = x := by
    intro x a b
    exact pyMod_unique' x 0 tau_pos a (by unfold tau; exact b) (by simp)
  have hpi := pi_pos
  refine ⟨fun h => ?_, fun h => ?_, ?_, ?_⟩
  · have hc : 0 < cos (dec + step) := cos_pos_of_mem_Ioo ⟨(abs_lt.1 h).1, (abs_lt.1 h).2⟩
    have hx : cos dec * tan (dec + step) - sin dec = sin step / cos (dec + step) := by
      rw [tan_eq_sin_div_cos, eq_div_iff hc.ne', sub_mul, mul_assoc, div_mul_cancel₀ _ hc.ne']
      have := sin_sub (dec + step) dec
      rw [add_sub_cancel_left] at this
      linarith
    have : positionAngleOf (radecPair ra dec) (radecPair ra (dec + step)) =
        pyMod (arctan2 0 (cos dec * tan (dec + step) - sin dec)) tau := by
      simp [positionAngleOf, latLonOf, radecPair]
    have h0 : arctan2 0 (sin step / cos (dec + step)) = 0 := by
      unfold arctan2
      rw [Complex.arg_eq_zero_iff]
      exact ⟨by positivity, rfl⟩
    rw [this, hx, h0]
    exact small 0 le_rfl (by linarith)
  · have hc : 0 < cos (dec - step) := cos_pos_of_mem_Ioo ⟨(abs_lt.1 h).1, (abs_lt.1 h).2⟩
    have hx : cos dec * tan (dec - step) - sin dec = -(sin step / cos (dec - step)) := by
      rw [tan_eq_sin_div_cos, ← neg_div, eq_div_iff hc.ne', sub_mul, mul_assoc, div_mul_cancel₀ _ hc.ne']
      have := sin_sub dec (dec - step)
      rw [sub_sub_cancel] at this
      linarith
    have : positionAngleOf (radecPair ra dec) (radecPair ra (dec - step)) =
        pyMod (arctan2 0 (cos dec * tan (dec - step) - sin dec)) tau := by
      simp [positionAngleOf, latLonOf, radecPair]
    have hd : 0 < sin step / cos (dec - step) := by positivity
    have h0 : arctan2 0 (-(sin step / cos (dec - step))) = π := by
      unfold arctan2
      rw [Complex.arg_eq_pi_iff]
      exact ⟨by simpa using hd, rfl⟩
    rw [this, hx, h0]
    exact small π hpi.le (by linarith)
  · have : positionAngleOf (radecPair ra 0) (radecPair (ra + step) 0) = pyMod (arctan2 (sin step) 0) tau := by
      simp [positionAngleOf, latLonOf, radecPair]
    have h0 : arctan2 (sin step) 0 = π / 2 := by
      unfold arctan2
      rw [Complex.arg_eq_pi_div_two_iff]
      exact ⟨rfl, hst⟩
    rw [this, h0]
    exact small _ (by positivity) (by linarith)
  · have : positionAngleOf (radecPair ra 0) (radecPair (ra - step) 0) = pyMod (arctan2 (-sin step) 0) tau := by
      simp [positionAngleOf, latLonOf, radecPair]
    have h0 : arctan2 (-sin step) 0 = -(π / 2) := by
      unfold arctan2
      rw [Complex.arg_eq_neg_pi_div_two_iff]
      exact ⟨rfl, by simpa using hst⟩
    rw [this, h0]
    exact pyMod_unique' _ (-1) tau_pos (by positivity) (by unfold tau; linarith) (by unfold tau; push_cast; ring)

/-- **C71 (finding).** Of two positions given by a latitude and a longitude in degrees, as `frame_latlon()` returns them,
the position angle runs from north towards *west*: the longitude is taken for an azimuth. -/
theorem C71_latlon_mirrored (lat lon lat' lon' : ℝ) (h : |lat'| < π / 2) :
    SeenUnder (positionAngleOf (altazPair lat lon) (altazPair lat' lon')) (skyDir lat lon) (skyDir lat' lon')
      (upDir lat lon) (-onDir lon) := C71_altaz lat lon lat' lon' h

/-- **C71.** Turning the sky about its pole changes no position angle. -/
theorem C71_turn (ra dec ra' dec' x : ℝ) :
    positionAngleOf (radecPair (ra + x) dec) (radecPair (ra' + x) dec') =
      positionAngleOf (radecPair ra dec) (radecPair ra' dec') := by
  simp [positionAngleOf, latLonOf, radecPair]

/-- Two positions a tenth of a radian apart, neither near a pole. -/
example : |(0.1 : ℝ)| < π / 2 ∧ (0 : ℝ) < 0.1 ∧ (0.1 : ℝ) < π := by
  have := pi_gt_three
  refine ⟨?_, by norm_num, by norm_num; linarith⟩
  rw [abs_of_pos (by norm_num)]
  norm_num
  linarith

end Skyfield
