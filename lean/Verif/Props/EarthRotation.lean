import Verif.Model.EarthRotation
import Verif.Props.Frames
import Mathlib.Analysis.Real.Pi.Bounds
import Mathlib.Analysis.SpecialFunctions.Trigonometric.Bounds
import Mathlib.Analysis.SpecialFunctions.Trigonometric.Angle

/-
C49: Earth rotation and hour angle; C60: the TEME frame; C61: refraction.
-/
namespace Skyfield
open Real

/-! ### C49 -/

/-- **C49.** The Earth rotation angle is in [0, 1) turn and differs by whole turns from the IAU 2000 expression, linear in the
UT1 date; so it does not matter how the date is split in two. -/
theorem C49_rotation_angle (jd frac : ℝ) :
    0 ≤ earthRotationAngle jd frac ∧ earthRotationAngle jd frac < 1 ∧
      ∃ n : ℤ, earthRotationAngle jd frac = 0.7790572732640 + 1.00273781191135448 * (jd + frac - 2451545) - n := by
  unfold earthRotationAngle
  simp only
  refine ⟨pyMod_nonneg' _ one_pos, pyMod_lt' _ one_pos, ?_⟩
  obtain ⟨a, ha⟩ := pyMod_eq_sub' (0.7790572732640 + 0.00273781191135448 * (jd - t0 + frac)) (1:ℝ)
  obtain ⟨b, hb⟩ := pyMod_eq_sub' jd (1:ℝ)
  obtain ⟨c, hc⟩ := pyMod_eq_sub' (pyMod (0.7790572732640 + 0.00273781191135448 * (jd - t0 + frac)) 1 + pyMod jd 1 + frac) (1:ℝ)
  refine ⟨a + b + c - 2451545, ?_⟩
  rw [hc, ha, hb]
  unfold t0
  push_cast
  ring

/-- **C49.** Only the sum of the two parts of the date matters. -/
theorem C49_rotation_angle_split (jd frac jd' frac' : ℝ) (h : jd + frac = jd' + frac') :
    earthRotationAngle jd frac = earthRotationAngle jd' frac' := by
  obtain ⟨a0, a1, n, hn⟩ := C49_rotation_angle jd frac
  obtain ⟨b0, b1, m, hm⟩ := C49_rotation_angle jd' frac'
  rw [h] at hn
  have h1 : (n : ℝ) < m + 1 := by linarith
  have h2 : (m : ℝ) < n + 1 := by linarith
  have h1' : n < m + 1 := by exact_mod_cast h1
  have h2' : m < n + 1 := by exact_mod_cast h2
  have : n = m := by omega
  rw [hn, hm, this]

/-- **C49.** Mean sidereal time is in [0, 24) hours and differs by whole days from 24 h times the Earth rotation angle plus the
precession polynomial (arcseconds to hours). -/
theorem C49_sidereal_time (whole ut1 tdb : ℝ) :
    0 ≤ siderealTime whole ut1 tdb ∧ siderealTime whole ut1 tdb < 24 ∧
      ∃ n : ℤ, siderealTime whole ut1 tdb =
        24 * (0.7790572732640 + 1.00273781191135448 * (whole + ut1 - 2451545)) +
        (let t := (whole - 2451545 + tdb) / 36525
         0.014506 + 4612.156534 * t + 1.3915817 * t ^ 2 - 0.00000044 * t ^ 3 - 0.000029956 * t ^ 4 - 0.0000000368 * t ^ 5)
          / (15 * 3600) - 24 * n := by
  unfold siderealTime
  simp only
  refine ⟨pyMod_nonneg' _ (by norm_num), pyMod_lt' _ (by norm_num), ?_⟩
  obtain ⟨_, _, n, hn⟩ := C49_rotation_angle whole ut1
  obtain ⟨c, hc⟩ := pyMod_eq_sub' ((0.014506 + ((((-0.0000000368 * ((whole - t0 + tdb) / 36525) - 0.000029956) *
    ((whole - t0 + tdb) / 36525) - 0.00000044) * ((whole - t0 + tdb) / 36525) + 1.3915817) * ((whole - t0 + tdb) / 36525) +
    4612.156534) * ((whole - t0 + tdb) / 36525)) / 54000 + earthRotationAngle whole ut1 * 24) (24:ℝ)
  refine ⟨n + c, ?_⟩
  rw [hc, hn]
  unfold t0
  push_cast
  ring

/-- **C49.** Apparent and local sidereal time are in [0, 24) hours; apparent differs from mean by the equation of the equinoxes,
local from Greenwich by the longitude (and a correction below a microsecond of time per century), up to whole days. -/
theorem C49_apparent_and_local (gmst eqEq gast lonHours whole tdb : ℝ) :
    (0 ≤ gastHours gmst eqEq ∧ gastHours gmst eqEq < 24 ∧
      ∃ n : ℤ, gastHours gmst eqEq = gmst + 24 * (eqEq / (2 * π)) - 24 * n) ∧
    (0 ≤ lstHoursAt gast lonHours whole tdb ∧ lstHoursAt gast lonHours whole tdb < 24 ∧
      ∃ n : ℤ, lstHoursAt gast lonHours whole tdb =
        gast + lonHours - 47e-6 / 3600 / 15 * ((whole + tdb - 2451545) / 36525) - 24 * n) := by
  unfold gastHours lstHoursAt
  simp only
  refine ⟨⟨pyMod_nonneg' _ (by norm_num), pyMod_lt' _ (by norm_num), ?_⟩,
    pyMod_nonneg' _ (by norm_num), pyMod_lt' _ (by norm_num), ?_⟩
  · obtain ⟨n, hn⟩ := pyMod_eq_sub' (gmst + eqEq / tau * 24) (24:ℝ)
    exact ⟨n, by rw [hn]; unfold tau; ring⟩
  · obtain ⟨n, hn⟩ := pyMod_eq_sub' (gast + lonHours + -47.0e-6 * (whole - t0 + tdb) / 36525 / 54000) (24:ℝ)
    refine ⟨n, ?_⟩
    rw [hn]; unfold t0; ring

/-- **C49.** The hour angle is within half a turn of zero and is the observer's longitude less the longitude of the place
beneath the target, up to whole turns. -/
theorem C49_hour_angle (t : SkyTime) (lon : ℝ) (v : Vec3) :
    -π ≤ (hadec t lon v).1 ∧ (hadec t lon v).1 < π ∧
      ∃ n : ℤ, (hadec t lon v).1 = lon - (frameLatlon itrsFrame t v).2.2 - 2 * π * n := by
  have h0 := pyMod_nonneg' (lon - (toSpherical ((itrsRotation t).mulVec v)).2.2 + π) tau_pos
  have h1 := pyMod_lt' (lon - (toSpherical ((itrsRotation t).mulVec v)).2.2 + π) tau_pos
  obtain ⟨n, hn⟩ := pyMod_eq_sub' (lon - (toSpherical ((itrsRotation t).mulVec v)).2.2 + π) tau
  have e : (hadec t lon v).1 = pyMod (lon - (toSpherical ((itrsRotation t).mulVec v)).2.2 + π) tau - π := rfl
  have ht : tau = 2 * π := rfl
  rw [e]
  refine ⟨by linarith, by linarith, n, ?_⟩
  rw [hn, ht]
  simp only [frameLatlon, itrsFrame]
  ring

theorem toSpherical_lon_cos_sin (v : Vec3) (h : v.x ≠ 0 ∨ v.y ≠ 0) :
    cos (toSpherical v).2.2 * hypot v.x v.y = v.x ∧ sin (toSpherical v).2.2 * hypot v.x v.y = v.y := by
  simp only [toSpherical]
  rw [cos_pyMod_tau, sin_pyMod_tau]
  have hz : (⟨v.x, v.y⟩ : ℂ) ≠ 0 := by
    intro he
    have h1 := congrArg Complex.re he
    have h2 := congrArg Complex.im he
    simp at h1 h2
    rcases h with h | h
    · exact h h1
    · exact h h2
  have hn : ‖(⟨v.x, v.y⟩ : ℂ)‖ = hypot v.x v.y := by
    rw [Complex.norm_def, Complex.normSq_mk]; rfl
  have hp : 0 < ‖(⟨v.x, v.y⟩ : ℂ)‖ := norm_pos_iff.2 hz
  unfold arctan2
  rw [Complex.cos_arg hz, Complex.sin_arg, ← hn]
  constructor <;> field_simp

/-- **C49.** Without polar motion the hour angle is sidereal time minus right ascension: with `ra`, `dec` read on the true equator
and equinox of date, the hour angle is the longitude plus Greenwich apparent sidereal time less `ra`, up to whole turns, and
the declinations agree. -/
theorem C49_sidereal_minus_ra (t : SkyTime) (lon : ℝ) (v : Vec3) (hp : t.polar = none)
    (hoff : (t.M.mulVec v).x ≠ 0 ∨ (t.M.mulVec v).y ≠ 0) :
    (∃ n : ℤ, (hadec t lon v).1 = lon + t.gast * (2 * π) / 24 - (frameLatlon trueEquatorFrame t v).2.2 - 2 * π * n) ∧
      (hadec t lon v).2.1 = (frameLatlon trueEquatorFrame t v).2.1 := by
  obtain ⟨_, _, n, hn⟩ := C49_hour_angle t lon v
  set w := t.M.mulVec v with hw
  have hrot : (itrsRotation t).mulVec v = (rotZ (-t.gast * tau / 24)).mulVec w := by
    unfold itrsRotation
    rw [hp]
    simp only
    rw [Mat3.mul_mulVec]
  set θ := t.gast * (2 * π) / 24 with hθ
  have hθ' : -t.gast * tau / 24 = -θ := by rw [hθ]; unfold tau; ring
  set u := (rotZ (-θ)).mulVec w with hu
  have hux : u.x = cos θ * w.x + sin θ * w.y := by rw [hu]; simp [rotZ, Mat3.mulVec, Vec3.dot]
  have huy : u.y = -sin θ * w.x + cos θ * w.y := by rw [hu]; simp [rotZ, Mat3.mulVec, Vec3.dot]
  have huz : u.z = w.z := by rw [hu]; simp [rotZ, Mat3.mulVec, Vec3.dot]
  have hsc := sin_sq_add_cos_sq θ
  have hh : hypot u.x u.y = hypot w.x w.y := by
    unfold hypot
    congr 1
    rw [hux, huy]
    linear_combination (w.x ^ 2 + w.y ^ 2) * hsc
  have hwpos : 0 < hypot w.x w.y := hypot_pos_of hoff
  have huoff : u.x ≠ 0 ∨ u.y ≠ 0 := by
    by_contra hc
    push Not at hc
    rw [hc.1, hc.2] at hh
    rw [← hh] at hwpos
    simp [hypot] at hwpos
  obtain ⟨cu, su⟩ := toSpherical_lon_cos_sin u huoff
  obtain ⟨cw, sw⟩ := toSpherical_lon_cos_sin w hoff
  rw [hh] at cu su
  have hl : (frameLatlon itrsFrame t v).2.2 = (toSpherical u).2.2 := by
    simp only [frameLatlon, itrsFrame]; rw [hrot, hθ']
  have hr : (frameLatlon trueEquatorFrame t v).2.2 = (toSpherical w).2.2 := by
    simp only [frameLatlon, trueEquatorFrame, trueEquatorRotation]; rw [hw]
  constructor
  · have hc : cos (toSpherical u).2.2 = cos ((toSpherical w).2.2 - θ) := by
      have : cos (toSpherical u).2.2 * hypot w.x w.y = cos ((toSpherical w).2.2 - θ) * hypot w.x w.y := by
        rw [cu, cos_sub, hux]; linear_combination (-cos θ) * cw - sin θ * sw
      exact mul_right_cancel₀ hwpos.ne' this
    have hs : sin (toSpherical u).2.2 = sin ((toSpherical w).2.2 - θ) := by
      have : sin (toSpherical u).2.2 * hypot w.x w.y = sin ((toSpherical w).2.2 - θ) * hypot w.x w.y := by
        rw [su, sin_sub, huy]; linear_combination (sin θ) * cw - cos θ * sw
      exact mul_right_cancel₀ hwpos.ne' this
    obtain ⟨k, hk⟩ := Real.Angle.angle_eq_iff_two_pi_dvd_sub.1 (Real.Angle.cos_sin_inj hc hs)
    refine ⟨n + k, ?_⟩
    rw [hn, hl, hr]
    push_cast
    linear_combination -hk
  · have e1 : (hadec t lon v).2.1 = (toSpherical u).2.1 := by
      unfold hadec; simp only; rw [hrot, hθ']
    have e2 : (frameLatlon trueEquatorFrame t v).2.1 = (toSpherical w).2.1 := by
      simp only [frameLatlon, trueEquatorFrame, trueEquatorRotation]; rw [hw]
    rw [e1, e2]
    simp only [toSpherical]
    rw [hh, huz]

/-- At every time without polar motion some direction is off the pole. -/
example (t : SkyTime) (_ : t.polar = none) : ∃ v : Vec3, (t.M.mulVec v).x ≠ 0 ∨ (t.M.mulVec v).y ≠ 0 := by
  refine ⟨t.M.transpose.mulVec ⟨1, 0, 0⟩, Or.inl ?_⟩
  have h := (isometryUpTo_M t).undo' ⟨1, 0, 0⟩
  intro h0
  have hx : ((t.M.mulVec (t.M.transpose.mulVec ⟨1, 0, 0⟩) - (⟨1, 0, 0⟩ : Vec3)).x) = -1 := by
    simp only [Vec3.sub_x, h0]; norm_num
  have h1 : 1 ≤ (t.M.mulVec (t.M.transpose.mulVec ⟨1, 0, 0⟩) - (⟨1, 0, 0⟩ : Vec3)).length := by
    unfold Vec3.length
    rw [Real.one_le_sqrt, hx]
    nlinarith [mul_self_nonneg (t.M.mulVec (t.M.transpose.mulVec ⟨1, 0, 0⟩) - (⟨1, 0, 0⟩ : Vec3)).y,
      mul_self_nonneg (t.M.mulVec (t.M.transpose.mulVec ⟨1, 0, 0⟩) - (⟨1, 0, 0⟩ : Vec3)).z]
  have h2 : (⟨1, 0, 0⟩ : Vec3).length = 1 := by simp [Vec3.length]
  rw [h2] at h
  norm_num at h
  linarith

/-! ### C60: the TEME frame of the satellite propagator -/

/-- Specification: Greenwich mean sidereal time by the 1982 definition, in turns since J2000, as a function of the UT1 date (not
reduced to one turn). -/
noncomputable def gmst1982Turns (date : ℝ) : ℝ :=
  let T := (date - 2451545) / 36525
  date + (67310.54841 + 8640184.812866 * T + 0.093104 * T ^ 2 - 6.2e-6 * T ^ 3) / 86400

/-- **C60.** The sidereal angle is in [0, 2π) and is the 1982 expression up to whole turns, however the date is split. -/
theorem C60_angle (jd frac : ℝ) :
    0 ≤ (thetaGMST1982 jd frac).1 ∧ (thetaGMST1982 jd frac).1 < 2 * π ∧
      ∃ n : ℤ, (thetaGMST1982 jd frac).1 = 2 * π * gmst1982Turns (jd + frac) - 2 * π * n := by
  unfold thetaGMST1982 gmst1982Turns
  simp only
  have ht : tau = 2 * π := rfl
  have hp := tau_pos
  obtain ⟨a, ha⟩ := pyMod_eq_sub' jd (1:ℝ)
  have hd : dayS' = 86400 := rfl
  generalize hg : (67310.54841 + (8640184.812866 + (0.093104 + -6.2e-6 * ((jd - t0 + frac) / 36525)) * ((jd - t0 + frac) / 36525))
    * ((jd - t0 + frac) / 36525) : ℝ) = g
  obtain ⟨b, hb⟩ := pyMod_eq_sub' (g / dayS') (1:ℝ)
  obtain ⟨c, hc⟩ := pyMod_eq_sub' (pyMod jd 1 + frac + pyMod (g / dayS') 1) (1:ℝ)
  have h0 := pyMod_nonneg' (pyMod jd 1 + frac + pyMod (g / dayS') 1) (one_pos (α := ℝ))
  have h1 := pyMod_lt' (pyMod jd 1 + frac + pyMod (g / dayS') 1) (one_pos (α := ℝ))
  refine ⟨mul_nonneg h0 hp.le, by rw [← ht]; nlinarith, a + b + c, ?_⟩
  rw [hc, ha, hb, ← hg, hd, ht]
  unfold t0
  push_cast
  ring

/-- **C60.** The rate returned is the derivative of the angle. -/
theorem C60_rate (jd frac : ℝ) :
    HasDerivAt (fun s => 2 * π * gmst1982Turns (jd + s)) (thetaGMST1982 jd frac).2 frac := by
  unfold gmst1982Turns thetaGMST1982
  simp only
  have h1 : HasDerivAt (fun s : ℝ => jd + s) 1 frac := by simpa using (hasDerivAt_id frac).const_add jd
  have h2 : HasDerivAt (fun s : ℝ => (jd + s - 2451545) / 36525) (1 / 36525) frac := (h1.sub_const _).div_const _
  have h3 := ((((h2.const_mul (8640184.812866 : ℝ)).const_add 67310.54841).add ((h2.pow 2).const_mul (0.093104 : ℝ))).sub
    ((h2.pow 3).const_mul (6.2e-6 : ℝ))).div_const 86400
  refine HasDerivAt.congr_deriv ((h1.add h3).const_mul (2 * π)) ?_
  have hd : dayS' = 86400 := rfl
  rw [hd]
  unfold t0 tau
  push_cast
  ring

/-- **C60.** The Earth-fixed velocity returned is the derivative of the Earth-fixed position returned. -/
theorem C60_velocity (jd xp yp : ℝ) (p : ℝ → Vec3) (v : Vec3) (frac : ℝ) (h : MovesWith p frac v) :
    MovesWith (fun s => (temeToItrf jd (p s) v xp yp s).1) frac (temeToItrf jd (p frac) v xp yp frac).2 := by
  have e : ∀ s, rotZ (-(thetaGMST1982 jd s).1) = rotZ (-(2 * π * gmst1982Turns (jd + s))) := by
    intro s
    obtain ⟨_, _, n, hn⟩ := C60_angle jd s
    rw [hn]
    have hc : cos (-(2 * π * gmst1982Turns (jd + s) - 2 * π * n)) = cos (-(2 * π * gmst1982Turns (jd + s))) := by
      rw [show -(2 * π * gmst1982Turns (jd + s) - 2 * π * n) = -(2 * π * gmst1982Turns (jd + s)) + n * (2 * π) by ring]
      exact cos_add_int_mul_two_pi _ _
    have hs : sin (-(2 * π * gmst1982Turns (jd + s) - 2 * π * n)) = sin (-(2 * π * gmst1982Turns (jd + s))) := by
      rw [show -(2 * π * gmst1982Turns (jd + s) - 2 * π * n) = -(2 * π * gmst1982Turns (jd + s)) + n * (2 * π) by ring]
      exact sin_add_int_mul_two_pi _ _
    unfold rotZ
    rw [hc, hs]
  have h1 := h.rotZ (C60_rate jd frac).fun_neg
  simp only [← e] at h1
  have hω : (⟨0 * (thetaGMST1982 jd frac).2, 0 * (thetaGMST1982 jd frac).2, -1 * (thetaGMST1982 jd frac).2⟩ : Vec3) =
      ⟨0, 0, -(thetaGMST1982 jd frac).2⟩ := by ext <;> simp
  by_cases hw : xp = 0 ∧ yp = 0
  · simp only [temeToItrf, if_pos hw, hω]
    exact h1
  · simp only [temeToItrf, if_neg hw, hω]
    exact h1.mulVec _

/-- **C60.** Lengths are unchanged: the distance from the Earth's centre is the same in both frames. -/
theorem C60_length (jd xp yp frac : ℝ) (r v : Vec3) : (temeToItrf jd r v xp yp frac).1.length = r.length := by
  by_cases hw : xp = 0 ∧ yp = 0
  · simp only [temeToItrf, if_pos hw]
    exact (C35_rot_z _).length _
  · simp only [temeToItrf, if_neg hw]
    rw [((C35_rot_x _).mul (C35_rot_y _)).length]
    exact (C35_rot_z _).length _

/-- **C60.** The shortcut taken without polar motion gives what the full rotation would. -/
theorem C60_no_polar_motion (jd frac : ℝ) (r v : Vec3) :
    (temeToItrf jd r v 0 0 frac).1 = ((rotX 0).mul (rotY 0)).mulVec (temeToItrf jd r v 0 0 frac).1 := by
  have : (rotX 0).mul (rotY 0) = Mat3.one := by
    ext <;> simp [rotX, rotY, Mat3.mul, Mat3.one, Mat3.transpose, Vec3.dot]
  rw [this, Mat3.one_mulVec]

/-- A satellite in uniform motion. -/
example : MovesWith (fun s => (⟨7000 + 3 * s, s, -2 * s⟩ : Vec3)) 0.25 ⟨3, 1, -2⟩ := by
  refine ⟨?_, ?_, ?_⟩
  · simpa using ((hasDerivAt_id (0.25 : ℝ)).const_mul 3).const_add 7000
  · exact hasDerivAt_id _
  · simpa using ((hasDerivAt_id (0.25 : ℝ)).const_mul (-2))

/-! ### C61: refraction -/

/-- **C61.** No refraction is applied below -1° or above 89.9°, and the altitude is returned unchanged at once. -/
theorem C61_outside (alt temperature pressure : ℝ) (fuel : ℕ) (h : alt < -1 ∨ 89.9 < alt) :
    refraction alt temperature pressure = 0 ∧ refract alt temperature pressure (fuel + 1) = some alt := by
  have h0 : refraction alt temperature pressure = 0 := by
    unfold refraction
    simp only
    rw [if_neg]
    rintro ⟨h1, h2⟩
    rcases h with h | h <;> linarith
  refine ⟨h0, ?_⟩
  unfold refract refractLoop
  simp only [h0]
  rw [if_neg (by norm_num)]
  simp

theorem cot_lip {u v : ℝ} (hu : 0 < u) (hu' : u ≤ π / 2) (hv : 0 < v) (hv' : v ≤ π / 2) :
    |cos u / sin u - cos v / sin v| ≤ |u - v| * (π / 2) ^ 2 / (u * v) := by
  have hpi := pi_pos
  have su := mul_le_sin hu.le hu'
  have sv := mul_le_sin hv.le hv'
  have su0 : 0 < 2 / π * u := by positivity
  have sv0 : 0 < 2 / π * v := by positivity
  have psu : 0 < sin u := lt_of_lt_of_le su0 su
  have psv : 0 < sin v := lt_of_lt_of_le sv0 sv
  have e : cos u / sin u - cos v / sin v = sin (v - u) / (sin u * sin v) := by
    rw [sin_sub]; field_simp
  rw [e, abs_div, abs_of_pos (mul_pos psu psv)]
  have h1 : |sin (v - u)| ≤ |u - v| := by rw [abs_sub_comm u v]; exact abs_sin_le_abs
  have h2 : (2 / π * u) * (2 / π * v) ≤ sin u * sin v := mul_le_mul su sv sv0.le psu.le
  calc |sin (v - u)| / (sin u * sin v) ≤ |u - v| / ((2 / π * u) * (2 / π * v)) :=
        div_le_div₀ (abs_nonneg _) h1 (mul_pos su0 sv0) h2
    _ = |u - v| * (π / 2) ^ 2 / (u * v) := by field_simp

/-- The angle whose cotangent is taken, in degrees. -/
noncomputable def refrArg (a : ℝ) : ℝ := a + 7.31 / (a + 4.4)

theorem refrArg_sub {a b : ℝ} (ha : -1 ≤ a) (hb : -1 ≤ b) :
    refrArg a - refrArg b = (a - b) * (1 - 7.31 / ((a + 4.4) * (b + 4.4))) := by
  unfold refrArg
  have h1 : a + 4.4 ≠ 0 := by norm_num at *; linarith
  have h2 : b + 4.4 ≠ 0 := by norm_num at *; linarith
  field_simp
  ring

theorem refrArg_mono {a b : ℝ} (ha : -1 ≤ a) (hab : a ≤ b) : refrArg a ≤ refrArg b := by
  have h := refrArg_sub ha (ha.trans hab)
  have h1 : (3.4:ℝ) ≤ a + 4.4 := by norm_num at *; linarith
  have h2 : (3.4:ℝ) ≤ b + 4.4 := by norm_num at *; linarith
  have h3 : (7.31:ℝ) / ((a + 4.4) * (b + 4.4)) ≤ 1 := by
    rw [div_le_one (by positivity)]
    norm_num at *
    nlinarith
  nlinarith [mul_nonneg (sub_nonneg.2 hab) (sub_nonneg.2 h3)]

theorem refrArg_low {a : ℝ} (ha : -1 ≤ a) : 1.149 ≤ refrArg a := by
  have h := refrArg_mono (le_refl (-1 : ℝ)) ha
  refine le_trans ?_ h
  unfold refrArg
  norm_num

theorem refrArg_high {a : ℝ} (ha : -1 ≤ a) (hb : a ≤ 89.9) : refrArg a ≤ 89.978 := by
  refine (refrArg_mono ha hb).trans ?_
  unfold refrArg
  norm_num

theorem refrArg_quadrant {a : ℝ} (ha : -1 ≤ a) (hb : a ≤ 89.9) :
    0 < refrArg a * deg2rad ∧ refrArg a * deg2rad ≤ π / 2 := by
  have h1 := refrArg_low ha
  have h2 := refrArg_high ha hb
  have h3 := pi_gt_d6
  unfold deg2rad
  constructor
  · norm_num at *; linarith
  · norm_num at *; linarith

theorem refr_poly {A B : ℝ} (hA : 3.4 ≤ A) (_hB : 3.4 ≤ B) :
    A * B - 7.31 ≤ 0.3 * ((A ^ 2 - 4.4 * A + 7.31) * (B ^ 2 - 4.4 * B + 7.31)) := by
  set h := A ^ 2 - 4.4 * A + 7.31 with hh
  obtain ⟨s, hs, rfl⟩ : ∃ s : ℝ, 0 ≤ s ∧ A = 3.4 + s := ⟨A - 3.4, by linarith, by ring⟩
  have hp : 0 < h := by rw [hh]; norm_num; nlinarith
  have hD : (1.32 * h + (3.4 + s)) ^ 2 ≤ 4 * (0.3 * h) * (2.193 * h + 7.31) := by
    rw [hh]
    norm_num
    nlinarith [sq_nonneg (s - 1 / 5), pow_nonneg hs 3, pow_nonneg hs 4, pow_nonneg hs 2]
  have hα : 0 < 0.3 * h := by positivity
  have hq : 0 ≤ 4 * (0.3 * h) * (0.3 * h * B ^ 2 - (1.32 * h + (3.4 + s)) * B + (2.193 * h + 7.31)) := by
    nlinarith [sq_nonneg (2 * (0.3 * h) * B - (1.32 * h + (3.4 + s)))]
  have := nonneg_of_mul_nonneg_right hq (by positivity)
  nlinarith

/-- Refraction inside the range, as a cotangent. -/
theorem refraction_inside {a T P : ℝ} (ha : -1 ≤ a) (hb : a ≤ 89.9) :
    refraction a T P = 0.016667 * (cos (refrArg a * deg2rad) / sin (refrArg a * deg2rad)) * (0.28 * P / (T + 273)) := by
  unfold refraction
  simp only
  rw [if_pos ⟨ha, hb⟩, tan_eq_sin_div_cos]
  unfold refrArg
  rw [div_div_eq_mul_div]
  ring

theorem refraction_lip {a b T P : ℝ} (h0 : 0 ≤ 0.28 * P / (T + 273)) (h1 : 0.28 * P / (T + 273) ≤ 1.4)
    (ha : -1 ≤ a) (ha' : a ≤ 89.9) (hb : -1 ≤ b) (hb' : b ≤ 89.9) :
    |refraction a T P - refraction b T P| ≤ 0.99 * |a - b| := by
  rw [refraction_inside ha ha', refraction_inside hb hb']
  set p := 0.28 * P / (T + 273)
  obtain ⟨qa, qa'⟩ := refrArg_quadrant ha ha'
  obtain ⟨qb, qb'⟩ := refrArg_quadrant hb hb'
  have hl := cot_lip qa qa' qb qb'
  have ga := refrArg_low ha
  have gb := refrArg_low hb
  have hk : 0 < deg2rad := by unfold deg2rad; norm_num
  have A0 : (3.4:ℝ) ≤ a + 4.4 := by norm_num at *; linarith
  have B0 : (3.4:ℝ) ≤ b + 4.4 := by norm_num at *; linarith
  have ga0 : 0 < refrArg a := by norm_num at *; linarith
  have gb0 : 0 < refrArg b := by norm_num at *; linarith
  have hq : 1 - 7.31 / ((a + 4.4) * (b + 4.4)) ≤ 0.3 * (refrArg a * refrArg b) := by
    have hp := refr_poly A0 B0
    have hAB : 0 < (a + 4.4) * (b + 4.4) := by positivity
    have e : refrArg a * refrArg b = (((a + 4.4) ^ 2 - 4.4 * (a + 4.4) + 7.31) * ((b + 4.4) ^ 2 - 4.4 * (b + 4.4) + 7.31)) /
        ((a + 4.4) * (b + 4.4)) := by
      unfold refrArg
      have : a + 4.4 ≠ 0 := by positivity
      have : b + 4.4 ≠ 0 := by positivity
      field_simp
      ring
    rw [e, ← mul_div_assoc, le_div_iff₀ hAB, sub_mul, div_mul_cancel₀ _ hAB.ne']
    linarith
  have hq0 : 0 ≤ 1 - 7.31 / ((a + 4.4) * (b + 4.4)) := by
    rw [sub_nonneg, div_le_one (by positivity)]
    norm_num at *
    nlinarith
  have hd : |refrArg a * deg2rad - refrArg b * deg2rad| ≤ |a - b| * (0.3 * (refrArg a * refrArg b)) * deg2rad := by
    rw [← sub_mul, refrArg_sub ha hb, abs_mul, abs_mul, abs_of_nonneg hq0, abs_of_pos hk]
    gcongr
  have hfin : |cos (refrArg a * deg2rad) / sin (refrArg a * deg2rad) - cos (refrArg b * deg2rad) / sin (refrArg b * deg2rad)| ≤
      |a - b| * (0.3 * (π / 2) ^ 2 / deg2rad) := by
    refine hl.trans ?_
    calc _ ≤ (|a - b| * (0.3 * (refrArg a * refrArg b)) * deg2rad) * (π / 2) ^ 2 / (refrArg a * deg2rad * (refrArg b * deg2rad)) := by
          gcongr
      _ = _ := by field_simp
  have hc : 0.016667 * (0.3 * (π / 2) ^ 2 / deg2rad) * 1.4 ≤ 0.99 := by
    have h3 := pi_lt_d6
    have h4 := pi_pos
    have : π ^ 2 ≤ 9.8697 := by nlinarith
    unfold deg2rad
    norm_num
    linarith
  have e : 0.016667 * (cos (refrArg a * deg2rad) / sin (refrArg a * deg2rad)) * p -
      0.016667 * (cos (refrArg b * deg2rad) / sin (refrArg b * deg2rad)) * p =
      0.016667 * p * (cos (refrArg a * deg2rad) / sin (refrArg a * deg2rad) - cos (refrArg b * deg2rad) / sin (refrArg b * deg2rad)) := by
    ring
  rw [e, abs_mul, abs_of_nonneg (by positivity)]
  calc 0.016667 * p * _ ≤ 0.016667 * 1.4 * (|a - b| * (0.3 * (π / 2) ^ 2 / deg2rad)) := by gcongr
    _ = |a - b| * (0.016667 * (0.3 * (π / 2) ^ 2 / deg2rad) * 1.4) := by ring
    _ ≤ |a - b| * 0.99 := by gcongr
    _ = _ := by ring

theorem refraction_nonneg {a T P : ℝ} (h0 : 0 ≤ 0.28 * P / (T + 273)) : 0 ≤ refraction a T P := by
  by_cases h : -1 ≤ a ∧ a ≤ 89.9
  · rw [refraction_inside h.1 h.2]
    obtain ⟨q, q'⟩ := refrArg_quadrant h.1 h.2
    have c : 0 ≤ cos (refrArg a * deg2rad) := cos_nonneg_of_mem_Icc ⟨by linarith [pi_pos], q'⟩
    have s : 0 ≤ sin (refrArg a * deg2rad) := sin_nonneg_of_nonneg_of_le_pi q.le (by linarith [pi_pos])
    positivity
  · unfold refraction
    simp only
    rw [if_neg h]

theorem refraction_le {a T P : ℝ} (h0 : 0 ≤ 0.28 * P / (T + 273)) (h1 : 0.28 * P / (T + 273) ≤ 1.4)
    (ha : -1 ≤ a) (ha' : a ≤ 89.9) : refraction a T P ≤ 1.17 := by
  rw [refraction_inside ha ha']
  obtain ⟨q, q'⟩ := refrArg_quadrant ha ha'
  have ga := refrArg_low ha
  set u := refrArg a * deg2rad with hu
  have hu1 : 0.02005 ≤ u := by
    rw [hu]; unfold deg2rad; norm_num at *; linarith
  have hlt : u < π / 2 := by
    have h2 := refrArg_high ha ha'
    have h3 := pi_gt_d6
    rw [hu]; unfold deg2rad; norm_num at *; linarith
  have ht : u ≤ tan u := le_tan q.le hlt
  have s : 0 < sin u := sin_pos_of_pos_of_lt_pi q (by linarith [pi_pos])
  have c : 0 < cos u := cos_pos_of_mem_Ioo ⟨by linarith [pi_pos], hlt⟩
  have hc : cos u / sin u ≤ 49.88 := by
    rw [tan_eq_sin_div_cos, le_div_iff₀ c] at ht
    rw [div_le_iff₀ s]
    have : 0.02005 * cos u ≤ sin u := le_trans (by gcongr) ht
    norm_num at *
    linarith
  calc 0.016667 * (cos u / sin u) * (0.28 * P / (T + 273)) ≤ 0.016667 * 49.88 * 1.4 := by gcongr
    _ ≤ 1.17 := by norm_num

/-- Near the zenith refraction is small: at most 0.025 times the distance, in radians, from the vertical. -/
theorem refraction_le_high {a T P : ℝ} (h0 : 0 ≤ 0.28 * P / (T + 273)) (h1 : 0.28 * P / (T + 273) ≤ 1.4)
    (ha : 88 ≤ a) (ha' : a ≤ 89.9) : refraction a T P ≤ 0.0245 * (π / 2 - refrArg a * deg2rad) := by
  have hm : (-1:ℝ) ≤ a := by linarith
  rw [refraction_inside hm ha']
  obtain ⟨q, q'⟩ := refrArg_quadrant hm ha'
  have ga : 88 ≤ refrArg a := by
    refine ha.trans ?_
    unfold refrArg
    have : 0 ≤ 7.31 / (a + 4.4) := by positivity
    linarith
  set u := refrArg a * deg2rad with hu
  have hu1 : 1.5358 ≤ u := by
    rw [hu]; unfold deg2rad; norm_num at *; linarith
  have hs := mul_le_sin q.le q'
  have hs' : 0.977 ≤ sin u := by
    refine le_trans ?_ hs
    rw [div_mul_eq_mul_div, le_div_iff₀ pi_pos]
    have := pi_lt_d6
    norm_num at *
    linarith
  have hc : cos u ≤ π / 2 - u := by
    rw [← sin_pi_div_two_sub]
    exact sin_le (by linarith)
  have hc0 : 0 ≤ π / 2 - u := by linarith
  calc 0.016667 * (cos u / sin u) * (0.28 * P / (T + 273)) ≤ 0.016667 * ((π / 2 - u) / 0.977) * 1.4 := by
        have c : 0 ≤ cos u := cos_nonneg_of_mem_Icc ⟨by linarith [pi_pos], q'⟩
        gcongr
    _ = (0.016667 / 0.977 * 1.4) * (π / 2 - u) := by ring
    _ ≤ 0.0245 * (π / 2 - u) := by
        gcongr
        norm_num

theorem refraction_le_88 {a T P : ℝ} (h0 : 0 ≤ 0.28 * P / (T + 273)) (h1 : 0.28 * P / (T + 273) ≤ 1.4)
    (ha : 88 ≤ a) (ha' : a ≤ 89.9) : refraction a T P ≤ 1e-3 := by
  refine (refraction_le_high h0 h1 ha ha').trans ?_
  have ga : refrArg 88 ≤ refrArg a := refrArg_mono (by norm_num) ha
  have : 88 ≤ refrArg 88 := by unfold refrArg; norm_num
  have h3 := pi_lt_d6
  unfold deg2rad
  norm_num at *
  linarith

theorem refraction_le_8989 {a T P : ℝ} (h0 : 0 ≤ 0.28 * P / (T + 273)) (h1 : 0.28 * P / (T + 273) ≤ 1.4)
    (ha : 89.89 ≤ a) (ha' : a ≤ 89.9) : refraction a T P ≤ 3e-5 := by
  have h88 : (88:ℝ) ≤ a := by norm_num at *; linarith
  refine (refraction_le_high h0 h1 h88 ha').trans ?_
  have ga : refrArg 89.89 ≤ refrArg a := refrArg_mono (by norm_num) ha
  have : 89.967 ≤ refrArg 89.89 := by unfold refrArg; norm_num
  have h3 := pi_lt_d6
  unfold deg2rad
  norm_num at *
  linarith

theorem refractLoop_good {alt T P : ℝ} (h0 : 0 ≤ 0.28 * P / (T + 273)) (h1 : 0.28 * P / (T + 273) ≤ 1.4)
    (hlo : -1 ≤ alt) (hhi : alt < 89.89) (n : ℕ) :
    ∀ x, alt ≤ x → x ≤ 89.9 → |alt + refraction x T P - x| ≤ 3.0e-5 / 0.99 ^ n →
      ∃ a, refractLoop alt T P (n + 1) x = some a ∧ alt ≤ a ∧ |a - (alt + refraction a T P)| ≤ 3.0e-5 := by
  have step : ∀ x, alt ≤ x → x ≤ 89.9 → alt ≤ alt + refraction x T P ∧ alt + refraction x T P ≤ 89.9 := by
    intro x hx hx'
    refine ⟨by linarith [refraction_nonneg (a := x) h0], ?_⟩
    by_cases h88 : alt < 88
    · have := refraction_le h0 h1 (hlo.trans hx) hx'
      norm_num at *; linarith
    · have := refraction_le_88 h0 h1 ((not_lt.1 h88).trans hx) hx'
      norm_num at *; linarith
  have stop : ∀ x, alt ≤ x → x ≤ 89.9 → ¬ |alt + refraction x T P - x| > 3.0e-5 →
      |alt + refraction x T P - (alt + refraction (alt + refraction x T P) T P)| ≤ 3.0e-5 := by
    intro x hx hx' hs
    obtain ⟨s1, s2⟩ := step x hx hx'
    have := refraction_lip h0 h1 (hlo.trans hx) hx' (hlo.trans s1) s2
    rw [add_sub_add_left_eq_sub]
    refine this.trans ?_
    rw [abs_sub_comm]
    have := not_lt.1 hs
    have := abs_nonneg (alt + refraction x T P - x)
    nlinarith
  induction n with
  | zero =>
    intro x hx hx' hd
    simp only [pow_zero, div_one] at hd
    refine ⟨alt + refraction x T P, ?_, (step x hx hx').1, stop x hx hx' (not_lt.2 hd)⟩
    unfold refractLoop
    simp only
    rw [if_neg (not_lt.2 hd)]
  | succ n ih =>
    intro x hx hx' hd
    obtain ⟨s1, s2⟩ := step x hx hx'
    by_cases hs : |alt + refraction x T P - x| > 3.0e-5
    · have hl := refraction_lip h0 h1 (hlo.trans s1) s2 (hlo.trans hx) hx'
      have hd' : |alt + refraction (alt + refraction x T P) T P - (alt + refraction x T P)| ≤ 3.0e-5 / 0.99 ^ n := by
        rw [add_sub_add_left_eq_sub]
        refine hl.trans ?_
        calc 0.99 * |alt + refraction x T P - x| ≤ 0.99 * (3.0e-5 / 0.99 ^ (n + 1)) := by gcongr
          _ = _ := by rw [pow_succ]; field_simp
      obtain ⟨a, ha, hb⟩ := ih _ s1 s2 hd'
      refine ⟨a, ?_, hb⟩
      rw [refractLoop]
      rw [if_pos hs, ha]
    · refine ⟨alt + refraction x T P, ?_, s1, stop x hx hx' hs⟩
      rw [refractLoop]
      rw [if_neg hs]

theorem refractLoop_more {alt T P : ℝ} (n : ℕ) : ∀ x a, refractLoop alt T P n x = some a →
    ∀ k, refractLoop alt T P (n + k) x = some a := by
  induction n with
  | zero => intro x a h; simp [refractLoop] at h
  | succ n ih =>
    intro x a h k
    rw [Nat.succ_add]
    rw [refractLoop] at h ⊢
    by_cases hs : |alt + refraction x T P - x| > 3.0e-5
    · rw [if_pos hs] at h ⊢
      exact ih _ _ h k
    · rw [if_neg hs] at h ⊢
      exact h

/-- **C61.** For every true altitude, and air of at most about 1.4 times the standard density, `refract` ends (within 1100
rounds), raises the altitude or leaves it, and the answer solves the refraction equation to 3e-5 degrees: apparent altitude = true altitude + refraction at the apparent altitude. -/
theorem C61_refract (alt T P : ℝ) (h0 : 0 ≤ 0.28 * P / (T + 273)) (h1 : 0.28 * P / (T + 273) ≤ 1.4) :
    ∃ a, (∀ fuel, 1100 ≤ fuel → refract alt T P fuel = some a) ∧ alt ≤ a ∧ |a - (alt + refraction a T P)| ≤ 3.0e-5 := by
  have key : ∃ a n, n ≤ 1100 ∧ refract alt T P n = some a ∧ alt ≤ a ∧ |a - (alt + refraction a T P)| ≤ 3.0e-5 := by
    by_cases hout : alt < -1 ∨ 89.9 < alt
    · obtain ⟨e1, e2⟩ := C61_outside alt T P 0 hout
      exact ⟨alt, 1, by norm_num, e2, le_refl _, by rw [e1]; norm_num⟩
    · push Not at hout
      obtain ⟨hlo, hhi⟩ := hout
      by_cases h89 : alt < 89.89
      · have hd : |alt + refraction alt T P - alt| ≤ 3.0e-5 / 0.99 ^ 1099 := by
          rw [add_sub_cancel_left, abs_of_nonneg (refraction_nonneg h0)]
          refine (refraction_le h0 h1 hlo hhi).trans ?_
          have e1 : (0.99:ℝ) ^ 157 ≤ 0.2065 := by norm_num
          have e2 : (0.99:ℝ) ^ 1099 ≤ 0.2065 ^ 7 := by
            rw [show 1099 = 157 * 7 by norm_num, pow_mul]
            exact pow_le_pow_left₀ (by positivity) e1 7
          rw [le_div_iff₀ (by positivity)]
          calc (1.17:ℝ) * 0.99 ^ 1099 ≤ 1.17 * 0.2065 ^ 7 := by gcongr
            _ ≤ 3.0e-5 := by norm_num
        obtain ⟨a, ha, hb⟩ := refractLoop_good h0 h1 hlo h89 1099 alt (le_refl _) hhi hd
        exact ⟨a, 1100, le_refl _, ha, hb⟩
      · push Not at h89
        have hr := refraction_le_8989 h0 h1 h89 hhi
        have hr0 := refraction_nonneg (a := alt) h0
        refine ⟨alt + refraction alt T P, 1, by norm_num, ?_, by linarith, ?_⟩
        · unfold refract
          rw [refractLoop]
          rw [if_neg]
          rw [add_sub_cancel_left, abs_of_nonneg hr0]
          norm_num at *
          linarith
        · rw [add_sub_add_left_eq_sub]
          by_cases hin : alt + refraction alt T P ≤ 89.9
          · have hr' := refraction_le_8989 h0 h1 (a := alt + refraction alt T P) (by linarith) hin
            have hr0' := refraction_nonneg (a := alt + refraction alt T P) h0
            rw [abs_le]
            constructor <;> norm_num at * <;> linarith
          · rw [(C61_outside _ T P 0 (Or.inr (not_le.1 hin))).1, sub_zero, abs_of_nonneg hr0]
            norm_num at *
            linarith
  obtain ⟨a, n, hn, h, hb⟩ := key
  refine ⟨a, fun fuel hf => ?_, hb⟩
  obtain ⟨k, rfl⟩ : ∃ k, fuel = n + k := ⟨fuel - n, by omega⟩
  exact refractLoop_more n _ _ h k

/-- **C61.** The standard atmosphere of `altaz` meets the density condition at every elevation above -1000 m, at 10°C. -/
theorem C61_standard (elevation : ℝ) (h : -1000 ≤ elevation) :
    0 ≤ 0.28 * standardPressure elevation / (10 + 273) ∧ 0.28 * standardPressure elevation / (10 + 273) ≤ 1.4 := by
  unfold standardPressure
  constructor
  · positivity
  · have hx : -elevation / 9.1e3 ≤ 0.11 := by rw [div_le_iff₀ (by norm_num)]; norm_num; linarith
    have h1 : exp (-elevation / 9.1e3) ≤ exp 0.11 := exp_le_exp.2 hx
    have h2 : exp (0.11:ℝ) ≤ 1.13 := by
      have h3 := add_one_le_exp (-0.11 : ℝ)
      have h4 : exp (-0.11:ℝ) * exp 0.11 = 1 := by rw [← exp_add]; norm_num
      have h5 := exp_pos (0.11:ℝ)
      norm_num at *
      nlinarith
    have h6 := h1.trans h2
    generalize exp (-elevation / 9.1e3) = y at h6
    norm_num at *
    linarith

/-- Sea level. -/
example : (-1000:ℝ) ≤ 0 := by norm_num

/-- **C61.** Without such a bound `refract` can run for ever: at 10000 mbar and 10°C, from a true altitude of 89.89999° it
alternates between that altitude and one above 89.9°, whatever the number of rounds. -/
theorem C61_diverges (fuel : ℕ) : refract 89.89999 10 10000 fuel = none := by
  have hr : 3.5e-5 ≤ refraction 89.89999 10 10000 := by
    rw [refraction_inside (by norm_num) (by norm_num)]
    obtain ⟨q, q'⟩ := refrArg_quadrant (a := 89.89999) (by norm_num) (by norm_num)
    have hg : refrArg 89.89999 ≤ 89.97752 := by unfold refrArg; norm_num
    set u := refrArg 89.89999 * deg2rad with hu
    have hu1 : u ≤ 1.5704040 := by
      rw [hu]; unfold deg2rad; norm_num at *; linarith
    have h3 := pi_gt_d6
    have h4 := pi_lt_d6
    have hc : 2 / π * (π / 2 - u) ≤ cos u := by
      rw [← sin_pi_div_two_sub]
      exact mul_le_sin (by linarith) (by linarith)
    have hs : 0 < sin u := sin_pos_of_pos_of_lt_pi q (by linarith)
    have hs1 : sin u ≤ 1 := sin_le_one _
    have hc2 : 2.4e-4 ≤ cos u := by
      refine le_trans ?_ hc
      rw [div_mul_eq_mul_div, le_div_iff₀ pi_pos]
      norm_num at *
      linarith
    have hq : 2.4e-4 ≤ cos u / sin u := by
      rw [le_div_iff₀ hs]
      norm_num at *
      nlinarith
    norm_num at *
    linarith
  have hz : refraction (89.89999 + refraction 89.89999 10 10000) 10 10000 = 0 :=
    (C61_outside _ _ _ 0 (Or.inr (by norm_num at *; linarith))).1
  have key : ∀ n, refractLoop 89.89999 10 10000 n 89.89999 = none ∧
      refractLoop 89.89999 10 10000 n (89.89999 + refraction 89.89999 10 10000) = none := by
    intro n
    induction n with
    | zero => exact ⟨rfl, rfl⟩
    | succ n ih =>
      constructor
      · rw [refractLoop]
        rw [if_pos, ih.2]
        rw [add_sub_cancel_left, abs_of_nonneg (by linarith [hr])]
        norm_num at *
        linarith
      · rw [refractLoop]
        rw [hz, add_zero, if_pos, ih.1]
        rw [abs_sub_comm, add_sub_cancel_left, abs_of_nonneg (by linarith [hr])]
        norm_num at *
        linarith
  exact (key fuel).1

end Skyfield
