import Verif.Model.SatelliteFixed
import Verif.Props.EarthRotation
import Verif.Props.SatelliteAltitude
import Mathlib.Analysis.Real.Pi.Bounds

/-
C60: the two ways to the Earth-fixed coordinates of a satellite agree, and the position keeps the length SGP4 gave it.
-/
namespace Skyfield
open Real

theorem theta_rate_near {jd frac : ℝ} (h : |jd + frac - 2451545| ≤ 365250) :
    |dayS' * angvel - (thetaGMST1982 jd frac).2| ≤ 8e-7 := by
  have e : (thetaGMST1982 jd frac).2 = (1 + (8640184.812866 + (0.093104 * 2 + (-6.2e-6 * 3) * ((jd + frac - 2451545) / 36525))
      * ((jd + frac - 2451545) / 36525)) / (86400 * 36525)) * (2 * π) := by
    unfold thetaGMST1982
    simp only
    unfold t0 dayS' tau
    rw [show jd - 2451545 + frac = jd + frac - 2451545 by ring]
  rw [e]
  obtain ⟨x, hx⟩ : ∃ x, x = (jd + frac - 2451545) / 36525 := ⟨_, rfl⟩
  rw [← hx]
  have hx1 : |x| ≤ 10 := by
    rw [hx, abs_div, abs_of_pos (by norm_num : (0:ℝ) < 36525), div_le_iff₀ (by norm_num)]
    linarith
  obtain ⟨h1, h2⟩ := abs_le.1 hx1
  have p1 := Real.pi_gt_d20
  have p2 := Real.pi_lt_d20
  have b1 : (1.0027379087 : ℝ) ≤ 1 + (8640184.812866 + (0.093104 * 2 + (-6.2e-6 * 3) * x) * x) / (86400 * 36525) := by
    have hq : |(0.093104 * 2 + (-6.2e-6 * 3) * x) * x| ≤ 1.87 := by
      rw [abs_le]; constructor <;> nlinarith
    have := abs_le.1 hq
    linarith
  have b2 : 1 + (8640184.812866 + (0.093104 * 2 + (-6.2e-6 * 3) * x) * x) / (86400 * 36525) ≤ (1.00273790995 : ℝ) := by
    have hq : |(0.093104 * 2 + (-6.2e-6 * 3) * x) * x| ≤ 1.87 := by
      rw [abs_le]; constructor <;> nlinarith
    have := abs_le.1 hq
    linarith
  generalize 1 + (8640184.812866 + (0.093104 * 2 + (-6.2e-6 * 3) * x) * x) / (86400 * 36525) = k at b1 b2
  unfold dayS' angvel
  rw [abs_le]
  constructor <;> nlinarith

/-- The Earth-fixed coordinates by way of the celestial frame, before the rotation `M` and its transpose cancel. -/
theorem fixed_of_celestial (t : SatTime) (u : Vec3) :
    (itrsRotation t.sky).mulVec ((temeRotation t.sky (thetaGMST1982 t.whole t.ut1Fraction).1).transpose.mulVec u) =
      (wobble t.sky.polar).mulVec ((rotZ (-t.sky.gast * tau / 24)).mulVec (t.sky.M.mulVec (t.sky.M.transpose.mulVec
        ((rotZ ((thetaGMST1982 t.whole t.ut1Fraction).1 - t.sky.gast / 24 * tau)).transpose.mulVec u)))) := by
  have h := itrs_eq t.sky.sidereal
  have h' : itrsRotation t.sky = ((wobble t.sky.polar).mul (rotZ (-t.sky.gast * tau / 24))).mul t.sky.M := h
  rw [h']
  unfold temeRotation
  simp only [Mat3.transpose_mul, Mat3.mul_mulVec]

theorem fixed_near (t : SatTime) (u : Vec3) :
    ((itrsRotation t.sky).mulVec ((temeRotation t.sky (thetaGMST1982 t.whole t.ut1Fraction).1).transpose.mulVec u) -
      (wobble t.sky.polar).mulVec ((rotZ (-(thetaGMST1982 t.whole t.ut1Fraction).1)).mulVec u)).length ≤ 2e-14 * u.length := by
  rw [fixed_of_celestial]
  set x := (rotZ ((thetaGMST1982 t.whole t.ut1Fraction).1 - t.sky.gast / 24 * tau)).transpose.mulVec u with hx
  have e : (rotZ (-(thetaGMST1982 t.whole t.ut1Fraction).1)).mulVec u = (rotZ (-t.sky.gast * tau / 24)).mulVec x := by
    rw [hx, rotZ_mul_transpose]
    congr 2; ring
  rw [e, ← Mat3.mulVec_sub, (wobble_isometry _).length, ← Mat3.mulVec_sub, (C35_rot_z _).length]
  have hl : x.length = u.length := (C35_rot_z _).transpose.length u
  rw [← hl]
  exact (isometryUpTo_M t.sky).undo' x

theorem temeToItrf_zero (jd frac : ℝ) (r v : Vec3) : temeToItrf jd r v 0 0 frac =
    ((rotZ (-(thetaGMST1982 jd frac).1)).mulVec r, (rotZ (-(thetaGMST1982 jd frac).1)).mulVec v +
      (⟨0, 0, -(thetaGMST1982 jd frac).2⟩ : Vec3).cross ((rotZ (-(thetaGMST1982 jd frac).1)).mulVec r)) := by
  unfold temeToItrf
  simp only [and_self, if_true]
  norm_num

/-- **C60.** The two ways to a satellite's Earth-fixed position agree to 2·10⁻¹⁴ of its distance: reading the celestial
position that `at(t)` returns in the `itrs` frame, and asking for the Earth-fixed position directly — if no polar motion table is
loaded; with one, the first is the second turned by the polar motion.  Both report the same error message. -/
theorem C60_two_ways_position (errors : ℕ → Option String) (t : SatTime) (a : Sgp4Answer) {r v : Vec3} {e : Option String}
    (h : earthSatelliteAt errors t a = some (r, v, e)) :
    ∃ r' v', itrfPositionVelocityError errors t a = some (r', v', e) ∧
      (t.sky.polar = none → (frameXyz itrsFrame t.sky r - r').length ≤ 2e-14 * r'.length) ∧
      (∀ s x y, t.sky.polar = some (s, x, y) →
        (frameXyz itrsFrame t.sky r - (SkyTime.polarMotionMatrix s x y).mulVec r').length ≤ 2e-14 * r'.length) := by
  unfold earthSatelliteAt at h
  obtain ⟨m, hm, hv⟩ := Option.map_eq_some_iff.1 h
  simp only [Prod.mk.injEq] at hv
  obtain ⟨hr, _, he⟩ := hv
  unfold itrfPositionVelocityError
  rw [hm]
  simp only [temeToItrf_zero, Option.map_some, Option.some.injEq, Prod.mk.injEq]
  refine ⟨_, _, ⟨rfl, rfl, he⟩, ?_, ?_⟩
  · intro hp
    have := fixed_near t a.au
    rw [hp, hr] at this
    rw [(C35_rot_z _).length]
    simpa [wobble, Mat3.one_mulVec, frameXyz, itrsFrame] using this
  · intro s x y hp
    have := fixed_near t a.au
    rw [hp, hr] at this
    rw [(C35_rot_z _).length]
    exact this

theorem spin_length (k : ℝ) (u : Vec3) : (⟨k * u.y, -(k * u.x), 0⟩ : Vec3).length ≤ |k| * u.length := by
  rw [← Vec3.length_smul, Vec3.length_eq, Vec3.length_eq]
  apply Real.sqrt_le_sqrt
  show k * u.y * (k * u.y) + -(k * u.x) * -(k * u.x) + 0 * 0 ≤ (k * u.x) * (k * u.x) + (k * u.y) * (k * u.y) + (k * u.z) * (k * u.z)
  nlinarith [mul_self_nonneg (k * u.z)]

/-- **C60.** The two ways to a satellite's Earth-fixed velocity, without polar motion and within a thousand years of 2000,
agree to 2·10⁻¹⁴ of its speed and 8.1·10⁻⁷ of its distance per day, which is less than a tenth of a millimetre a second in low
orbit and less than four millimetres a second at the distance of the Moon: the frame turns at a fixed rate, the direct way at
that of the 1982 angle. -/
theorem C60_two_ways_velocity (errors : ℕ → Option String) (t : SatTime) (a : Sgp4Answer) {r v r' v' : Vec3}
    {e e' : Option String} (h : earthSatelliteAt errors t a = some (r, v, e))
    (h' : itrfPositionVelocityError errors t a = some (r', v', e')) (hp : t.sky.polar = none)
    (hd : |t.whole + t.ut1Fraction - 2451545| ≤ 365250) :
    ((frameXyzAndVelocity itrsFrame t.sky r v).2 - v').length ≤
      2e-14 * (86400 / 149597870.7 * a.velocity.length) + 8.1e-7 * r'.length := by
  unfold earthSatelliteAt at h
  unfold itrfPositionVelocityError at h'
  obtain ⟨m, hm, hv⟩ := Option.map_eq_some_iff.1 h
  rw [hm, temeToItrf_zero] at h'
  simp only [Option.map_some, Option.some.injEq, Prod.mk.injEq] at hv h'
  obtain ⟨hr, hv, _⟩ := hv
  obtain ⟨hr', hv', _⟩ := h'
  have n1 := fixed_near t a.au
  have n2 := fixed_near t a.auPerDay
  rw [hp] at n1 n2
  simp only [wobble, Mat3.one_mulVec] at n1 n2
  rw [hr, hr'] at n1
  rw [hv] at n2
  rw [hr'] at hv'
  set om := (thetaGMST1982 t.whole t.ut1Fraction).2 with hom
  set R := itrsRotation t.sky
  set z := (rotZ (-(thetaGMST1982 t.whole t.ut1Fraction).1)).mulVec a.auPerDay
  have hlen : a.au.length = r'.length := by rw [← hr', (C35_rot_z _).length]
  have hvel : a.auPerDay.length = 86400 / 149597870.7 * a.velocity.length := by
    unfold Sgp4Answer.auPerDay
    rw [Vec3.length_smul_of_nonneg (by norm_num [daySeconds]), Vec3.length_smul_of_nonneg (by norm_num [auKm])]
    norm_num [daySeconds, auKm]; ring
  have key : (frameXyzAndVelocity itrsFrame t.sky r v).2 - v' =
      (R.mulVec v - z) + ((⟨dayS' * angvel * (R.mulVec r - r').y, -(dayS' * angvel * (R.mulVec r - r').x), 0⟩ : Vec3) +
        ⟨(dayS' * angvel - om) * r'.y, -((dayS' * angvel - om) * r'.x), 0⟩) := by
    rw [← hv']
    show (R.mulVec v + itrsAngvelMatrix.mulVec (R.mulVec r)) - (z + (⟨0, 0, -om⟩ : Vec3).cross r') = _
    generalize R.mulVec r = p
    generalize R.mulVec v = q
    ext
    · show q.x + (0 * p.x + dayS' * angvel * p.y + 0 * p.z) - (z.x + (0 * r'.z - -om * r'.y)) =
        (q.x - z.x) + (dayS' * angvel * (p.y - r'.y) + (dayS' * angvel - om) * r'.y)
      ring
    · show q.y + (-(dayS' * angvel) * p.x + 0 * p.y + 0 * p.z) - (z.y + (-om * r'.x - 0 * r'.z)) =
        (q.y - z.y) + (-(dayS' * angvel * (p.x - r'.x)) + -((dayS' * angvel - om) * r'.x))
      ring
    · show q.z + (0 * p.x + 0 * p.y + 0 * p.z) - (z.z + (0 * r'.y - 0 * r'.x)) = (q.z - z.z) + (0 + 0)
      ring
  rw [key]
  have s1 := spin_length (dayS' * angvel) (R.mulVec r - r')
  have s2 := spin_length (dayS' * angvel - om) r'
  have hk := theta_rate_near hd
  rw [← hom] at hk
  have hO : |dayS' * angvel| ≤ 7 := by norm_num [dayS', angvel]
  have h0 := Vec3.length_nonneg r'
  have h1 := Vec3.length_nonneg (R.mulVec r - r')
  rw [hlen] at n1
  rw [hvel] at n2
  refine (Vec3.length_add_le _ _).trans ?_
  refine (add_le_add n2 ((Vec3.length_add_le _ _).trans (add_le_add s1 s2))).trans ?_
  have a1 : |dayS' * angvel| * (R.mulVec r - r').length ≤ 7 * (2e-14 * r'.length) :=
    mul_le_mul hO n1 h1 (by norm_num)
  have a2 : |dayS' * angvel - om| * r'.length ≤ 8e-7 * r'.length := mul_le_mul_of_nonneg_right hk h0
  linarith

theorem IsometryUpTo.transpose_length {m : Mat3} (hm : IsometryUpTo 2e-14 m) (u : Vec3) :
    |(m.transpose.mulVec u).length - u.length| ≤ 2e-14 * u.length := by
  set w := m.transpose.mulVec u with hw
  have h1 : w.dot w = u.dot (m.mulVec w) := (Mat3.dot_mulVec m u w).symm
  have h2 : |u.dot (m.mulVec w) - u.dot u| ≤ u.length * (2e-14 * u.length) := by
    have e : u.dot (m.mulVec w) - u.dot u = u.dot (m.mulVec w - u) := by
      generalize m.mulVec w = q
      show u.x * q.x + u.y * q.y + u.z * q.z - (u.x * u.x + u.y * u.y + u.z * u.z) =
        u.x * (q.x - u.x) + u.y * (q.y - u.y) + u.z * (q.z - u.z)
      ring
    rw [e]
    exact (Vec3.abs_dot_le _ _).trans (mul_le_mul_of_nonneg_left (hm.undo' u) (Vec3.length_nonneg u))
  rw [← h1, ← Vec3.length_sq, ← Vec3.length_sq] at h2
  have n1 := Vec3.length_nonneg u
  have n2 := Vec3.length_nonneg w
  rcases n1.eq_or_lt with h | h
  · have e : u = 0 := Vec3.length_eq_zero.1 h.symm
    have : w = 0 := by
      rw [hw, e]
      ext <;> simp [Mat3.mulVec, Vec3.dot]
    rw [this, e, Vec3.length_zero]; norm_num
  · have h3 : |w.length - u.length| * u.length ≤ (2e-14 * u.length) * u.length := by
      calc |w.length - u.length| * u.length ≤ |w.length - u.length| * (w.length + u.length) :=
            mul_le_mul_of_nonneg_left (by linarith) (abs_nonneg _)
        _ = |w.length ^ 2 - u.length ^ 2| := by
            rw [← abs_of_nonneg (add_nonneg n2 n1), ← abs_mul]
            congr 1; ring
        _ ≤ _ := by linarith
    exact le_of_mul_le_mul_right h3 h

theorem sgp4Message_eq {errors : ℕ → Option String} {n : ℕ} {e : Option String} (h : sgp4Message errors n = some e) :
    n = 0 ↔ e = none := by
  unfold sgp4Message at h
  by_cases hn : n = 0
  · rw [if_neg (by simpa using hn)] at h
    simp only [Option.some.injEq] at h
    exact ⟨fun _ => h.symm, fun _ => hn⟩
  · rw [if_pos hn] at h
    obtain ⟨s, _, hs⟩ := Option.map_eq_some_iff.1 h
    constructor
    · intro h; exact absurd h hn
    · rw [← hs]; intro h; cases h

/-- **C60.** The celestial position of a satellite is as far from the Earth's centre as the propagator said, and its speed is
what the propagator said, both to 2·10⁻¹⁴: kilometres become astronomical units and seconds become days.  A message comes exactly
with an answer in error. -/
theorem C60_distance_kept (errors : ℕ → Option String) (t : SatTime) (a : Sgp4Answer) {r v : Vec3} {e : Option String}
    (h : earthSatelliteAt errors t a = some (r, v, e)) :
    |r.length * 149597870.7 - a.position.length| ≤ 2e-14 * a.position.length ∧
      |v.length * 149597870.7 / 86400 - a.velocity.length| ≤ 2e-14 * a.velocity.length ∧ (a.error = 0 ↔ e = none) := by
  unfold earthSatelliteAt at h
  obtain ⟨m, hm, hv⟩ := Option.map_eq_some_iff.1 h
  simp only [Prod.mk.injEq] at hv
  obtain ⟨hr, hv, he⟩ := hv
  have key : ∀ u : Vec3, |((temeRotation t.sky (thetaGMST1982 t.whole t.ut1Fraction).1).transpose.mulVec u).length - u.length| ≤
      2e-14 * u.length :=
    fun u => (IsometryUpTo.mul_left (C35_rot_z _) (isometryUpTo_M t.sky)).transpose_length u
  have k1 := key a.au
  have k2 := key a.auPerDay
  rw [hr] at k1
  rw [hv] at k2
  have e1 : a.au.length = 1 / 149597870.7 * a.position.length := by
    unfold Sgp4Answer.au
    rw [Vec3.length_smul_of_nonneg (by norm_num [auKm])]
    norm_num [auKm]
  have e2 : a.auPerDay.length = 86400 / 149597870.7 * a.velocity.length := by
    unfold Sgp4Answer.auPerDay
    rw [Vec3.length_smul_of_nonneg (by norm_num [daySeconds]), Vec3.length_smul_of_nonneg (by norm_num [auKm])]
    norm_num [daySeconds, auKm]; ring
  rw [e1] at k1
  rw [e2] at k2
  refine ⟨?_, ?_, by rw [← he]; exact sgp4Message_eq hm⟩
  · obtain ⟨x, y⟩ := abs_le.1 k1
    rw [abs_le]; constructor <;> linarith
  · obtain ⟨x, y⟩ := abs_le.1 k2
    rw [abs_le]; constructor <;> linarith

/-- A satellite seven thousand kilometres out, on a date of 2020: both ways answer. -/
example : (earthSatelliteAt (fun _ => none) ⟨⟨2459000.5, 3, 0, 0, none⟩, 2459000.5, 0.25⟩ ⟨0, ⟨7000, 0, 0⟩, ⟨0, 7.5, 0⟩⟩).isSome ∧
    (itrfPositionVelocityError (fun _ => none) ⟨⟨2459000.5, 3, 0, 0, none⟩, 2459000.5, 0.25⟩
      ⟨0, ⟨7000, 0, 0⟩, ⟨0, 7.5, 0⟩⟩).isSome ∧ |(2459000.5 + 0.25 - 2451545 : ℝ)| ≤ 365250 :=
  ⟨rfl, rfl, by norm_num⟩

end Skyfield
