import Verif.Model.Transits
import Verif.Props.TransitSearch
import Verif.Props.BuiltinTime
import Verif.Props.HourAngleRate
import Verif.Props.Almanac

/-
C114: `find_discrete` over `meridian_transits` finds every passage, on the Earth and with the clock that Skyfield itself computes.
-/
namespace Skyfield
open _root_.Spec Real

/-- Specification: right ascension and declination on the equator and equinox of date, as `radec(epoch='date')` gives them. -/
noncomputable def raOfDate (s : SkyTime) (v : Vec3) : ℝ := (radec (some s) v).2.2
noncomputable def decOfDate (s : SkyTime) (v : Vec3) : ℝ := (radec (some s) v).2.1

private theorem abs_x_le (v : Vec3) : |v.x| ≤ v.length := by
  refine abs_le_of_sq_le_sq ?_ (Vec3.length_nonneg v)
  rw [Vec3.length_sq]
  simp only [Vec3.dot]
  linarith [mul_self_nonneg v.y, mul_self_nonneg v.z, sq v.x]

private theorem abs_y_le (v : Vec3) : |v.y| ≤ v.length := by
  refine abs_le_of_sq_le_sq ?_ (Vec3.length_nonneg v)
  rw [Vec3.length_sq]
  simp only [Vec3.dot]
  linarith [mul_self_nonneg v.x, mul_self_nonneg v.z, sq v.y]

private theorem abs_z_le (v : Vec3) : |v.z| ≤ v.length := by
  refine abs_le_of_sq_le_sq ?_ (Vec3.length_nonneg v)
  rw [Vec3.length_sq]
  simp only [Vec3.dot]
  linarith [mul_self_nonneg v.x, mul_self_nonneg v.y, sq v.z]

/-- The declination is hardly changed. -/
private theorem near_dec {P q : Vec3} {δ δ' A L' : ℝ} (hqP : (q - P).length ≤ 2e-14) (hP1 : P.length = 1) (hc : 1e-4 ≤ cos δ) (hc' : 0 ≤ cos δ')
    (Px : P.x = P.length * cos δ * cos A) (Py : P.y = P.length * cos δ * sin A)
    (qx : q.x = q.length * cos δ' * cos L') (qy : q.y = q.length * cos δ' * sin L') (hq1 : q.length ≤ 1 + 2e-14) : 0.999e-4 ≤ cos δ' := by
  have hx2 : |q.x - P.x| ≤ 2e-14 := (abs_x_le (q - P)).trans hqP
  have hy2 : |q.y - P.y| ≤ 2e-14 := (abs_y_le (q - P)).trans hqP
  have e1 : P.x * cos A + P.y * sin A = cos δ := by
    rw [Px, Py, hP1]
    linear_combination cos δ * sin_sq_add_cos_sq A
  have e2 : q.x * cos A + q.y * sin A = q.length * cos δ' * cos (L' - A) := by
    rw [qx, qy, cos_sub L']; ring
  have b1 : |(q.x - P.x) * cos A| ≤ 2e-14 := by
    rw [abs_mul]
    calc _ ≤ 2e-14 * 1 := mul_le_mul hx2 (abs_cos_le_one _) (abs_nonneg _) (by norm_num)
      _ = _ := mul_one _
  have b2 : |(q.y - P.y) * sin A| ≤ 2e-14 := by
    rw [abs_mul]
    calc _ ≤ 2e-14 * 1 := mul_le_mul hy2 (abs_sin_le_one _) (abs_nonneg _) (by norm_num)
      _ = _ := mul_one _
  have b1' := (abs_le.1 b1).1
  have b2' := (abs_le.1 b2).1
  have h3 : 1e-4 - 4e-14 ≤ q.length * cos δ' * cos (L' - A) := by
    rw [← e2]
    linarith
  have h4 : q.length * cos δ' * cos (L' - A) ≤ q.length * cos δ' := by
    have := mul_le_mul_of_nonneg_left (cos_le_one (L' - A)) (mul_nonneg (Vec3.length_nonneg q) hc')
    linarith
  have h5 : q.length * cos δ' ≤ (1 + 2e-14) * cos δ' := mul_le_mul_of_nonneg_right hq1 hc'
  linarith

/-- **C114.** The right ascension `radec(epoch='date')` gives for a place on the Earth is its longitude plus the apparent sidereal time, to within
3.2e-10 radians, away from the poles. -/
theorem C114_place_ra {s : SkyTime} (hs : s.polar = none) (p : GeoPosition) (hp : p.itrs ≠ 0) (hpole : 1e-4 ≤ cos (toSpherical p.itrs).2.1) :
    ∃ n : ℤ, |raOfDate s (p.at s).1 - ((toSpherical p.itrs).2.2 + s.gast * (2 * π) / 24) - 2 * π * n| ≤ 3.2e-10 := by
  set x := p.itrs with hx
  set g := s.gast * tau / 24 with hg
  have hpos := Vec3.length_pos hp
  set d := x.direction with hd
  have hd1 : d.length = 1 := Vec3.direction_length hp
  have hxd : x = x.length • d := Vec3.smul_direction hp
  obtain ⟨m1, m2, m3⟩ := C36_meaning x
  rw [(C36_range x).1] at m1 m2 m3
  set δ := (toSpherical x).2.1 with hδ
  set L := (toSpherical x).2.2 with hL
  have dx : d.x = cos δ * cos L := mul_left_cancel₀ hpos.ne' (by rw [← mul_assoc, ← m1]; conv_rhs => rw [hxd]
                                                                 rfl)
  have dy : d.y = cos δ * sin L := mul_left_cancel₀ hpos.ne' (by rw [← mul_assoc, ← m2]; conv_rhs => rw [hxd]
                                                                 rfl)
  set P := (rotZ g).mulVec d with hP
  have hP1 : P.length = 1 := by rw [hP, (C35_rot_z g).length, hd1]
  have Px : P.x = P.length * cos δ * cos (L + g) := by
    rw [hP1, hP, cos_add]
    simp only [rotZ, Mat3.mulVec, Vec3.dot]
    rw [dx, dy]; ring
  have Py : P.y = P.length * cos δ * sin (L + g) := by
    rw [hP1, hP, sin_add]
    simp only [rotZ, Mat3.mulVec, Vec3.dot]
    rw [dx, dy]; ring
  set q := s.M.mulVec (s.M.transpose.mulVec P) with hq
  have hqP : (q - P).length ≤ 2e-14 := by
    have := (isometryUpTo_M s).undo' P
    rw [hP1, mul_one] at this
    exact this
  have hQ : s.M.mulVec (p.at s).1 = x.length • q := by
    have e : (p.at s).1 = (itrsRotation s).transpose.mulVec x := rfl
    rw [e, itrs_transpose hs, hxd, Mat3.mulVec_smul, Mat3.mulVec_smul, Mat3.mulVec_smul]
    rw [← hxd]
  set Q := s.M.mulVec (p.at s).1 with hQdef
  have hra : raOfDate s (p.at s).1 = (toSpherical Q).2.2 := rfl
  obtain ⟨n1, n2, -⟩ := C36_meaning Q
  have hQl : (toSpherical Q).1 = x.length * q.length := by rw [(C36_range Q).1, hQ, Vec3.length_smul_of_nonneg hpos.le]
  set δ' := (toSpherical Q).2.1 with hδ'
  set L' := (toSpherical Q).2.2 with hL'
  have qx : q.x = q.length * cos δ' * cos L' := by
    have e : Q.x = x.length * q.x := by rw [hQ]; rfl
    rw [hQl, e] at n1
    exact mul_left_cancel₀ hpos.ne' (by rw [n1]; ring)
  have qy : q.y = q.length * cos δ' * sin L' := by
    have e : Q.y = x.length * q.y := by rw [hQ]; rfl
    rw [hQl, e] at n2
    exact mul_left_cancel₀ hpos.ne' (by rw [n2]; ring)
  have hq1 : |q.length - 1| ≤ 2e-14 := by
    have h1 := Vec3.length_add_le (q - P) P
    have h2 := Vec3.length_add_le (P - q) q
    rw [sub_add_cancel] at h1 h2
    rw [Vec3.length_sub_comm] at h2
    rw [abs_le]
    constructor <;> linarith
  rw [abs_le] at hq1
  have hc' : 0 ≤ cos δ' :=
    cos_nonneg_of_mem_Icc ⟨by linarith [(abs_le.1 (C36_range Q).2.2.1).1], (abs_le.1 (C36_range Q).2.2.1).2⟩
  have hdec := near_dec hqP hP1 hpole hc' Px Py qx qy (by linarith [hq1.2])
  obtain ⟨m, hm⟩ := lon_change (p := P) (q := q) (δ := δ) (δ' := δ') (L := L + g) (L' := L') (by rw [hP1]; norm_num) (by linarith [hq1.1])
    (by linarith) hc' Px Py qx qy
  refine ⟨m, ?_⟩
  rw [hra]
  have eg : s.gast * (2 * π) / 24 = g := by rw [hg]; unfold tau; ring
  rw [eg]
  have hmin : 0.999e-4 ≤ min (cos δ) (cos δ') := le_min (by linarith) hdec
  rw [Vec3.length_sub_comm] at hm
  have h5 := mul_le_mul_of_nonneg_left hmin (abs_nonneg (L' - (L + g) - 2 * π * m))
  have h6 : 1.5708 * (1 + 3e-14) * (q - P).length ≤ 1.5708 * (1 + 3e-14) * 2e-14 := mul_le_mul_of_nonneg_left hqP (by norm_num)
  have h7 : |L' - (L + g) - 2 * π * m| * 0.999e-4 ≤ 1.5708 * (1 + 3e-14) * 2e-14 := h5.trans (hm.trans h6)
  linarith

private theorem off_pole {s : SkyTime} {v : Vec3} (h : 0 < cos (decOfDate s v)) (hv : v ≠ 0) : (s.M.mulVec v).x ≠ 0 ∨ (s.M.mulVec v).y ≠ 0 := by
  by_contra hc
  push Not at hc
  obtain ⟨m1, m2, -⟩ := C36_meaning (s.M.mulVec v)
  rw [hc.1] at m1
  rw [hc.2] at m2
  have hr : (toSpherical (s.M.mulVec v)).1 ≠ 0 := by
    rw [(C36_range _).1]
    intro h0
    have hm := (isometryUpTo_M s).dot v v
    rw [← Vec3.length_sq, ← Vec3.length_sq, h0, abs_le] at hm
    have := Vec3.length_pos hv
    nlinarith [hm.1]
  have hd : decOfDate s v = (toSpherical (s.M.mulVec v)).2.1 := rfl
  rw [hd] at h
  generalize toSpherical (s.M.mulVec v) = x at *
  have h1 := sin_sq_add_cos_sq x.2.2
  have hne : x.1 * cos x.2.1 ≠ 0 := mul_ne_zero hr h.ne'
  have c0 : cos x.2.2 = 0 := (mul_eq_zero.1 m1.symm).resolve_left hne
  have s0 : sin x.2.2 = 0 := (mul_eq_zero.1 m2.symm).resolve_left hne
  rw [c0, s0] at h1
  norm_num at h1

/-- **C114.** The place's right ascension less the target's, which `meridian_transits` looks at, is the hour angle `hadec()` gives for the
place's longitude, to within 3.2e-10 radians and up to whole turns. -/
theorem C114_hour_angle {s : SkyTime} (hs : s.polar = none) (p : GeoPosition) (hp : p.itrs ≠ 0) (hpole : 1e-4 ≤ cos (toSpherical p.itrs).2.1)
    {v : Vec3} (hv : v ≠ 0) (hdec : 0 < cos (decOfDate s v)) :
    ∃ n : ℤ, |raOfDate s (p.at s).1 - raOfDate s v - (hadec s (toSpherical p.itrs).2.2 v).1 - 2 * π * n| ≤ 3.2e-10 := by
  obtain ⟨n, hn⟩ := C114_place_ra hs p hp hpole
  obtain ⟨i, hi⟩ := (C49_sidereal_minus_ra s (toSpherical p.itrs).2.2 v hs (off_pole hdec hv)).1
  refine ⟨n + i, ?_⟩
  have e : raOfDate s v = (frameLatlon trueEquatorFrame s v).2.2 := rfl
  rw [e, hi]
  push_cast
  rw [show raOfDate s (p.at s).1 - (frameLatlon trueEquatorFrame s v).2.2 - ((toSpherical p.itrs).2.2 + s.gast * (2 * π) / 24 -
    (frameLatlon trueEquatorFrame s v).2.2 - 2 * π * i) - 2 * π * (n + i) =
    raOfDate s (p.at s).1 - ((toSpherical p.itrs).2.2 + s.gast * (2 * π) / 24) - 2 * π * n by ring]
  exact hn

/-- Specification: `h` is the hour angle of the target from `lo` to `hi`: the right ascension of date of the place, less that of the target. -/
def IsHourAngle (ts : Timescale ℝ) (p : GeoPosition) (apparent : ℝ → Vec3) (lo hi : ℝ) (h : ℝ → ℝ) : Prop :=
  ∀ jd s, lo ≤ jd → jd ≤ hi → (ts.ttJd jd none).sky .iau2000b = some s → h jd = raOfDate s (p.at s).1 - raOfDate s (apparent jd)

/-- Specification: from `lo` to `hi` the target's direction moves by no more than `μ` a day (and 1e-16 besides), and the cosine of its declination is never below `c`. -/
structure MovesSlowly (ts : Timescale ℝ) (apparent : ℝ → Vec3) (lo hi μ c : ℝ) : Prop where
  somewhere : ∀ jd, lo ≤ jd → jd ≤ hi → apparent jd ≠ 0
  speed : ∀ a b, lo ≤ a → a ≤ b → b ≤ hi → ((apparent b).direction - (apparent a).direction).length ≤ μ * (b - a) + 1e-16
  dec : ∀ jd s, lo ≤ jd → jd ≤ hi → (ts.ttJd jd none).sky .iau2000b = some s → c ≤ cos (decOfDate s (apparent jd))

theorem angle_error {x c e Δ μ d : ℝ} (hc : 6e-6 ≤ c) (hΔ : 0 ≤ Δ) (hd : |d| ≤ (1 + 4.7e-8) * Δ)
    (he : 1.5709 * μ + 6e-6 ≤ e * c) (h : x * c ≤ 1.5709 * (μ * Δ + 1e-16) + 5.5e-6 * |d| + 2e-19) : x ≤ e * Δ + 3e-11 := by
  have h1 : 1.5709 * μ * Δ + 6e-6 * Δ ≤ e * c * Δ := by
    have := mul_le_mul_of_nonneg_right he hΔ
    linarith
  have h2 : x * c ≤ (e * Δ + 3e-11) * c := by
    have : (e * Δ + 3e-11) * c = e * c * Δ + 3e-11 * c := by ring
    rw [this]
    linarith
  exact le_of_mul_le_mul_right h2 (by linarith)

theorem sidereal_step {d Δ : ℝ} (hΔ : 0 ≤ Δ) (h : |d - Δ| ≤ 4.7e-8 * Δ) :
    6.300387 * Δ ≤ 2 * π * (1.00273790935 * d) ∧ 2 * π * (1.00273790935 * d) ≤ 6.300389 * Δ := by
  have h1 := pi_gt_d20
  have h2 := pi_lt_d20
  rw [abs_le] at h
  have hd : 0 ≤ d := by linarith [h.1]
  have e : 2 * π * (1.00273790935 * d) = π * (2 * 1.00273790935 * d) := by ring
  rw [e]
  have l1 := mul_le_mul_of_nonneg_right h1.le (by positivity : 0 ≤ 2 * 1.00273790935 * d)
  have l2 := mul_le_mul_of_nonneg_right h2.le (by positivity : 0 ≤ 2 * 1.00273790935 * d)
  constructor
  · refine le_trans ?_ l1
    norm_num at h ⊢
    linarith [h.1]
  · refine l2.trans ?_
    norm_num at h ⊢
    linarith [h.2]

/-- **C114.** The hour angle that `meridian_transits` looks at turns at the sidereal rate, to within the motion of the target over the cosine of its
declination: with the built-in time scale, while its daily table lasts, and the Earth as Skyfield turns it. -/
theorem C114_turning {ts : Timescale ℝ} (hts : ts.IsBuiltin) (p : GeoPosition) (hp : p.itrs ≠ 0) (hpole : 1e-4 ≤ cos (toSpherical p.itrs).2.1)
    {apparent : ℝ → Vec3} {lo hi μ c e : ℝ} (hlo : InDailyTable lo) (hhi : InDailyTable hi) (hm : MovesSlowly ts apparent lo hi μ c)
    (hμ : 0 ≤ μ) (he : 1.5709 * μ + 6e-6 ≤ e * c) (he1 : e ≤ 0.99) (hc : 0 ≤ c) {h : ℝ → ℝ} (hh : IsHourAngle ts p apparent lo hi h) :
    Turning (6.300387 - e) (6.300389 + e) 1e-9 lo hi h := by
  intro a b ha hab hb
  rcases eq_or_lt_of_le hab with rfl | hlt
  · refine ⟨0, ?_, ?_⟩ <;> push_cast <;> norm_num
  obtain ⟨s, hs⟩ := (ts.ttJd a none).sky_defined .iau2000b
  obtain ⟨s', hs'⟩ := (ts.ttJd b none).sky_defined .iau2000b
  have ta : (ts.ttJd a none).tt = a := (C11_jd_reads_back ts a 0).1
  have tb : (ts.ttJd b none).tt = b := (C11_jd_reads_back ts b 0).1
  have ia : InDailyTable (ts.ttJd a none).tt := by rw [ta]; exact ⟨hlo.1.trans ha, hab.trans (hb.trans hhi.2)⟩
  have ib : InDailyTable (ts.ttJd b none).tt := by rw [tb]; exact ⟨hlo.1.trans (ha.trans hab), hb.trans hhi.2⟩
  have hda := C113_days_apart hts (t := ts.ttJd a none) (u := ts.ttJd b none) rfl rfl ⟨rfl, rfl⟩ ⟨rfl, rfl⟩ ia ib
  have hut := (C113_ut1_runs_on hts (t := ts.ttJd a none) (u := ts.ttJd b none) rfl rfl rfl rfl ia ib (by rw [ta, tb]; exact hlt)).1
  rw [ta, tb] at hut
  generalize (ts.ttJd b none).ut1 - (ts.ttJd a none).ut1 = d at hda hut
  have hva := hm.somewhere a ha (hab.trans hb)
  have hvb := hm.somewhere b (ha.trans hab) hb
  obtain ⟨-, -, -, hn⟩ := Time.sky_eq hs
  obtain ⟨-, -, -, hn'⟩ := Time.sky_eq hs'
  have da := hm.dec a s ha (hab.trans hb) hs
  have db := hm.dec b s' (ha.trans hab) hb hs'
  have hc6 : 6e-6 ≤ c := by
    have : e * c ≤ 0.99 * c := mul_le_mul_of_nonneg_right he1 hc
    linarith
  set lon := (toSpherical p.itrs).2.2 with hlon
  obtain ⟨⟨n, hX⟩, -⟩ := C112_hour_angle_rate hda hs hs' lon hva hvb (hm.speed a b ha hab hb)
  rw [date_dec hn, date_dec hn'] at hX
  have hmin : c ≤ min (cos (frameLatlon trueEquatorFrame s (apparent a)).2.1) (cos (frameLatlon trueEquatorFrame s' (apparent b)).2.1) := le_min da db
  obtain ⟨i, hi'⟩ := C114_hour_angle hn p hp hpole hva (by linarith : 0 < cos (decOfDate s (apparent a)))
  obtain ⟨j, hj⟩ := C114_hour_angle hn' p hp hpole hvb (by linarith : 0 < cos (decOfDate s' (apparent b)))
  rw [← hh a s ha (hab.trans hb) hs, ← hlon] at hi'
  rw [← hh b s' (ha.trans hab) hb hs', ← hlon] at hj
  generalize (hadec s lon (apparent a)).1 = A at hX hi'
  generalize (hadec s' lon (apparent b)).1 = B at hX hj
  have hX' : |B - A - 2 * π * (1.00273790935 * d) - 2 * π * n| * c ≤ 1.5709 * (μ * (b - a) + 1e-16) + 5.5e-6 * |d| + 2e-19 :=
    (mul_le_mul_of_nonneg_left hmin (abs_nonneg _)).trans hX
  have hd : |d| ≤ (1 + 4.7e-8) * (b - a) := by
    have := abs_add_le (d - (b - a)) (b - a)
    rw [sub_add_cancel, abs_of_pos (by linarith : 0 < b - a)] at this
    linarith
  have hX2 := angle_error hc6 (by linarith) hd he hX'
  obtain ⟨w1, w2⟩ := sidereal_step (by linarith : 0 ≤ b - a) hut
  rw [abs_le] at hX2 hi' hj
  refine ⟨n + j - i, ?_, ?_⟩
  · push_cast
    linarith [hX2.1, hi'.2, hj.1]
  · push_cast
    linarith [hX2.2, hi'.1, hj.2]

/-- What C114 asks of a place is true of every place within 9 km of the wgs84 ellipsoid that is not within about a kilometer of a pole. -/
theorem C114_on_the_ground {lat lon elevation : ℝ} (hlat : |lat| ≤ 90) (hpole : 2e-4 ≤ cos (lat / 360 * (2 * π))) (he : |elevation| ≤ 9000) :
    (wgs84Au.place lat lon elevation).itrs ≠ 0 ∧ 1e-4 ≤ cos (toSpherical (wgs84Au.place lat lon elevation).itrs).2.1 := by
  have ha : (auM : ℝ) = 149597870700 := by unfold auM; norm_num
  have hau : (0 : ℝ) < auM := by rw [ha]; norm_num
  have hR : wgs84Au.radius = 6378137 / auM := rfl
  have hg : wgs84Au.Proper := ⟨by norm_num [wgs84Au, auM], by norm_num [wgs84Au]⟩
  have hE : |elevation / auM| ≤ 9000 / auM := by
    rw [abs_div, abs_of_pos hau]
    exact div_le_div_of_nonneg_right he hau.le
  have hEL : EarthLike wgs84Au (elevation / auM) := by
    refine ⟨hg, by norm_num [wgs84Au, Geoid.e2], by norm_num [wgs84Au, Geoid.e2], ?_⟩
    have := (abs_le.1 hE).1
    rw [hR, ha] at *
    linarith
  set φ := lat / 360 * tau with hφ
  set x := (wgs84Au.place lat lon elevation).itrs with hx
  have hφ2 : |φ| ≤ π / 2 := by
    rw [hφ, abs_mul, abs_div, abs_of_pos tau_pos, abs_of_pos (by norm_num : (0 : ℝ) < 360)]
    unfold tau
    nlinarith [pi_pos]
  have hl : x.length ≤ 6387137 / auM := by
    have := hg.latlon_length_le φ (lon / 360 * tau) (elevation / auM)
    rw [hR] at this
    have e : ((6378137 : ℝ) + 9000) / auM = 6378137 / auM + 9000 / auM := add_div _ _ _
    norm_num at e
    rw [e]
    exact this.trans (by linarith)
  have hN := hEL.N_ge φ
  have hxy := latlon_xy hg φ (lon / 360 * tau) (elevation / auM) (by
    have := hg.radius
    linarith) hφ2
  have hxy' : √(x.x * x.x + x.y * x.y) = (wgs84Au.curvature φ + elevation / auM) * cos φ := hxy
  have hcφ : 2e-4 ≤ cos φ := hpole
  have hr : 6378137 / auM * (59 / 60) * cos φ ≤ √(x.x * x.x + x.y * x.y) := by
    rw [hxy', ← hR]
    exact mul_le_mul_of_nonneg_right hN (by linarith)
  have hr0 : 0 < 6378137 / auM * (59 / 60) * cos φ := by
    have : 0 < cos φ := by linarith
    positivity
  have hne : x ≠ 0 := by
    intro h0
    rw [h0] at hr
    simp at hr
    linarith
  refine ⟨hne, ?_⟩
  obtain ⟨m1, m2, -⟩ := C36_meaning x
  have hc : 0 ≤ cos (toSpherical x).2.1 :=
    cos_nonneg_of_mem_Icc ⟨by linarith [(abs_le.1 (C36_range x).2.2.1).1], (abs_le.1 (C36_range x).2.2.1).2⟩
  rw [(C36_range x).1] at m1 m2
  have hs : x.x * x.x + x.y * x.y = (x.length * cos (toSpherical x).2.1) ^ 2 := by
    have h := sin_sq_add_cos_sq (toSpherical x).2.2
    generalize toSpherical x = q at *
    rw [m1, m2]
    linear_combination (x.length * cos q.2.1) ^ 2 * h
  rw [hs, Real.sqrt_sq (mul_nonneg (Vec3.length_nonneg x) hc)] at hr
  have h1 : x.length * cos (toSpherical x).2.1 ≤ 6387137 / auM * cos (toSpherical x).2.1 := mul_le_mul_of_nonneg_right hl hc
  have h2 := hr.trans h1
  have h3 : 6378137 / auM * (59 / 60) * 2e-4 ≤ 6387137 / auM * cos (toSpherical x).2.1 :=
    (mul_le_mul_of_nonneg_left hcφ (by positivity)).trans h2
  rw [ha] at h3
  linarith

/-- **C114.** `find_discrete(t0, t1, meridian_transits(ephemeris, target, topos))`, with its default settings, for a target and a place that `MovesSlowly` and
`C114_on_the_ground` describe: it stops, and what it returns are the target's passages.  At a time reported as a meridian transit (`True`) the target's
hour angle is past zero by at most 8.6e-8 radians, and at an antimeridian transit (`False`) past half a turn by as much.  Wherever in the span searched the hour angle
is zero (or within 1e-9 of it) a meridian transit is reported, from 0.04 ms before to 1.04 ms after; and likewise for half a turn.  The two kinds alternate, half
a turn apart. -/
theorem C114_meridian_transits {ts : Timescale ℝ} (hts : ts.IsBuiltin) (p : GeoPosition) (hp : p.itrs ≠ 0) (hpole : 1e-4 ≤ cos (toSpherical p.itrs).2.1)
    {apparent : ℝ → Vec3} {lo hi μ c e : ℝ} (hlo : InDailyTable lo) (hhi : InDailyTable hi) (hm : MovesSlowly ts apparent lo hi μ c) (hμ : 0 ≤ μ)
    (he : 1.5709 * μ + 6e-6 ≤ e * c) (he1 : e ≤ 0.99) (hc : 0 ≤ c) {h : ℝ → ℝ} (hh : IsHourAngle ts p apparent lo hi h) (hlong : lo + 0.001 / 86400 ≤ hi) :
    ∃ rounds events, findDiscrete lo hi (meridianTransits ts p apparent) (0.001 / 86400) 12 rounds = .ok (some events) ∧
      (∀ x ∈ events, x.2 = some true ∨ x.2 = some false) ∧
      (∀ t, (t, some true) ∈ events → PastBy 0 0 8.6e-8 (h t)) ∧
      (∀ t, (t, some false) ∈ events → PastBy π 0 8.6e-8 (h t)) ∧
      (∀ T, lo + 0.001 / 86400 ≤ T → T ≤ hi - 0.001 / 86400 → PastBy 0 (-1e-9) 1e-9 (h T) →
        ∃ t, (t, some true) ∈ events ∧ T - 4e-5 / 86400 ≤ t ∧ t ≤ T + 0.00104 / 86400) ∧
      (∀ T, lo + 0.001 / 86400 ≤ T → T ≤ hi - 0.001 / 86400 → PastBy π (-1e-9) 1e-9 (h T) →
        ∃ t, (t, some false) ∈ events ∧ T - 4e-5 / 86400 ≤ t ∧ t ≤ T + 0.00104 / 86400) ∧
      (∀ x ∈ events.zip events.tail, x.1.2 ≠ x.2.2 ∧ π - 1e-7 ≤ (6.300389 + e) * (x.2.1 - x.1.1) ∧ (6.300387 - e) * (x.2.1 - x.1.1) ≤ π + 1e-7) := by
  have hturn := C114_turning hts p hp hpole hlo hhi hm hμ he he1 hc hh
  have hc6 : 6e-6 ≤ c := by
    have : e * c ≤ 0.99 * c := mul_le_mul_of_nonneg_right he1 hc
    linarith
  have he0 : 0 ≤ e := by
    by_contra hneg
    push Not at hneg
    have := mul_nonpos_of_nonpos_of_nonneg hneg.le hc
    linarith
  have hcall : ∀ jd, lo ≤ jd → jd ≤ hi → (WestOfMeridian (h jd) → (meridianTransits ts p apparent).call jd = some true) ∧
      (¬ WestOfMeridian (h jd) → (meridianTransits ts p apparent).call jd = some false) := by
    intro jd h0 h1
    obtain ⟨s, hs⟩ := (ts.ttJd jd none).sky_defined .iau2000b
    have e1 := hh jd s h0 h1 hs
    have e2 : (meridianTransits ts p apparent).call jd =
        some (@decide (westOfMeridianAt (raOfDate s (p.at s).1) (raOfDate s (apparent jd))) (Classical.propDecidable _)) := by
      unfold meridianTransits
      simp only [hs, Option.map_some]
      rfl
    have e3 : WestOfMeridian (h jd) ↔ westOfMeridianAt (raOfDate s (p.at s).1) (raOfDate s (apparent jd)) := by
      rw [C47_meridian, e1]; rfl
    rw [e2, e3]
    constructor
    · intro h; simp [h]
    · intro h; simp [h]
  have hst : ∀ s', (meridianTransits ts p apparent).stepDays = some s' → 0 < s' := by
    intro s' hs'
    have : (0.4 : ℝ) = s' := Option.some.inj hs'
    rw [← this]; norm_num
  obtain ⟨samples, hsm, -⟩ := C16_sample_spacing lo hi (meridianTransits ts p apparent) 12 0.4 (by linarith [hlong]) rfl (by norm_num)
  obtain ⟨⟨rounds, hr⟩, hall⟩ := C17_terminates lo hi (meridianTransits ts p apparent) (0.001 / 86400) 12 (by norm_num) (by norm_num) hst samples hsm
  obtain ⟨events, hev⟩ := hall rounds hr
  obtain ⟨c1, c2, c3, c4, c5, c6⟩ := C114_search (west := some true) (east := some false) (fun t a b => (hcall t a b).1) (fun t a b => (hcall t a b).2)
    (by simp) (by norm_num) rfl (by norm_num) (by norm_num) hlong hturn (by linarith) (by linarith) (by norm_num) (by norm_num) hev
  have small : ∀ {b x : ℝ}, PastBy b 0 ((6.300389 + e) * (0.001 / 86400) + 1e-9) x → PastBy b 0 8.6e-8 x := by
    rintro b x ⟨n, n1, n2⟩
    exact ⟨n, n1, n2.trans (by linarith)⟩
  have close : ∀ {T t : ℝ}, (6.300387 - e) * (T - t) ≤ 2 * 1e-9 → (6.300387 - e) * (t - (T + 0.001 / 86400)) ≤ 2 * 1e-9 →
      T - 4e-5 / 86400 ≤ t ∧ t ≤ T + 0.00104 / 86400 := by
    intro T t h1 h2
    constructor
    · by_contra hlt
      push Not at hlt
      nlinarith
    · by_contra hlt
      push Not at hlt
      nlinarith
  refine ⟨rounds + 1, events, hev, c3, fun t ht => small (c1 t ht), fun t ht => small (c2 t ht), ?_, ?_, ?_⟩
  · intro T h0 h1 hT
    obtain ⟨t, a, b, d⟩ := c4 T h0 h1 hT
    exact ⟨t, a, close b d⟩
  · intro T h0 h1 hT
    obtain ⟨t, a, b, d⟩ := c5 T h0 h1 hT
    exact ⟨t, a, close b d⟩
  · intro x hx
    obtain ⟨a, b, d⟩ := c6 x hx
    refine ⟨a, ?_, ?_⟩
    · refine le_trans ?_ b
      linarith
    · refine d.trans ?_
      linarith

/-- A star at the equinox hardly moves on the sky of date in ten days. -/
theorem equinox_star {ts : Timescale ℝ} (hts : ts.IsBuiltin) : ∃ v : Vec3, MovesSlowly ts (fun _ => v) 2451545 2451555 0 0.9 ∧
    ∀ jd s, 2451545 ≤ jd → jd ≤ 2451555 → (ts.ttJd jd none).sky .iau2000b = some s → |sin (decOfDate s v)| ≤ 0.01 := by
  obtain ⟨s, hs⟩ := (ts.ttJd 2451545 none).sky_defined .iau2000b
  set v := s.M.transpose.mulVec ⟨1, 0, 0⟩ with hv
  have hl1 : (⟨1, 0, 0⟩ : Vec3).length = 1 := by simp [Vec3.length]
  have hMv := (isometryUpTo_M s).undo' ⟨1, 0, 0⟩
  rw [← hv, hl1, mul_one] at hMv
  have hx := (abs_x_le _).trans hMv
  simp only [Vec3.sub_x] at hx
  rw [abs_le] at hx
  have hv0 : v ≠ 0 := by
    intro h0
    rw [h0] at hx
    simp [Mat3.mulVec, Vec3.dot] at hx
    linarith [hx.1]
  have i0 : InDailyTable 2451545 := by unfold InDailyTable; norm_num
  have i1 : InDailyTable 2451555 := by unfold InDailyTable; norm_num
  have small : ∀ jd s', 2451545 ≤ jd → jd ≤ 2451555 → (ts.ttJd jd none).sky .iau2000b = some s' → |sin (decOfDate s' v)| ≤ 0.01 := by
    intro jd s' h0 h1 hs'
    have t0 : (ts.ttJd 2451545 none).tt = 2451545 := (C11_jd_reads_back ts _ 0).1
    have t1 : (ts.ttJd jd none).tt = jd := (C11_jd_reads_back ts _ 0).1
    have sin0 : |sin (decOfDate s v)| ≤ 0.001 := by
      obtain ⟨-, -, m3⟩ := C36_meaning (s.M.mulVec v)
      have hz := (abs_z_le _).trans hMv
      simp only [Vec3.sub_z, sub_zero] at hz
      rw [m3, (C36_range _).1, abs_mul, abs_of_nonneg (Vec3.length_nonneg _)] at hz
      have hl : 0.99 ≤ (s.M.mulVec v).length := by
        have := (le_abs_self _).trans (abs_x_le (s.M.mulVec v))
        linarith [hx.1]
      have e : sin (decOfDate s v) = sin (toSpherical (s.M.mulVec v)).2.1 := rfl
      rw [e]
      have := mul_le_mul_of_nonneg_right hl (abs_nonneg (sin (toSpherical (s.M.mulVec v)).2.1))
      linarith
    rcases eq_or_lt_of_le h0 with rfl | hlt
    · rw [hs, Option.some.injEq] at hs'
      rw [← hs']
      linarith
    · have k0 : InDailyTable (ts.ttJd 2451545 none).tt := by rw [t0]; exact i0
      have k1 : InDailyTable (ts.ttJd jd none).tt := by rw [t1]; exact ⟨i0.1.trans h0, h1.trans i1.2⟩
      have hda := C113_days_apart hts (t := ts.ttJd 2451545 none) (u := ts.ttJd jd none) rfl rfl ⟨rfl, rfl⟩ ⟨rfl, rfl⟩ k0 k1
      have hut := (C113_ut1_runs_on hts (t := ts.ttJd 2451545 none) (u := ts.ttJd jd none) rfl rfl rfl rfl k0 k1 (by rw [t0, t1]; exact hlt)).1
      rw [t0, t1] at hut
      generalize (ts.ttJd jd none).ut1 - (ts.ttJd 2451545 none).ut1 = d at hda hut
      have hr := (C112_hour_angle_rate hda hs hs' 0 hv0 hv0 (μ := 0) (by simp [Vec3.length])).2
      obtain ⟨-, -, -, hn⟩ := Time.sky_eq hs
      obtain ⟨-, -, -, hn'⟩ := Time.sky_eq hs'
      rw [date_dec hn, date_dec hn'] at hr
      have hd : |d| ≤ 11 := by
        rw [abs_le] at hut ⊢
        constructor <;> linarith [hut.1, hut.2]
      have hr' : |sin (decOfDate s' v) - sin (decOfDate s v)| ≤ 1.0001 * 0 + 2.6e-6 * |d| + 1e-13 := hr
      have h3 := abs_add_le (sin (decOfDate s' v) - sin (decOfDate s v)) (sin (decOfDate s v))
      rw [sub_add_cancel] at h3
      linarith
  refine ⟨v, ⟨fun _ _ _ => hv0, ?_, ?_⟩, small⟩
  · intro a b _ _ _
    have : (v.direction - v.direction).length = 0 := by simp [Vec3.length]
    rw [this]; norm_num
  · intro jd s' h0 h1 hs'
    have hsin := small jd s' h0 h1 hs'
    have hab : |decOfDate s' v| ≤ π / 2 := (C36_range (s'.M.mulVec v)).2.2.1
    have hc : 0 ≤ cos (decOfDate s' v) := cos_nonneg_of_mem_Icc (abs_le.1 hab)
    have h2 := sin_sq_add_cos_sq (decOfDate s' v)
    rw [abs_le] at hsin
    by_contra hlt
    push Not at hlt
    nlinarith [hsin.1, hsin.2]

/-- A star at the equinox, seen for ten days from a place at latitude 45°. -/
example : ∃ (ts : Timescale ℝ) (p : GeoPosition) (apparent : ℝ → Vec3) (h : ℝ → ℝ), ts.IsBuiltin ∧ p = wgs84Au.place 45 10 500 ∧ p.itrs ≠ 0 ∧
    1e-4 ≤ cos (toSpherical p.itrs).2.1 ∧ InDailyTable 2451545 ∧ InDailyTable 2451555 ∧ MovesSlowly ts apparent 2451545 2451555 0 0.9 ∧
    (1.5709 * 0 + 6e-6 : ℝ) ≤ 1e-5 * 0.9 ∧ IsHourAngle ts p apparent 2451545 2451555 h := by
  obtain ⟨ts, hts, -⟩ := builtin_exists none
  have hpl := C114_on_the_ground (lat := 45) (lon := 10) (elevation := 500) (by norm_num) (by
    rw [show (45 : ℝ) / 360 * (2 * π) = π / 4 by ring, cos_pi_div_four]
    have : (1 : ℝ) ≤ √2 := Real.one_le_sqrt.2 (by norm_num)
    linarith) (by norm_num)
  obtain ⟨v, hv, -⟩ := equinox_star hts
  have i0 : InDailyTable 2451545 := by unfold InDailyTable; norm_num
  have i1 : InDailyTable 2451555 := by unfold InDailyTable; norm_num
  refine ⟨ts, wgs84Au.place 45 10 500, fun _ => v, fun jd => ((ts.ttJd jd none).sky .iau2000b).elim 0 fun s =>
    raOfDate s ((wgs84Au.place 45 10 500).at s).1 - raOfDate s v, hts, rfl, hpl.1, hpl.2, i0, i1, hv, by norm_num, ?_⟩
  intro jd s' h0 h1 hs'
  simp only [hs', Option.elim_some]

end Skyfield
