import Verif.Model.Star
import Verif.Props.Spherical
import Verif.Props.TimeArith
import Mathlib.Analysis.SpecialFunctions.Trigonometric.Bounds
import Mathlib.Tactic.LinearCombination

/-
C69: stars stand and move as their catalogue entry says.
-/
namespace Skyfield
open Real

/-- Specification: an angle of `mas` milliarcseconds, in radians. -/
noncomputable def masAngle (mas : ℝ) : ℝ := mas * 1e-3 * asec2rad

/-- Specification: the Doppler factor of a star that recedes at `v` km/s. -/
noncomputable def dopplerFactor (v : ℝ) : ℝ := 1 / (1 - v * 1000 / 299792458)

/-- **C69.** Right ascension and declination come from `ra_hours` and `dec_degrees` if they are given, else from the
`Angle` objects; if either is missing, an error. -/
theorem C69_arguments (ra dec : Option ℝ) (h d : ℝ) :
    starAngles ra dec (some h) (some d) = some (h / 24 * (2 * π), d / 360 * (2 * π)) ∧
    (∀ r e, starAngles (some r) (some e) none none = some (r, e)) ∧
    (∀ e, starAngles ra (some e) (some h) none = some (h / 24 * (2 * π), e)) ∧
    (∀ r, starAngles (some r) dec none (some d) = some (r, d / 360 * (2 * π))) ∧
    (∀ x y, starAngles none x none y = none) ∧ (∀ x y, starAngles x none y none = none) := by
  refine ⟨?_, ?_, ?_, ?_, ?_, ?_⟩ <;> intros <;> simp [starAngles, angleInit, tau]
  split <;> simp

theorem usedParallax_pos {b : Bool} {q : Option ℝ} {p : ℝ} (h : usedParallax b q = some p) : 0 < p := by
  unfold usedParallax at h
  cases b <;> cases q <;> simp at h
  · split at h <;> subst h <;> [norm_num; exact not_le.1 ‹_›]
  · rw [← h]; norm_num
  · split at h <;> subst h <;> [norm_num; exact not_le.1 ‹_›]

/-- **C69.** The parallax used is the catalogue's, when positive; zero or less stands for a billionth of an arcsecond.  In
an array of stars an unknown parallax (nan) counts as zero. -/
theorem C69_parallax (b : Bool) (p : ℝ) :
    (0 < p → usedParallax b (some p) = some p) ∧ (p ≤ 0 → usedParallax b (some p) = some (1 / 1000000)) ∧
    usedParallax true none = usedParallax true (some 0) := by
  refine ⟨fun h => ?_, fun h => ?_, ?_⟩
  · cases b <;> simp [usedParallax, not_le.2 h]
  · cases b <;> simp [usedParallax, h] <;> norm_num
  · simp [usedParallax]

/-- **C69 (finding).** For a single star an unknown parallax is not replaced: its whole position is nan. -/
theorem C69_single_unknown_parallax (s : StarEntry) (h : s.parallaxMas = none) :
    starVectors false s = none ∧ ∃ v, starVectors true s = some v := by
  simp [starVectors, usedParallax, h]

theorem masAngle_pos {p : ℝ} (h : 0 < p) : 0 < masAngle p := by
  unfold masAngle asec2rad
  positivity

theorem starVectorsFor_position (s : StarEntry) (p : ℝ) :
    (starVectorsFor s p).1 = fromSpherical (1 / sin (masAngle p)) s.dec s.ra := by
  simp only [starVectorsFor, fromSpherical, masAngle]
  norm_num

/-- **C69.** At the catalogue epoch the star stands, as seen from the barycenter, at its catalogue right ascension and
declination, at the distance from which one astronomical unit subtends the parallax. -/
theorem C69_position (s : StarEntry) (p : ℝ) (hp : 0 < p) (hp' : masAngle p < π) (hdec : |s.dec| < π / 2)
    (h0 : 0 ≤ s.ra) (h1 : s.ra < 2 * π) (tiny : ℝ) (velocity : Vec3) :
    ∃ d, 0 < d ∧ d * sin (masAngle p) = 1 ∧
      toSpherical (starObserve tiny (starVectorsFor s p) s.epoch s.epoch (0, velocity)).vector = (d, s.dec, s.ra) := by
  have hs : 0 < sin (masAngle p) := sin_pos_of_pos_of_lt_pi (masAngle_pos hp) hp'
  refine ⟨1 / sin (masAngle p), by positivity, by field_simp, ?_⟩
  have e : (starObserve tiny (starVectorsFor s p) s.epoch s.epoch (0, velocity)).vector = (starVectorsFor s p).1 := by
    ext <;> simp [starObserve, lightTimeDifference, Vec3.dot]
  rw [e, starVectorsFor_position]
  exact C36_round_trip' _ _ _ (by positivity) hdec h0 h1

theorem sin_ratio {x : ℝ} (h0 : 0 < x) : |sin x / x - 1| ≤ x ^ 2 / 6 := by
  have a := sin_gt_sub_cube h0
  have b := sin_lt h0
  have e : sin x / x - 1 = -((x - sin x) / x) := by field_simp; ring
  rw [e, abs_neg, abs_of_nonneg (div_nonneg (by linarith) h0.le), div_le_iff₀ h0]
  nlinarith

/-- **C69.** A star without a usable parallax is put a gigaparsec away (2.0626·10¹⁴ au). -/
theorem C69_gigaparsec (s : StarEntry) (b : Bool) (p : ℝ) (h : p ≤ 0) (hs : s.parallaxMas = some p) :
    ∃ position velocity, starVectors b s = some (position, velocity) ∧
      2.0626e14 ≤ position.length ∧ position.length ≤ 2.0627e14 := by
  refine ⟨(starVectorsFor s (1 / 1000000)).1, (starVectorsFor s (1 / 1000000)).2, ?_, ?_⟩
  · unfold starVectors
    rw [hs, (C69_parallax b p).2.1 h]
  rw [starVectorsFor_position]
  set x := masAngle (1 / 1000000) with hx
  have hx0 : 0 < x := masAngle_pos (by norm_num)
  have hx1 : 4.8481e-15 ≤ x ∧ x ≤ 4.84814e-15 := by
    rw [hx]
    unfold masAngle asec2rad
    constructor <;> norm_num
  have h1 : x ≤ 1 := hx1.2.trans (by norm_num)
  have hu := sin_lt hx0
  have hl := sin_gt_sub_cube hx0
  have hl' : 4.8481e-15 * (1 - 1e-6) ≤ sin x := by
    have : x ^ 3 / 6 ≤ x * 1e-6 := by
      have : x ^ 2 ≤ 1 * 1e-6 := by
        rw [sq]; exact mul_le_mul h1 (hx1.2.trans (by norm_num)) hx0.le (by norm_num)
      nlinarith
    nlinarith [hx1.1]
  have hpos : 0 < sin x := lt_of_lt_of_le (by norm_num) hl'
  rw [fromSpherical_length (by positivity)]
  constructor
  · rw [le_div_iff₀ hpos]
    nlinarith [hx1.2]
  · rw [div_le_iff₀ hpos]
    nlinarith

/-- The components of the star's velocity along east, north and outward. -/
theorem starVectorsFor_velocity (s : StarEntry) (p : ℝ) (hp : 0 < p) (hs : 0 < sin (masAngle p)) (hc : 0 < cos s.dec) :
    let P := (starVectorsFor s p).1
    let V := (starVectorsFor s p).2
    let q := sin (masAngle p) / masAngle p
    (toSphericalAndRates 0 P V).latRate = masAngle s.decMasPerYear / 365.25 * dopplerFactor s.radialKmPerS * q ∧
    (toSphericalAndRates 0 P V).lonRate * cos s.dec =
      masAngle s.raMasPerYear / 365.25 * dopplerFactor s.radialKmPerS * q ∧
    (toSphericalAndRates 0 P V).rangeRate = s.radialKmPerS * 86400 / 149597870.7 * dopplerFactor s.radialKmPerS := by
  intro P V q
  have hm := masAngle_pos hp
  set d := 1 / sin (masAngle p) with hd
  have hd0 : 0 < d := by positivity
  set k := dopplerFactor s.radialKmPerS with hk
  set c := cos s.dec with hcdef
  set sn := sin s.dec with hsn
  set ca := cos s.ra with hca
  set sa := sin s.ra with hsa
  have hc1 : sn ^ 2 + c ^ 2 = 1 := sin_sq_add_cos_sq _
  have ha1 : sa ^ 2 + ca ^ 2 = 1 := sin_sq_add_cos_sq _
  set pmr := s.raMasPerYear / (p * 365.25) * k with hpmr
  set pmd := s.decMasPerYear / (p * 365.25) * k with hpmd
  set rvl := s.radialKmPerS * 86400 / 149597870.7 * k with hrvl
  have hP : P = ⟨d * c * ca, d * c * sa, d * sn⟩ := by
    show (starVectorsFor s p).1 = _
    rw [starVectorsFor_position]
    rfl
  have hkk : (1.0 : ℝ) / (1.0 - s.radialKmPerS / lightSpeed * 1000.0) = k := by
    rw [hk]
    unfold dopplerFactor lightSpeed
    norm_num
    ring
  have hau : s.radialKmPerS * daySeconds / auKm * k = rvl := by
    rw [hrvl]
    unfold daySeconds auKm
    norm_num
  have hV : V = ⟨-pmr * sa - pmd * sn * ca + rvl * c * ca, pmr * ca - pmd * sn * sa + rvl * c * sa, pmd * c + rvl * sn⟩ := by
    show (starVectorsFor s p).2 = _
    unfold starVectorsFor
    simp only
    rw [hkk, hau]
  have hx : (d * c * ca) * (d * c * ca) + (d * c * sa) * (d * c * sa) = (d * c) ^ 2 := by
    linear_combination (d * c) ^ 2 * ha1
  have hq1 : ∀ m, m / (p * 365.25) * k / d = masAngle m / 365.25 * k * q := by
    intro m
    show _ = masAngle m / 365.25 * k * (sin (masAngle p) / masAngle p)
    rw [hd]
    unfold masAngle at hs ⊢
    have : (asec2rad : ℝ) ≠ 0 := by unfold asec2rad; norm_num
    field_simp
  rw [hP, hV]
  refine ⟨?_, ?_, ?_⟩
  · rw [← hq1]
    simp only [toSphericalAndRates, add_zero]
    rw [hx, sqrt_sq (by positivity)]
    rw [div_eq_div_iff (by
      have : (d * c) ^ 2 + d * sn * (d * sn) = d ^ 2 := by linear_combination d ^ 2 * hc1
      rw [this]; positivity) hd0.ne', ← hpmd]
    grind
  · rw [← hq1]
    simp only [toSphericalAndRates, add_zero]
    rw [hx, ← hpmr]
    field_simp
    grind
  · simp only [toSphericalAndRates]
    have hl : (⟨d * c * ca, d * c * sa, d * sn⟩ : Vec3).length = d := by
      have := fromSpherical_length hd0.le s.dec s.ra
      exact this
    rw [hl, div_eq_iff hd0.ne']
    simp only [Vec3.dot]
    grind

/-- **C69.** Proper motion: as seen from the barycenter, at the epoch the declination changes at the catalogue's rate, the
right ascension at the catalogue's rate divided by the cosine of the declination (the catalogue's rate is along the
circle), and the distance at the catalogue's radial velocity, all times the Doppler factor; the two angular rates hold to
a relative error of a sixth of the squared parallax (below 10⁻¹¹ for every star known). -/
theorem C69_proper_motion (s : StarEntry) (p : ℝ) (hp : 0 < p) (hp' : masAngle p < π) (hdec : |s.dec| < π / 2)
    (h0 : 0 < s.ra) (h1 : s.ra < 2 * π) (tiny : ℝ) (velocity : Vec3) :
    let sight := fun t => toSpherical (starObserve tiny (starVectorsFor s p) s.epoch t (0, velocity)).vector
    let k := dopplerFactor s.radialKmPerS
    (∃ rate, HasDerivAt (fun t => (sight t).2.1) rate s.epoch ∧
      |rate - masAngle s.decMasPerYear / 365.25 * k| ≤ |masAngle s.decMasPerYear / 365.25 * k| * (masAngle p ^ 2 / 6)) ∧
    (∃ rate, HasDerivAt (fun t => (sight t).2.2) rate s.epoch ∧
      |rate * cos s.dec - masAngle s.raMasPerYear / 365.25 * k| ≤
        |masAngle s.raMasPerYear / 365.25 * k| * (masAngle p ^ 2 / 6)) ∧
    HasDerivAt (fun t => (sight t).1) (s.radialKmPerS * 86400 / 149597870.7 * k) s.epoch := by
  intro sight k
  have hm := masAngle_pos hp
  have hs : 0 < sin (masAngle p) := sin_pos_of_pos_of_lt_pi hm hp'
  have hc : 0 < cos s.dec := cos_pos_of_mem_Ioo ⟨(abs_lt.1 hdec).1, (abs_lt.1 hdec).2⟩
  obtain ⟨r1, r2, r3⟩ := starVectorsFor_velocity s p hp hs hc
  set P := (starVectorsFor s p).1 with hP
  set V := (starVectorsFor s p).2 with hV
  set r : ℝ → Vec3 := fun t => (starObserve tiny (starVectorsFor s p) s.epoch t (0, velocity)).vector with hr
  have hr' : ∀ t, r t = P + (t - s.epoch) • V := by
    intro t
    ext <;> simp [hr, starObserve, lightTimeDifference, Vec3.dot, hP, hV]
  have hr0 : r s.epoch = P := by rw [hr']; ext <;> simp
  have hmove : MovesWith r s.epoch V := by
    have key : ∀ a b : ℝ, HasDerivAt (fun t => a + (t - s.epoch) * b) b s.epoch := by
      intro a b
      have := (((hasDerivAt_id s.epoch).sub_const s.epoch).mul_const b).const_add a
      simpa using this
    refine ⟨?_, ?_, ?_⟩
    · have : (fun t => (r t).x) = fun t => P.x + (t - s.epoch) * V.x := by funext t; rw [hr']; simp
      rw [this]; exact key _ _
    · have : (fun t => (r t).y) = fun t => P.y + (t - s.epoch) * V.y := by funext t; rw [hr']; simp
      rw [this]; exact key _ _
    · have : (fun t => (r t).z) = fun t => P.z + (t - s.epoch) * V.z := by funext t; rw [hr']; simp
      rw [this]; exact key _ _
  have hPs : P = fromSpherical (1 / sin (masAngle p)) s.dec s.ra := starVectorsFor_position s p
  have hd : 0 < 1 / sin (masAngle p) := by positivity
  have hxy : P.x ≠ 0 ∨ P.y ≠ 0 := by
    by_contra hcon
    push Not at hcon
    have hh := fromSpherical_hypot hd.le hdec.le s.ra
    rw [← hPs, hcon.1, hcon.2] at hh
    have : (0 : ℝ) < 1 / sin (masAngle p) * cos s.dec := by positivity
    rw [← hh] at this
    simp [hypot] at this
  have hne : ¬ (P.y = 0 ∧ 0 ≤ P.x) := by
    rintro ⟨hy, hx⟩
    rw [hPs] at hy hx
    simp only [fromSpherical] at hy hx
    have hk : 0 < 1 / sin (masAngle p) * cos s.dec := by positivity
    have hsin : sin s.ra = 0 := by
      rcases mul_eq_zero.1 hy with h | h
      · exact absurd h hk.ne'
      · exact h
    have hcos : 0 ≤ cos s.ra := nonneg_of_mul_nonneg_right hx hk
    have : s.ra = π := by
      have h2 : sin (s.ra - π) = 0 := by rw [sin_sub_pi, hsin, neg_zero]
      have := (sin_eq_zero_iff_of_lt_of_lt (by linarith) (by linarith)).1 h2
      linarith
    rw [this, cos_pi] at hcos
    norm_num at hcos
  have hP0 : P ≠ 0 := by
    intro h
    rw [h] at hxy
    simp at hxy
  have q := sin_ratio hm
  have fin : ∀ a : ℝ, |a * (sin (masAngle p) / masAngle p) - a| ≤ |a| * (masAngle p ^ 2 / 6) := by
    intro a
    rw [show a * (sin (masAngle p) / masAngle p) - a = a * (sin (masAngle p) / masAngle p - 1) by ring, abs_mul]
    exact mul_le_mul_of_nonneg_left q (abs_nonneg _)
  refine ⟨⟨_, C57_lat_rate r s.epoch V hmove (by rw [hr0]; exact hxy), ?_⟩,
    ⟨_, (C57_lon_rate r s.epoch V hmove (by rw [hr0]; exact hxy)).1 (by rw [hr0]; exact hne), ?_⟩, ?_⟩
  · rw [hr0, r1]; exact fin _
  · rw [hr0, r2]; exact fin _
  · have := C57_range_rate r s.epoch V hmove (by rw [hr0]; exact hP0)
    rw [hr0, r3] at this
    exact this

/-- **C69.** At every time and for every observer, the star stands on the straight line it follows from its position at
the epoch with its constant velocity, less the observer's position; the moment along the line is the time of observation
corrected by the time light saves (or loses) by meeting the observer rather than the barycenter, to within the stated
curvature of the wave front; the light time is the distance over the speed of light. -/
theorem C69_straight_line (star observer : Vec3 × Vec3) (epoch tdb : ℝ) (h : observer.1.length < star.1.length) :
    ∃ dt, (starObserve 0 star epoch tdb observer).vector = star.1 + (tdb + dt - epoch) • star.2 - observer.1 ∧
      0 ≤ dt * cAuDay - (star.1.length - (star.1 - observer.1).length) ∧
      dt * cAuDay - (star.1.length - (star.1 - observer.1).length) ≤
        observer.1.length ^ 2 / (2 * (star.1.length - observer.1.length)) ∧
      (starObserve 0 star epoch tdb observer).lightTime * cAuDay =
        (starObserve 0 star epoch tdb observer).vector.length := by
  have hcpos : 0 < (cAuDay : ℝ) := by unfold cAuDay lightSpeed daySeconds auM; norm_num
  set P := star.1
  set O := observer.1
  have hP : 0 < P.length := (Vec3.length_nonneg O).trans_lt h
  refine ⟨lightTimeDifference 0 P O, rfl, ?_, ?_, ?_⟩
  all_goals try (simp only [starObserve]; exact div_mul_cancel₀ _ hcpos.ne')
  all_goals
    have e : lightTimeDifference 0 P O * cAuDay = P.dot O / P.length := by
      simp only [lightTimeDifference, add_zero]
      rw [div_mul_cancel₀ _ hcpos.ne', Vec3.smul_dot]
      ring
    rw [e]
    set a := P.dot O / P.length with ha
    have haP : P.dot O = a * P.length := by rw [ha]; field_simp
    set D := (P - O).length with hD
    have hD0 : 0 ≤ D := Vec3.length_nonneg _
    have hDD : D * D = P.length * P.length - 2 * (a * P.length) + O.length * O.length := by
      rw [hD, Vec3.length_mul_self, Vec3.length_mul_self, Vec3.length_mul_self, ← haP, Vec3.sub_dot, Vec3.dot_sub,
        Vec3.dot_sub, Vec3.dot_comm O P]
      ring
    have haO : |a| ≤ O.length := by
      rw [ha, abs_div, abs_of_pos hP, div_le_iff₀ hP]
      have := Vec3.abs_dot_le P O
      linarith
    have haO' := abs_le.1 haO
    have hO0 := Vec3.length_nonneg O
    have hfac : (D - (P.length - a)) * (D + (P.length - a)) = O.length * O.length - a * a := by
      linear_combination hDD
    have haa : a * a ≤ O.length * O.length := by
      rw [← abs_mul_abs_self a]
      exact mul_self_le_mul_self (abs_nonneg a) haO
    have hsum : 0 < D + (P.length - a) := by linarith
    have hy : 0 ≤ D - (P.length - a) := by
      by_contra hneg
      have := mul_neg_of_neg_of_pos (not_le.1 hneg) hsum
      linarith
  · linarith
  · rw [le_div_iff₀ (by linarith)]
    have : (D - (P.length - a)) * (P.length - O.length) ≤ (D - (P.length - a)) * (P.length - a) :=
      mul_le_mul_of_nonneg_left (by linarith) hy
    nlinarith [mul_nonneg hy hy, mul_self_nonneg a]

/-- **C69 (finding).** The velocity reported for a star has the wrong sign: it is the observer's velocity less the star's,
where every other body reports its own velocity less the observer's.  For an observer resting at the barycenter the
position reported for a star with velocity `v` changes at the rate `v` while the velocity reported is `-v`. -/
theorem C69_velocity_reversed (tiny : ℝ) (star observer : Vec3 × Vec3) (epoch t : ℝ) :
    (starObserve tiny star epoch t observer).velocity = -(star.2 - observer.2) ∧
    MovesWith (fun s => (starObserve tiny star epoch s (0, 0)).vector) t star.2 ∧
    (starObserve tiny star epoch t (0, 0)).velocity = -star.2 := by
  refine ⟨?_, ?_, ?_⟩
  · ext <;> simp [starObserve]
  · have key : ∀ a b : ℝ, HasDerivAt (fun s => a + (s - epoch) * b) b t := by
      intro a b
      have := (((hasDerivAt_id t).sub_const epoch).mul_const b).const_add a
      simpa using this
    refine ⟨?_, ?_, ?_⟩
    · simpa [starObserve, lightTimeDifference, Vec3.dot] using key star.1.x star.2.x
    · simpa [starObserve, lightTimeDifference, Vec3.dot] using key star.1.y star.2.y
    · simpa [starObserve, lightTimeDifference, Vec3.dot] using key star.1.z star.2.z
  · ext <;> simp [starObserve]

/-- Barnard's star. -/
example : ∃ s : StarEntry, ∃ p, s.parallaxMas = some p ∧ usedParallax false s.parallaxMas = some p ∧ 0 < p ∧
    masAngle p < π ∧ |s.dec| < π / 2 ∧ 0 < s.ra ∧ s.ra < 2 * π ∧ s.decMasPerYear ≠ 0 := by
  refine ⟨⟨4, 0.08, -798.71, 10337.77, some 545.4, -110.6, 2451545⟩, 545.4, rfl, ?_, by norm_num, ?_, ?_, by norm_num, ?_,
    by norm_num⟩
  · exact (C69_parallax false 545.4).1 (by norm_num)
  · unfold masAngle asec2rad
    refine lt_trans ?_ pi_gt_three
    norm_num
  · rw [abs_of_pos (by norm_num)]
    have := pi_gt_three
    norm_num
    linarith
  · have := pi_gt_three
    simp only
    linarith

/-- **C69.** A star from a catalogue of epoch `year` has as its epoch the moment that the time scale calls that year. -/
theorem C69_catalogue_epoch (ts : Timescale ℝ) (year : ℝ) : dataframeEpoch year = (ts.julianYear year).tt := by
  simp only [dataframeEpoch, Timescale.julianYear, Time.tt]
  norm_num
  ring

end Skyfield
