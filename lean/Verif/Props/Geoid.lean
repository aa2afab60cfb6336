import Verif.Model.Geoid
import Verif.Lemmas.Angles
import Verif.Lemmas.Linear
import Mathlib.Tactic.NormNum
import Mathlib.Analysis.SpecialFunctions.Trigonometric.Bounds
import Mathlib.Analysis.Real.Pi.Bounds

/-
C42: geographic positions.
-/
namespace Skyfield
open Real

/-! ### Specification -/

/-- The surface of the geoid: an ellipsoid of revolution with equatorial radius `radius` and polar radius `polarRadius`. -/
def OnGeoid (g : Geoid) (p : Vec3) : Prop :=
  (p.x / g.radius) ^ 2 + (p.y / g.radius) ^ 2 + (p.z / g.polarRadius) ^ 2 = 1

/-- The unit vector of the local vertical with geodetic latitude `lat` and longitude `lon`. -/
noncomputable def vertical (lat lon : ℝ) : Vec3 := ⟨cos lat * cos lon, cos lat * sin lon, sin lat⟩

/-- The direction perpendicular to the surface at a point (the gradient of the equation in `OnGeoid`, halved). -/
noncomputable def normalAt (g : Geoid) (p : Vec3) : Vec3 :=
  ⟨p.x / g.radius ^ 2, p.y / g.radius ^ 2, p.z / g.polarRadius ^ 2⟩

/-- A geoid that looks like the Earth: flattening positive and below 1. -/
structure Geoid.Proper (g : Geoid) : Prop where
  radius : 0 < g.radius
  flattening : 1 < g.inverseFlattening

/-! ### The position built from latitude, longitude and height -/

theorem Geoid.omf2_eq (g : Geoid) (h : g.inverseFlattening ≠ 0) : g.omf2 = 1 - g.e2 := by
  unfold Geoid.omf2 Geoid.e2
  simp only
  field_simp
  ring

theorem Geoid.polar_sq (g : Geoid) (h : g.inverseFlattening ≠ 0) : g.polarRadius ^ 2 = g.radius ^ 2 * g.omf2 := by
  unfold Geoid.polarRadius Geoid.omf2
  simp only
  field_simp

theorem Geoid.Proper.omf2_pos {g : Geoid} (h : g.Proper) : 0 < g.omf2 := by
  unfold Geoid.omf2
  have := h.flattening
  have : 0 < (g.inverseFlattening - 1) / g.inverseFlattening := by
    apply div_pos <;> linarith
  positivity

theorem Geoid.Proper.omf2_lt_one {g : Geoid} (h : g.Proper) : g.omf2 < 1 := by
  have hf := h.flattening
  have h1 : (g.inverseFlattening - 1) / g.inverseFlattening < 1 := by
    rw [div_lt_one (by linarith)]; linarith
  have h2 : 0 < (g.inverseFlattening - 1) / g.inverseFlattening := by
    apply div_pos <;> linarith
  unfold Geoid.omf2
  simp only
  nlinarith

theorem Geoid.Proper.q_pos {g : Geoid} (h : g.Proper) (lat : ℝ) :
    0 < cos lat * cos lat + sin lat * sin lat * g.omf2 := by
  have h1 := h.omf2_pos
  have h2 := sin_sq_add_cos_sq lat
  by_cases hs : sin lat = 0
  · rw [hs] at h2 ⊢; nlinarith
  · have := mul_self_pos.2 hs
    have := mul_pos this h1
    nlinarith [mul_self_nonneg (cos lat)]

/-- **C42.** The position for a latitude, longitude and height is a point of the ellipsoid's surface plus the height along
the vertical; the vertical has that latitude and longitude, is perpendicular to the surface there, and points out. -/
theorem C42_position (g : Geoid) (hg : g.Proper) (lat lon h : ℝ) :
    OnGeoid g (g.latlon lat lon 0) ∧
    g.latlon lat lon h = g.latlon lat lon 0 + h • vertical lat lon ∧
    (vertical lat lon).length = 1 ∧
    ∃ k : ℝ, 0 < k ∧ normalAt g (g.latlon lat lon 0) = k • vertical lat lon := by
  have hi : g.inverseFlattening ≠ 0 := by have := hg.flattening; linarith
  have ha := hg.radius
  have hb : g.polarRadius ^ 2 = g.radius ^ 2 * g.omf2 := g.polar_sq hi
  have ho := hg.omf2_pos
  have hq := hg.q_pos lat
  have hs := Real.sqrt_pos.2 hq
  have hsq := Real.mul_self_sqrt hq.le
  refine ⟨?_, ?_, ?_, ?_⟩
  · unfold OnGeoid Geoid.latlon
    simp only [add_zero]
    simp only [div_pow]
    rw [hb]
    generalize hS : √(cos lat * cos lat + sin lat * sin lat * g.omf2) = S at hs hsq
    field_simp
    have h1 := sin_sq_add_cos_sq lon
    have h2 := sin_sq_add_cos_sq lat
    rw [show S ^ 2 = S * S by ring, hsq]
    linear_combination (cos lat ^ 2) * h1
  · ext <;> simp [Geoid.latlon, vertical] <;> ring
  · rw [Vec3.length_eq]
    rw [show (vertical lat lon).dot (vertical lat lon) = 1 by
      unfold vertical Vec3.dot
      simp only
      linear_combination (cos lat ^ 2) * sin_sq_add_cos_sq lon + sin_sq_add_cos_sq lat]
    exact Real.sqrt_one
  · refine ⟨1 / √(cos lat * cos lat + sin lat * sin lat * g.omf2) / g.radius, by positivity, ?_⟩
    unfold normalAt vertical Geoid.latlon
    rw [hb]
    ext <;> simp <;> field_simp

/-! ### Reading latitude, longitude and height back -/

theorem q_eq {g : Geoid} (hg : g.Proper) (lat : ℝ) :
    cos lat * cos lat + sin lat * sin lat * g.omf2 = 1 - g.e2 * sin lat * sin lat := by
  have hi : g.inverseFlattening ≠ 0 := by have := hg.flattening; linarith
  rw [g.omf2_eq hi]
  linear_combination sin_sq_add_cos_sq lat

/-- The radius of curvature in the prime vertical. -/
noncomputable def Geoid.curvature (g : Geoid) (lat : ℝ) : ℝ := g.radius / √(1 - g.e2 * sin lat * sin lat)

theorem latlon_xy {g : Geoid} (hg : g.Proper) (lat lon h : ℝ) (hN : 0 ≤ g.curvature lat + h) (hlat : |lat| ≤ π / 2) :
    √((g.latlon lat lon h).x * (g.latlon lat lon h).x + (g.latlon lat lon h).y * (g.latlon lat lon h).y) =
      (g.curvature lat + h) * cos lat := by
  have hc : 0 ≤ cos lat := by
    rw [abs_le] at hlat
    exact cos_nonneg_of_mem_Icc ⟨by linarith, hlat.2⟩
  unfold Geoid.latlon
  simp only
  rw [q_eq hg]
  have e : g.radius * (1 / √(1 - g.e2 * sin lat * sin lat)) = g.curvature lat := by unfold Geoid.curvature; ring
  rw [e]
  rw [show (g.curvature lat + h) * cos lat * cos lon * ((g.curvature lat + h) * cos lat * cos lon) +
    (g.curvature lat + h) * cos lat * sin lon * ((g.curvature lat + h) * cos lat * sin lon) =
    ((g.curvature lat + h) * cos lat) * ((g.curvature lat + h) * cos lat) by
    linear_combination ((g.curvature lat + h) * cos lat) ^ 2 * sin_sq_add_cos_sq lon]
  exact Real.sqrt_mul_self (by positivity)

theorem latlon_z {g : Geoid} (hg : g.Proper) (lat lon h : ℝ) :
    (g.latlon lat lon h).z = (g.curvature lat * (1 - g.e2) + h) * sin lat := by
  have hi : g.inverseFlattening ≠ 0 := by have := hg.flattening; linarith
  unfold Geoid.latlon
  simp only
  rw [q_eq hg, g.omf2_eq hi]
  unfold Geoid.curvature
  ring

/-- **C42.** The exact latitude is a fixed point of the latitude search, and there the height formula gives the exact
height, for every height above minus the local radius of curvature. -/
theorem C42_fixed_point (g : Geoid) (hg : g.Proper) (lat lon h : ℝ) (hN : 0 < g.curvature lat + h)
    (hlat : |lat| ≤ π / 2) :
    let p := g.latlon lat lon h
    let r := √(p.x * p.x + p.y * p.y)
    let s := g.latStep r p.z lat
    s.lat = lat ∧ √(s.hyp * s.hyp + r * r) - s.aC = h := by
  simp only
  rw [latlon_xy hg lat lon h hN.le hlat, latlon_z hg]
  unfold Geoid.latStep
  simp only
  have e : g.radius / √(1 - g.e2 * sin lat * sin lat) = g.curvature lat := rfl
  rw [e]
  have e2 : (g.curvature lat * (1 - g.e2) + h) * sin lat + g.curvature lat * (g.e2 * sin lat) =
      (g.curvature lat + h) * sin lat := by ring
  rw [e2]
  have hpi := pi_pos
  rw [abs_le] at hlat
  refine ⟨arctan2_polar hN (by linarith) (by linarith), ?_⟩
  have := hypot_polar (θ := lat) hN.le
  unfold hypot at this
  rw [add_comm, this]
  ring

/-- **C42.** The longitude is recovered exactly, in [-half turn, half turn), away from the poles. -/
theorem C42_longitude (g : Geoid) (hg : g.Proper) (lat lon h : ℝ) (hN : 0 < g.curvature lat + h)
    (hlat : |lat| < π / 2) (h0 : -π ≤ lon) (h1 : lon < π) :
    Geoid.longitudeOf (g.latlon lat lon h) = lon := by
  have hpi := pi_pos
  have hc : 0 < cos lat := by
    rw [abs_lt] at hlat
    exact cos_pos_of_mem_Ioo ⟨by linarith, hlat.2⟩
  have hx : (g.latlon lat lon h).x = ((g.curvature lat + h) * cos lat) * cos lon := by
    unfold Geoid.latlon Geoid.curvature; simp only; rw [q_eq hg]; ring
  have hy : (g.latlon lat lon h).y = ((g.curvature lat + h) * cos lat) * sin lon := by
    unfold Geoid.latlon Geoid.curvature; simp only; rw [q_eq hg]; ring
  unfold Geoid.longitudeOf
  rw [hx, hy]
  rcases h0.eq_or_lt with h0 | h0
  · -- the antimeridian: arctan2 gives +π
    rw [← h0]
    have : arctan2 ((g.curvature lat + h) * cos lat * sin (-π)) ((g.curvature lat + h) * cos lat * cos (-π)) = π := by
      have := arctan2_polar (r := (g.curvature lat + h) * cos lat) (θ := π) (by positivity) (by linarith) le_rfl
      simpa using this
    rw [this]
    have : pyMod (π - π) tau = 0 := pyMod_unique' _ 0 tau_pos le_rfl tau_pos (by simp)
    rw [this]; ring
  · rw [arctan2_polar (by positivity) h0 h1.le]
    rw [pyMod_unique' (lon - π) (-1) (x := lon + π) tau_pos (by linarith) (by unfold tau; linarith)
      (by unfold tau; push_cast; ring)]
    ring

/-- **C42.** Longitudes are always in [-half turn, half turn), and latitudes within a quarter turn. -/
theorem C42_ranges (g : Geoid) (p : Vec3) :
    |(g.latlonOf p).1| ≤ π / 2 ∧ -π ≤ (g.latlonOf p).2 ∧ (g.latlonOf p).2 < π := by
  refine ⟨?_, ?_, ?_⟩
  · exact arctan2_abs_le _ (Real.sqrt_nonneg _)
  · have := pyMod_nonneg' (arctan2 p.y p.x - π) tau_pos
    unfold Geoid.latlonOf Geoid.longitudeOf; simp only; linarith
  · have := pyMod_lt' (arctan2 p.y p.x - π) tau_pos
    have e : tau = 2 * π := rfl
    unfold Geoid.latlonOf Geoid.longitudeOf; simp only; linarith

/-! ### How close three rounds come -/

theorem angle_close {R y N φ x : ℝ} (hN : 0 < N) (hφ : |φ| ≤ π / 2) (hR : R = N * cos φ)
    (hy : 0 ≤ y * sin φ) (hne : R ≠ 0 ∨ y ≠ 0) (hx : |y - N * sin φ| ≤ N * x) (hx1 : x ≤ 0.01) :
    |arctan2 y R - φ| ≤ 1.0001 * x := by
  have hc : 0 ≤ cos φ := by
    have := hφ
    rw [abs_le] at this
    exact cos_nonneg_of_mem_Icc ⟨by linarith, this.2⟩
  have hR0 : 0 ≤ R := by rw [hR]; positivity
  set r := hypot R y with hr
  have hr0 : 0 < r := by
    rw [hr]; unfold hypot
    apply Real.sqrt_pos.2
    rcases hne with h | h
    · nlinarith [mul_self_pos.2 h, mul_self_nonneg y]
    · nlinarith [mul_self_pos.2 h, mul_self_nonneg R]
  have h1 := hypot_mul_cos_arctan2 y R
  have h2 := hypot_mul_sin_arctan2 y R
  rw [← hr] at h1 h2
  set θ := arctan2 y R with hθ
  have hθa : |θ| ≤ π / 2 := arctan2_abs_le y hR0
  have hx0 : 0 ≤ x := by
    have := (abs_nonneg (y - N * sin φ)).trans hx
    by_contra hc; push Not at hc; nlinarith
  have hRr : R ≤ r := by
    have h3 : r * r = R * R + y * y := hypot_mul_self R y
    nlinarith [mul_self_nonneg y]
  have hsin : r * N * sin (θ - φ) = R * (y - N * sin φ) := by
    rw [sin_sub]
    rw [show r * N * (sin θ * cos φ - cos θ * sin φ) = (r * sin θ) * (N * cos φ) - (r * cos θ) * (N * sin φ) by ring,
      h1, h2, ← hR]
    ring
  have hcos : 0 ≤ cos (θ - φ) := by
    have : 0 ≤ r * cos (θ - φ) := by
      rw [cos_sub, show r * (cos θ * cos φ + sin θ * sin φ) = (r * cos θ) * cos φ + (r * sin θ) * sin φ by ring, h1, h2]
      have := mul_nonneg hR0 hc
      linarith
    by_contra hcc
    push Not at hcc
    nlinarith
  -- bound on the sine
  have hs : |sin (θ - φ)| ≤ x := by
    have h3 : r * N * |sin (θ - φ)| = R * |y - N * sin φ| := by
      have := congrArg abs hsin
      rw [abs_mul, abs_mul, abs_mul, abs_of_pos hr0, abs_of_pos hN, abs_of_nonneg hR0] at this
      exact this
    have h4 : R * |y - N * sin φ| ≤ r * (N * x) :=
      mul_le_mul hRr hx (abs_nonneg _) hr0.le
    have h5 : r * N * |sin (θ - φ)| ≤ r * N * x := by rw [h3]; linarith
    exact le_of_mul_le_mul_left h5 (mul_pos hr0 hN)
  set d := |θ - φ| with hd
  have hd0 : 0 ≤ d := abs_nonneg _
  have hcd : cos d = cos (θ - φ) := by rw [hd]; exact cos_abs _
  have hpi := pi_pos
  have hdpi : d ≤ π := by
    have := abs_sub θ φ
    rw [← hd] at this
    linarith
  have hd2 : d ≤ π / 2 := by
    by_contra hcc
    push Not at hcc
    have := cos_neg_of_pi_div_two_lt_of_lt hcc (by linarith)
    rw [hcd] at this
    linarith
  have hsd : sin d = |sin (θ - φ)| := by
    have h0 : 0 ≤ sin d := sin_nonneg_of_nonneg_of_le_pi hd0 hdpi
    rw [hd]
    rcases abs_cases (θ - φ) with ⟨h, _⟩ | ⟨h, _⟩
    · rw [hd, h] at h0; rw [h, abs_of_nonneg h0]
    · rw [hd, h, sin_neg] at h0
      rw [h, sin_neg, abs_of_nonpos (by linarith)]
  rw [← hsd] at hs
  have hj := mul_le_sin hd0 hd2
  have hd3 : d ≤ 0.016 := by
    have h4 : 2 / π * d ≤ 0.01 := hj.trans (hs.trans hx1)
    have h5 : π < 3.15 := pi_lt_d2
    rw [div_mul_eq_mul_div, div_le_iff₀ hpi] at h4
    nlinarith
  rcases hd0.eq_or_lt with hz | hpos
  · rw [← hz]; positivity
  · have h6 := sin_gt_sub_cube hpos
    have h7 : d ^ 3 ≤ d * 0.000256 := by
      rw [pow_succ, mul_comm]
      exact mul_le_mul_of_nonneg_left (by nlinarith) hd0
    nlinarith

/-- `x / √(1 - e x²)` and `1 / √(1 - e x²)` change slowly. -/
theorem curve_lipschitz {e x y : ℝ} (he : 0 ≤ e) (he1 : e ≤ 0.0067) (hx : |x| ≤ 1) (hy : |y| ≤ 1) :
    |x / √(1 - e * x * x) - y / √(1 - e * y * y)| ≤ 1.011 * |x - y| ∧
    |1 / √(1 - e * x * x) - 1 / √(1 - e * y * y)| ≤ 0.0068 * |x - y| := by
  have hx2 : x * x ≤ 1 := by rw [← abs_mul_abs_self]; nlinarith [abs_nonneg x]
  have hy2 : y * y ≤ 1 := by rw [← abs_mul_abs_self]; nlinarith [abs_nonneg y]
  have bound : ∀ z : ℝ, z * z ≤ 1 → 0.9966 ≤ √(1 - e * z * z) ∧ √(1 - e * z * z) ≤ 1 ∧
      √(1 - e * z * z) * √(1 - e * z * z) = 1 - e * z * z := by
    intro z hz
    have h0 : e * z * z ≤ 0.0067 := by
      rw [mul_assoc]
      nlinarith [mul_self_nonneg z]
    have h1 : 0 ≤ e * z * z := by rw [mul_assoc]; exact mul_nonneg he (mul_self_nonneg z)
    refine ⟨?_, ?_, Real.mul_self_sqrt (by linarith)⟩
    · apply Real.le_sqrt_of_sq_le; norm_num; linarith
    · rw [Real.sqrt_le_left (by norm_num)]; linarith
  obtain ⟨hA0, hA1, hA⟩ := bound x hx2
  obtain ⟨hB0, hB1, hB⟩ := bound y hy2
  set A := √(1 - e * x * x) with hAd
  set B := √(1 - e * y * y) with hBd
  have hAp : 0 < A := by linarith
  have hBp : 0 < B := by linarith
  -- √B - √A
  have hdiff : (B - A) * (A + B) = e * (x + y) * (x - y) := by linarith
  have hxy : |x + y| ≤ 2 := by
    have := abs_add_le x y
    linarith
  have hBA : |B - A| ≤ 0.00673 * |x - y| := by
    have h1 : |B - A| * (A + B) = e * |x + y| * |x - y| := by
      have := congrArg abs hdiff
      rw [abs_mul, abs_mul, abs_mul, abs_of_pos (by linarith : 0 < A + B), abs_of_nonneg he] at this
      exact this
    have h2 : e * |x + y| * |x - y| ≤ 0.0134 * |x - y| := by
      apply mul_le_mul_of_nonneg_right _ (abs_nonneg _)
      nlinarith [abs_nonneg (x + y)]
    have h3 : |B - A| * 1.9932 ≤ |B - A| * (A + B) := mul_le_mul_of_nonneg_left (by linarith) (abs_nonneg _)
    have h4 := abs_nonneg (x - y)
    nlinarith
  have hAB : 0.9932 ≤ A * B := by nlinarith
  constructor
  · have e1 : x / A - y / B = ((x - y) * B + y * (B - A)) / (A * B) := by field_simp; ring
    rw [e1, abs_div, abs_of_pos (mul_pos hAp hBp), div_le_iff₀ (mul_pos hAp hBp)]
    have h1 : |(x - y) * B + y * (B - A)| ≤ |x - y| * B + |B - A| := by
      refine (abs_add_le _ _).trans ?_
      rw [abs_mul, abs_mul, abs_of_pos hBp]
      have := mul_le_mul_of_nonneg_right hy (abs_nonneg (B - A))
      linarith
    have h4 := abs_nonneg (x - y)
    have h5 : B + 0.00673 ≤ 1.011 * (A * B) := by nlinarith
    nlinarith [mul_le_mul_of_nonneg_left h5 h4]
  · have e1 : 1 / A - 1 / B = (B - A) / (A * B) := by field_simp
    rw [e1, abs_div, abs_of_pos (mul_pos hAp hBp), div_le_iff₀ (mul_pos hAp hBp)]
    have h4 := abs_nonneg (x - y)
    nlinarith

/-- Geoids about as flat as the Earth (both geoids of the library are), at heights from about a hundred kilometers below
the surface upward. -/
structure EarthLike (g : Geoid) (h : ℝ) : Prop where
  proper : g.Proper
  e2_nonneg : 0 ≤ g.e2
  e2_le : g.e2 ≤ 0.0067
  height : -g.radius / 60 ≤ h

theorem abs_sin_sub_le (x y : ℝ) : |sin x - sin y| ≤ |x - y| := by
  rw [sin_sub_sin, abs_mul, abs_mul]
  have h1 : |sin ((x - y) / 2)| ≤ |(x - y) / 2| := abs_sin_le_abs
  have h2 := abs_cos_le_one ((x + y) / 2)
  have h3 := abs_nonneg (sin ((x - y) / 2))
  have h4 : |(2 : ℝ)| = 2 := by norm_num
  rw [h4]
  rw [abs_div, abs_of_pos (by norm_num : (0 : ℝ) < 2)] at h1
  nlinarith

section
variable {g : Geoid} {φ h : ℝ} (he : EarthLike g h) (hφ : |φ| ≤ π / 2)
include he

theorem EarthLike.curvature_ge (φ : ℝ) : g.radius ≤ g.curvature φ := by
  have hr := he.proper.radius
  have h1 : 0 ≤ g.e2 * sin φ * sin φ := by rw [mul_assoc]; exact mul_nonneg he.e2_nonneg (mul_self_nonneg _)
  have h2 := sin_sq_le_one φ
  have h3 : g.e2 * sin φ * sin φ ≤ 0.0067 := by
    rw [mul_assoc]; have := he.e2_le; have := he.e2_nonneg; nlinarith [sq_nonneg (sin φ)]
  unfold Geoid.curvature
  rw [le_div_iff₀ (Real.sqrt_pos.2 (by linarith))]
  have : √(1 - g.e2 * sin φ * sin φ) ≤ 1 := by rw [Real.sqrt_le_left (by norm_num)]; linarith
  nlinarith

theorem EarthLike.N_ge (φ : ℝ) : g.radius * (59 / 60) ≤ g.curvature φ + h := by
  have := he.curvature_ge φ
  have := he.height
  linarith

theorem EarthLike.Z_pos (φ : ℝ) : 0 < g.curvature φ * (1 - g.e2) + h := by
  have h1 := he.curvature_ge φ
  have h2 := he.height
  have h3 := he.e2_le
  have h4 := he.proper.radius
  nlinarith

include hφ in
/-- One round brings the latitude more than 140 times closer. -/
theorem latStep_contracts (lat : ℝ) (hs : 0 ≤ sin lat * sin φ) (hc : |lat - φ| ≤ 1) :
    let s := g.latStep ((g.curvature φ + h) * cos φ) ((g.curvature φ * (1 - g.e2) + h) * sin φ) lat
    0 ≤ sin s.lat * sin φ ∧ |s.lat - φ| ≤ 0.007 * |lat - φ| ∧
    |√(s.hyp * s.hyp + ((g.curvature φ + h) * cos φ) * ((g.curvature φ + h) * cos φ)) - s.aC - h| ≤
      0.0137 * g.radius * |lat - φ| := by
  have hr := he.proper.radius
  have hN := he.N_ge φ
  have hN0 : 0 < g.curvature φ + h := by linarith
  have hZ := he.Z_pos φ
  have hL := curve_lipschitz he.e2_nonneg he.e2_le (abs_sin_le_one lat) (abs_sin_le_one φ)
  have hsl := abs_sin_sub_le lat φ
  unfold Geoid.latStep
  simp only
  set y := (g.curvature φ * (1 - g.e2) + h) * sin φ +
    g.radius / √(1 - g.e2 * sin lat * sin lat) * (g.e2 * sin lat) with hy
  have hKnn : 0 ≤ g.radius / √(1 - g.e2 * sin lat * sin lat) * g.e2 :=
    mul_nonneg (div_nonneg hr.le (Real.sqrt_nonneg _)) he.e2_nonneg
  have hys : (g.curvature φ * (1 - g.e2) + h) * (sin φ * sin φ) ≤ y * sin φ := by
    have : y * sin φ = (g.curvature φ * (1 - g.e2) + h) * (sin φ * sin φ) +
      (g.radius / √(1 - g.e2 * sin lat * sin lat) * g.e2) * (sin lat * sin φ) := by rw [hy]; ring
    rw [this]
    have := mul_nonneg hKnn hs
    linarith
  have hys0 : 0 ≤ y * sin φ := (mul_nonneg hZ.le (mul_self_nonneg _)).trans hys
  have hne : (g.curvature φ + h) * cos φ ≠ 0 ∨ y ≠ 0 := by
    by_cases hcz : cos φ = 0
    · right
      intro hy0
      rw [hy0, zero_mul] at hys
      have h2 := sin_sq_add_cos_sq φ
      rw [hcz] at h2
      have : sin φ * sin φ = 1 := by nlinarith
      rw [this] at hys
      linarith
    · left; positivity
  have hdy : |y - (g.curvature φ + h) * sin φ| ≤ g.radius * (0.00677372 - 0.00000002) * |lat - φ| := by
    have e : y - (g.curvature φ + h) * sin φ =
        (g.radius * g.e2) * (sin lat / √(1 - g.e2 * sin lat * sin lat) - sin φ / √(1 - g.e2 * sin φ * sin φ)) := by
      rw [hy]; unfold Geoid.curvature; ring
    rw [e, abs_mul, abs_of_nonneg (mul_nonneg hr.le he.e2_nonneg)]
    have h1 := hL.1.trans (mul_le_mul_of_nonneg_left hsl (by norm_num))
    have h2 : g.radius * g.e2 ≤ g.radius * 0.0067 := mul_le_mul_of_nonneg_left he.e2_le hr.le
    have h3 := abs_nonneg (lat - φ)
    have h4 := mul_le_mul h2 h1 (abs_nonneg _) (by positivity)
    have : g.radius * 0.0067 * (1.011 * |lat - φ|) = g.radius * 0.0067737 * |lat - φ| := by ring
    rw [this] at h4
    norm_num
    norm_num at h4
    linarith
  have hang := angle_close (x := 0.00689 * |lat - φ|) hN0 hφ rfl hys0 hne (by
    refine hdy.trans ?_
    have h3 := abs_nonneg (lat - φ)
    have : g.radius * (0.00677372 - 0.00000002) ≤ (g.curvature φ + h) * 0.00689 := by nlinarith
    calc g.radius * (0.00677372 - 0.00000002) * |lat - φ| ≤ (g.curvature φ + h) * 0.00689 * |lat - φ| :=
          mul_le_mul_of_nonneg_right this h3
      _ = _ := by ring) (by nlinarith)
  refine ⟨?_, ?_, ?_⟩
  · have h2 := hypot_mul_sin_arctan2 y ((g.curvature φ + h) * cos φ)
    have h3 := hypot_nonneg ((g.curvature φ + h) * cos φ) y
    by_contra hcc
    push Not at hcc
    rcases h3.eq_or_lt with h4 | h4
    · rw [← h4, zero_mul] at h2
      have h5 := hypot_mul_self ((g.curvature φ + h) * cos φ) y
      rw [← h4] at h5
      rcases hne with hn | hn
      · have := mul_self_pos.2 hn; nlinarith [mul_self_nonneg y]
      · exact hn h2.symm
    · have : y * sin φ = hypot ((g.curvature φ + h) * cos φ) y * (sin (arctan2 y ((g.curvature φ + h) * cos φ)) * sin φ) := by
        rw [← mul_assoc, h2]
      rw [this] at hys0
      nlinarith
  · have h3 := abs_nonneg (lat - φ)
    nlinarith
  · -- the height
    have e1 : (g.curvature φ + h) = √(((g.curvature φ + h) * sin φ) * ((g.curvature φ + h) * sin φ) +
        ((g.curvature φ + h) * cos φ) * ((g.curvature φ + h) * cos φ)) := by
      have := hypot_polar (θ := φ) hN0.le
      unfold hypot at this
      refine this.symm.trans (congrArg _ (add_comm _ _))
    have h1 : |√(y * y + ((g.curvature φ + h) * cos φ) * ((g.curvature φ + h) * cos φ)) - (g.curvature φ + h)| ≤
        |y - (g.curvature φ + h) * sin φ| := by
      have := Vec3.abs_length_sub_le ⟨y, (g.curvature φ + h) * cos φ, 0⟩
        ⟨(g.curvature φ + h) * sin φ, (g.curvature φ + h) * cos φ, 0⟩
      have e3 : ((⟨y, (g.curvature φ + h) * cos φ, 0⟩ : Vec3) -
        ⟨(g.curvature φ + h) * sin φ, (g.curvature φ + h) * cos φ, 0⟩).length = |y - (g.curvature φ + h) * sin φ| := by
        unfold Vec3.length
        simp only [Vec3.sub_x, Vec3.sub_y, Vec3.sub_z, sub_self, mul_zero, add_zero]
        exact Real.sqrt_mul_self_eq_abs _
      rw [e3] at this
      unfold Vec3.length at this
      simp only [mul_zero, add_zero] at this
      rw [← e1] at this
      exact this
    have h2 : |g.radius / √(1 - g.e2 * sin lat * sin lat) - g.curvature φ| ≤ g.radius * (0.0068 * |lat - φ|) := by
      have e : g.radius / √(1 - g.e2 * sin lat * sin lat) - g.curvature φ =
          g.radius * (1 / √(1 - g.e2 * sin lat * sin lat) - 1 / √(1 - g.e2 * sin φ * sin φ)) := by
        unfold Geoid.curvature; ring
      rw [e, abs_mul, abs_of_pos hr]
      exact mul_le_mul_of_nonneg_left (hL.2.trans (mul_le_mul_of_nonneg_left hsl (by norm_num))) hr.le
    rw [show g.e2 * sin lat * sin lat = g.e2 * sin lat * sin lat from rfl]
    have e4 : √(y * y + ((g.curvature φ + h) * cos φ) * ((g.curvature φ + h) * cos φ)) -
        g.radius / √(1 - g.e2 * sin lat * sin lat) - h =
        (√(y * y + ((g.curvature φ + h) * cos φ) * ((g.curvature φ + h) * cos φ)) - (g.curvature φ + h)) -
        (g.radius / √(1 - g.e2 * sin lat * sin lat) - g.curvature φ) := by ring
    rw [e4]
    refine (abs_sub _ _).trans ?_
    have h5 := h1.trans hdy
    have h3 := mul_nonneg hr.le (abs_nonneg (lat - φ))
    nlinarith

end

/-- The geocentric latitude, from which the search starts, is on the right side of the equator and close. -/
theorem latStart_close {g : Geoid} {lat h : ℝ} (he : EarthLike g h) (hlat : |lat| ≤ π / 2) :
    let R := (g.curvature lat + h) * cos lat
    let z := (g.curvature lat * (1 - g.e2) + h) * sin lat
    0 ≤ sin (arctan2 z R) * sin lat ∧ |arctan2 z R - lat| ≤ 1.0001 * 0.00687 := by
  have hr := he.proper.radius
  have hN := he.N_ge lat
  have hN0 : 0 < g.curvature lat + h := by linarith
  have hZ := he.Z_pos lat
  intro R z
  have hR : R = (g.curvature lat + h) * cos lat := rfl
  have hzd : z = (g.curvature lat * (1 - g.e2) + h) * sin lat := rfl
  -- the starting value
  have hzs : 0 ≤ z * sin lat := by
    rw [hzd, mul_assoc]; exact mul_nonneg hZ.le (mul_self_nonneg _)
  have hne : R ≠ 0 ∨ z ≠ 0 := by
    by_cases hcz : cos lat = 0
    · right
      have h2 := sin_sq_add_cos_sq lat
      rw [hcz] at h2
      have : sin lat ≠ 0 := fun h0 => by rw [h0] at h2; norm_num at h2
      exact mul_ne_zero hZ.ne' this
    · left; exact mul_ne_zero hN0.ne' hcz
  have hstart : |arctan2 z R - lat| ≤ 1.0001 * 0.00687 := by
    refine angle_close hN0 hlat hR hzs hne ?_ (by norm_num)
    have e : z - (g.curvature lat + h) * sin lat = -(g.curvature lat * g.e2 * sin lat) := by rw [hzd]; ring
    rw [e, abs_neg, abs_mul]
    have h1 := abs_sin_le_one lat
    have hcu : g.curvature lat ≤ g.radius * 1.0034117 := by
      have h2 := sin_sq_le_one lat
      have h3 : g.e2 * sin lat * sin lat ≤ 0.0067 := by
        rw [mul_assoc]; have := he.e2_le; have := he.e2_nonneg; nlinarith [sq_nonneg (sin lat)]
      have h4 : 0.9966 ≤ √(1 - g.e2 * sin lat * sin lat) := by
        apply Real.le_sqrt_of_sq_le; norm_num; linarith
      unfold Geoid.curvature
      rw [div_le_iff₀ (by linarith)]
      nlinarith
    have hcu0 : 0 ≤ g.curvature lat * g.e2 := mul_nonneg (hr.le.trans (he.curvature_ge lat)) he.e2_nonneg
    rw [abs_of_nonneg hcu0]
    have h5 : g.curvature lat * g.e2 ≤ (g.radius * 1.0034117) * 0.0067 :=
      mul_le_mul hcu he.e2_le he.e2_nonneg (by positivity)
    nlinarith [abs_nonneg (sin lat)]
  have hs0 : 0 ≤ sin (arctan2 z R) * sin lat := by
    have h2 := hypot_mul_sin_arctan2 z R
    have h3 := hypot_nonneg R z
    by_contra hcc
    push Not at hcc
    rcases h3.eq_or_lt with h4 | h4
    · rw [← h4, zero_mul] at h2
      have h5 := hypot_mul_self R z
      rw [← h4] at h5
      rcases hne with hn | hn
      · have := mul_self_pos.2 hn; nlinarith [mul_self_nonneg z]
      · exact hn h2.symm
    · have : z * sin lat = hypot R z * (sin (arctan2 z R) * sin lat) := by rw [← mul_assoc, h2]
      rw [this] at hzs
      nlinarith
  exact ⟨hs0, hstart⟩

/-- The latitude after `n` rounds of the search. -/
noncomputable def Geoid.latIter (g : Geoid) (R z : ℝ) : ℕ → ℝ
  | 0 => arctan2 z R
  | n + 1 => (g.latStep R z (g.latIter R z n)).lat

/-- Each round brings the latitude more than 140 times closer. -/
theorem latIter_close {g : Geoid} {lat h : ℝ} (he : EarthLike g h) (hlat : |lat| ≤ π / 2) (n : ℕ) :
    let R := (g.curvature lat + h) * cos lat
    let z := (g.curvature lat * (1 - g.e2) + h) * sin lat
    0 ≤ sin (g.latIter R z n) * sin lat ∧ |g.latIter R z n - lat| ≤ 0.00688 * 0.007 ^ n := by
  intro R z
  induction n with
  | zero =>
    obtain ⟨h1, h2⟩ := latStart_close he hlat
    refine ⟨h1, ?_⟩
    rw [pow_zero, mul_one]
    exact h2.trans (by norm_num)
  | succ n ih =>
    have h3 : |g.latIter R z n - lat| ≤ 1 := by
      refine ih.2.trans ?_
      have : (0.007 : ℝ) ^ n ≤ 1 := pow_le_one₀ (by norm_num) (by norm_num)
      linarith
    obtain ⟨a1, b1, -⟩ := latStep_contracts he hlat _ ih.1 h3
    refine ⟨a1, b1.trans ?_⟩
    rw [pow_succ]
    linarith [ih.2]

/-- **C42.** Accuracy.  For Earth-like geoids, every latitude (poles included), every longitude, and every height from about
a hundred kilometers below the surface upward, the latitude recovered from the position is within 3e-9 radians (0.6
milliarcseconds) of the one it was built from, and the height within 5e-9 Earth radii (about 3 cm). -/
theorem C42_accuracy (g : Geoid) (lat lon h : ℝ) (he : EarthLike g h) (hlat : |lat| ≤ π / 2) :
    |(g.latlonOf (g.latlon lat lon h)).1 - lat| ≤ 3e-9 ∧
    |g.heightOf (g.latlon lat lon h) - h| ≤ 5e-9 * g.radius := by
  have hr := he.proper.radius
  have hN := he.N_ge lat
  have hN0 : 0 < g.curvature lat + h := by linarith
  have hxy := latlon_xy he.proper lat lon h hN0.le hlat
  have hz := latlon_z he.proper lat lon h
  unfold Geoid.latlonOf Geoid.heightOf Geoid.computeLatitude
  simp only
  rw [hxy, hz]
  set R := (g.curvature lat + h) * cos lat with hR
  set z := (g.curvature lat * (1 - g.e2) + h) * sin lat with hzd
  obtain ⟨s2, b2⟩ := latIter_close he hlat 2
  obtain ⟨-, b3⟩ := latIter_close he hlat 3
  rw [← hR, ← hzd] at s2 b2 b3
  obtain ⟨-, -, c3⟩ := latStep_contracts he hlat _ s2 (b2.trans (by norm_num))
  rw [← hR, ← hzd] at c3
  constructor
  · exact b3.trans (by norm_num)
  · refine c3.trans ?_
    have := mul_le_mul_of_nonneg_left b2 (mul_nonneg (by norm_num : (0 : ℝ) ≤ 0.0137) hr.le)
    norm_num at this ⊢
    linarith

/-- Non-vacuity of `C42_accuracy`: the library's two geoids, from 100 km below the surface upward. -/
theorem C42_wgs84_and_iers2010 (h : ℝ) (hh : -100000 ≤ h) : EarthLike wgs84 h ∧ EarthLike iers2010 h := by
  constructor
  · refine ⟨⟨?_, ?_⟩, ?_, ?_, ?_⟩ <;> norm_num [wgs84, Geoid.e2]
    linarith
  · refine ⟨⟨?_, ?_⟩, ?_, ?_, ?_⟩ <;> norm_num [iers2010, Geoid.e2]
    linarith

/-- **C42.** WGS84 in meters and radians: latitude to 3e-9, height to 3.2 centimeters, longitude exactly. -/
theorem C42_wgs84 (lat lon h : ℝ) (hlat : |lat| < π / 2) (h0 : -π ≤ lon) (h1 : lon < π) (hh : -100000 ≤ h) :
    |(wgs84.latlonOf (wgs84.latlon lat lon h)).1 - lat| ≤ 3e-9 ∧
    (wgs84.latlonOf (wgs84.latlon lat lon h)).2 = lon ∧
    |wgs84.heightOf (wgs84.latlon lat lon h) - h| ≤ 0.032 := by
  have he := (C42_wgs84_and_iers2010 h hh).1
  have := C42_accuracy wgs84 lat lon h he hlat.le
  have hN : 0 < wgs84.curvature lat + h := by have := he.N_ge lat; have := he.proper.radius; linarith
  refine ⟨this.1, C42_longitude wgs84 he.proper lat lon h hN hlat h0 h1, this.2.trans ?_⟩
  norm_num [wgs84]

/-- **C42.** The point below a position is on the surface of the ellipsoid. -/
theorem C42_subpoint (g : Geoid) (hg : g.Proper) (p : Vec3) : OnGeoid g (g.subpointOf p) :=
  (C42_position g hg _ _ 0).1

/-- **C42**: at sea level, a place on the equator is as far from the Earth's center as the equatorial radius says, and the poles as far as the polar
radius says. -/
theorem C42_semi_axes (g : Geoid) (h : 1 ≤ g.inverseFlattening) (lon : ℝ) :
    g.latlon 0 lon 0 = ⟨g.radius * Real.cos lon, g.radius * Real.sin lon, 0⟩ ∧
    g.latlon (π / 2) lon 0 = ⟨0, 0, g.polarRadius⟩ ∧ g.latlon (-(π / 2)) lon 0 = ⟨0, 0, -g.polarRadius⟩ := by
  have h1 : 0 ≤ 1 - 1 / g.inverseFlattening := by
    rw [sub_nonneg, div_le_one (by linarith)]
    exact h
  have ho : √g.omf2 = 1 - 1 / g.inverseFlattening := by
    have e : 1 - 1 / g.inverseFlattening = (g.inverseFlattening - 1) / g.inverseFlattening := by
      have : g.inverseFlattening ≠ 0 := by linarith
      field_simp
    rw [Geoid.omf2, ← pow_two, ← e, Real.sqrt_sq h1]
  have hq : g.omf2 * (1 / √g.omf2) = 1 - 1 / g.inverseFlattening := by
    rw [← ho]
    by_cases h0 : √g.omf2 = 0
    · rw [h0]; simp
    · have : g.omf2 = √g.omf2 * √g.omf2 := (Real.mul_self_sqrt (by
        rw [Geoid.omf2, ← pow_two]; positivity)).symm
      field_simp
      rw [pow_two, ← this]
  refine ⟨?_, ?_, ?_⟩
  · simp [Geoid.latlon]
  · simp [Geoid.latlon, Geoid.polarRadius]
    left
    simpa using hq
  · simp [Geoid.latlon, Geoid.polarRadius]
    left
    simpa using hq

/-- **C42**: the semi-axes of the two ellipsoids are the published ones, in meters. -/
theorem C42_published_axes :
    wgs84.radius = 6378137 ∧ |wgs84.polarRadius - 6356752.314245| ≤ 1e-6 ∧
    iers2010.radius = 6378136.6 ∧ |iers2010.polarRadius - 6356751.86| ≤ 1e-2 := by
  refine ⟨rfl, ?_, rfl, ?_⟩
  · rw [abs_le]; constructor <;> norm_num [wgs84, Geoid.polarRadius]
  · rw [abs_le]; constructor <;> norm_num [iers2010, Geoid.polarRadius]

end Skyfield
