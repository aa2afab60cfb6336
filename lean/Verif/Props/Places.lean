import Verif.Model.Places
import Verif.Props.Geoid
import Verif.Props.Frames
import Verif.Props.Units
import Verif.Props.PeriapsisTime
import Mathlib.Topology.Order.IntermediateValue
import Mathlib.Analysis.Real.Pi.Bounds

/-
C83: every way of naming a place on Earth names the same place.
-/
namespace Skyfield
open Real

/-! ### Every position has a latitude, a longitude and a height -/

theorem EarthLike.of_height {g : Geoid} {h h' : ℝ} (he : EarthLike g h) (hh : -g.radius / 60 ≤ h') : EarthLike g h' :=
  ⟨he.proper, he.e2_nonneg, he.e2_le, hh⟩

theorem EarthLike.curvature_le {g : Geoid} {h : ℝ} (he : EarthLike g h) (φ : ℝ) : g.curvature φ ≤ g.radius * 1.0034117 := by
  have hr := he.proper.radius
  have h2 := sin_sq_le_one φ
  have h3 : g.e2 * sin φ * sin φ ≤ 0.0067 := by
    rw [mul_assoc]; have := he.e2_le; have := he.e2_nonneg; nlinarith [sq_nonneg (sin φ)]
  have h4 : 0.9966 ≤ √(1 - g.e2 * sin φ * sin φ) := by
    apply Real.le_sqrt_of_sq_le; norm_num; linarith
  unfold Geoid.curvature
  rw [div_le_iff₀ (by linarith)]
  nlinarith

theorem EarthLike.curvature_continuous {g : Geoid} {h : ℝ} (he : EarthLike g h) : Continuous g.curvature := by
  unfold Geoid.curvature
  refine continuous_const.div (by fun_prop) fun φ => ?_
  apply ne_of_gt
  apply Real.sqrt_pos.2
  have h2 := sin_sq_le_one φ
  have h3 : g.e2 * sin φ * sin φ ≤ 0.0067 := by
    rw [mul_assoc]; have := he.e2_le; have := he.e2_nonneg; nlinarith [sq_nonneg (sin φ)]
  linarith

/-- In the half plane of a meridian, north of the equator. -/
theorem exists_latitude_north {g : Geoid} {h : ℝ} (he : EarthLike g h) {R z : ℝ} (hR : 0 ≤ R) (hz : 0 ≤ z)
    (hne : 0 < R * R + z * z) :
    ∃ φ k : ℝ, 0 ≤ φ ∧ φ ≤ π / 2 ∧ 0 < k ∧ R = k * cos φ ∧ z + g.curvature φ * g.e2 * sin φ = k * sin φ ∧
      R * R + z * z ≤ k * k := by
  have hpi := pi_pos
  have hcn : ∀ φ, 0 ≤ g.curvature φ * g.e2 := fun φ =>
    mul_nonneg (he.proper.radius.le.trans (he.curvature_ge φ)) he.e2_nonneg
  rcases hR.eq_or_lt with h0 | hpos
  · have hz0 : 0 < z := by
      rcases hz.eq_or_lt with h1 | h1
      · rw [← h0, ← h1] at hne; norm_num at hne
      · exact h1
    refine ⟨π / 2, z + g.curvature (π / 2) * g.e2, by positivity, le_rfl, ?_, ?_, ?_, ?_⟩
    · have := hcn (π / 2); linarith
    · rw [cos_pi_div_two, mul_zero, ← h0]
    · rw [sin_pi_div_two]; ring
    · have := hcn (π / 2)
      rw [← h0]; nlinarith
  · set f : ℝ → ℝ := fun φ => R * sin φ - (z + g.curvature φ * g.e2 * sin φ) * cos φ with hf
    have hcont : Continuous f := by
      have := he.curvature_continuous
      rw [hf]; fun_prop
    have h1 : f 0 ≤ 0 := by rw [hf]; simp; exact hz
    have h2 : 0 ≤ f (π / 2) := by rw [hf]; simp; exact hR
    obtain ⟨φ, ⟨ha, hb⟩, hc⟩ := intermediate_value_Icc (by positivity : (0 : ℝ) ≤ π / 2) hcont.continuousOn
      (show (0 : ℝ) ∈ Set.Icc (f 0) (f (π / 2)) from ⟨h1, h2⟩)
    have hc : R * sin φ - (z + g.curvature φ * g.e2 * sin φ) * cos φ = 0 := hc
    have hs : 0 ≤ sin φ := sin_nonneg_of_nonneg_of_le_pi ha (by linarith)
    have hcos : 0 < cos φ := by
      rcases (cos_nonneg_of_mem_Icc ⟨by linarith, hb⟩ : 0 ≤ cos φ).eq_or_lt with h3 | h3
      · rw [← h3] at hc
        have h4 := sin_sq_add_cos_sq φ
        rw [← h3] at h4
        have h5 : sin φ = 0 := by
          have : R * sin φ = 0 := by linarith
          rcases mul_eq_zero.1 this with h6 | h6
          · linarith
          · exact h6
        rw [h5] at h4; norm_num at h4
      · exact h3
    have hy : z + g.curvature φ * g.e2 * sin φ = R / cos φ * sin φ := by
      field_simp
      linarith
    refine ⟨φ, R / cos φ, ha, hb, by positivity, by field_simp, hy, ?_⟩
    have hzy : z ≤ R / cos φ * sin φ := by
      rw [← hy]
      have := mul_nonneg (hcn φ) hs
      linarith
    have e : R / cos φ * (R / cos φ) = R * R + (R / cos φ * sin φ) * (R / cos φ * sin φ) := by
      have := sin_sq_add_cos_sq φ
      field_simp
      nlinarith
    rw [e]
    nlinarith

theorem curvature_neg (g : Geoid) (φ : ℝ) : g.curvature (-φ) = g.curvature φ := by
  unfold Geoid.curvature; rw [sin_neg]; ring_nf

theorem exists_latitude {g : Geoid} (he : EarthLike g 0) {R z : ℝ} (hR : 0 ≤ R)
    (hfar : 0.987 * g.radius ≤ √(R * R + z * z)) :
    ∃ φ h : ℝ, |φ| ≤ π / 2 ∧ EarthLike g h ∧ R = (g.curvature φ + h) * cos φ ∧
      z = (g.curvature φ * (1 - g.e2) + h) * sin φ := by
  have hr := he.proper.radius
  have hpos : 0 < √(R * R + z * z) := by nlinarith
  have hne : 0 < R * R + z * z := Real.sqrt_pos.1 hpos
  have finish : ∀ φ k : ℝ, 0 < k → R * R + z * z ≤ k * k → EarthLike g (k - g.curvature φ) := by
    intro φ k hk hkk
    apply he.of_height
    have h1 : √(R * R + z * z) ≤ k := by
      rw [Real.sqrt_le_left hk.le]; nlinarith
    have h2 := he.curvature_le φ
    nlinarith
  rcases le_total 0 z with hz | hz
  · obtain ⟨φ, k, h0, h1, hk, e1, e2, hkk⟩ := exists_latitude_north he hR hz hne
    refine ⟨φ, k - g.curvature φ, by rw [abs_of_nonneg h0]; exact h1, finish φ k hk hkk, by rw [e1]; ring, ?_⟩
    linear_combination e2
  · obtain ⟨φ, k, h0, h1, hk, e1, e2, hkk⟩ := exists_latitude_north he hR (neg_nonneg.2 hz) (by nlinarith)
    refine ⟨-φ, k - g.curvature (-φ), by rw [abs_neg, abs_of_nonneg h0]; exact h1,
      finish _ k hk (by nlinarith), by rw [e1, cos_neg]; ring, ?_⟩
    rw [sin_neg, curvature_neg]
    linear_combination -e2

theorem longitude_cos_sin (p : Vec3) :
    √(p.x * p.x + p.y * p.y) * cos (Geoid.longitudeOf p) = p.x ∧
    √(p.x * p.x + p.y * p.y) * sin (Geoid.longitudeOf p) = p.y := by
  have e : ∃ n : ℤ, Geoid.longitudeOf p = arctan2 p.y p.x - n * (2 * π) := by
    obtain ⟨n, hn⟩ := pyMod_eq_sub' (arctan2 p.y p.x - π) tau
    refine ⟨n + 1, ?_⟩
    unfold Geoid.longitudeOf
    rw [hn]; unfold tau; push_cast; ring
  obtain ⟨n, hn⟩ := e
  rw [hn, cos_sub_int_mul_two_pi, sin_sub_int_mul_two_pi]
  exact ⟨hypot_mul_cos_arctan2 p.y p.x, hypot_mul_sin_arctan2 p.y p.x⟩

/-- **C83.** Every position farther from the center of the Earth than about sixty kilometers under the surface is the
position of some latitude, longitude and height. -/
theorem C83_every_position (g : Geoid) (he : EarthLike g 0) (p : Vec3) (hp : 0.987 * g.radius ≤ p.length) :
    ∃ lat lon h : ℝ, |lat| ≤ π / 2 ∧ -π ≤ lon ∧ lon < π ∧ -g.radius / 60 ≤ h ∧ p = g.latlon lat lon h := by
  have hlen : p.length = √(√(p.x * p.x + p.y * p.y) * √(p.x * p.x + p.y * p.y) + p.z * p.z) := by
    rw [Real.mul_self_sqrt (by nlinarith [mul_self_nonneg p.x, mul_self_nonneg p.y])]
    rfl
  rw [hlen] at hp
  obtain ⟨φ, h, hφ, hE, e1, e2⟩ := exists_latitude he (Real.sqrt_nonneg _) hp
  obtain ⟨hx, hy⟩ := longitude_cos_sin p
  have hrange := C42_ranges g p
  refine ⟨φ, Geoid.longitudeOf p, h, hφ, hrange.2.1, hrange.2.2, hE.height, ?_⟩
  ext
  · rw [← hx, e1]; unfold Geoid.latlon Geoid.curvature; simp only; rw [q_eq he.proper]; ring
  · rw [← hy, e1]; unfold Geoid.latlon Geoid.curvature; simp only; rw [q_eq he.proper]; ring
  · rw [latlon_z he.proper, e2]

/-- **C83.** There is only one latitude and one height that belong to a position. -/
theorem C83_one_latitude_and_height (g : Geoid) (lat lon h lat' lon' h' : ℝ) (he : EarthLike g h) (he' : EarthLike g h')
    (hlat : |lat| ≤ π / 2) (hlat' : |lat'| ≤ π / 2) (heq : g.latlon lat lon h = g.latlon lat' lon' h') :
    lat = lat' ∧ h = h' := by
  have hr := he.proper.radius
  have hN : 0 < g.curvature lat + h := by have := he.N_ge lat; linarith
  have hN' : 0 < g.curvature lat' + h' := by have := he'.N_ge lat'; linarith
  have eR : (g.curvature lat + h) * cos lat = (g.curvature lat' + h') * cos lat' := by
    rw [← latlon_xy he.proper lat lon h hN.le hlat, ← latlon_xy he.proper lat' lon' h' hN'.le hlat', heq]
  have ez : (g.curvature lat * (1 - g.e2) + h) * sin lat = (g.curvature lat' * (1 - g.e2) + h') * sin lat' := by
    rw [← latlon_z he.proper lat lon h, ← latlon_z he.proper lat' lon' h', heq]
  have hl : lat = lat' := by
    by_contra hc
    have hd : 0 < |lat - lat'| := abs_pos.2 (sub_ne_zero.2 hc)
    obtain ⟨n, hn⟩ := exists_pow_lt_of_lt_one hd (by norm_num : (0.007 : ℝ) < 1)
    have h1 := (latIter_close he hlat n).2
    have h2 := (latIter_close he' hlat' n).2
    rw [← eR, ← ez] at h2
    have h3 := abs_sub_le lat (g.latIter ((g.curvature lat + h) * cos lat) ((g.curvature lat * (1 - g.e2) + h) * sin lat) n) lat'
    rw [abs_sub_comm] at h1
    have h4 : (0 : ℝ) < 0.007 ^ n := by positivity
    linarith
  refine ⟨hl, ?_⟩
  rw [← hl] at eR ez
  by_cases hc : cos lat = 0
  · have hs : sin lat ≠ 0 := fun h0 => by have := sin_sq_add_cos_sq lat; rw [h0, hc] at this; norm_num at this
    have := mul_right_cancel₀ hs ez
    linarith
  · have := mul_right_cancel₀ hc eR
    linarith

/-! ### Rebuilding a position from its latitude, longitude and height -/

/-- **C83.** Whatever the position, at any distance from sixty kilometers under the surface upward: the latitude, the longitude
and the height that are reported for it lead back to it, to within 5e-9 Earth radii (3.2 centimeters). -/
theorem C83_rebuild (g : Geoid) (he : EarthLike g 0) (p : Vec3) (hp : 0.987 * g.radius ≤ p.length) :
    (g.latlon (g.latlonOf p).1 (g.latlonOf p).2 (g.heightOf p) - p).length ≤ 5e-9 * g.radius := by
  have hr := he.proper.radius
  have hlen : p.length = √(√(p.x * p.x + p.y * p.y) * √(p.x * p.x + p.y * p.y) + p.z * p.z) := by
    rw [Real.mul_self_sqrt (by nlinarith [mul_self_nonneg p.x, mul_self_nonneg p.y])]
    rfl
  rw [hlen] at hp
  obtain ⟨φ, h, hφ, hE, e1, e2⟩ := exists_latitude he (Real.sqrt_nonneg _) hp
  obtain ⟨hx, hy⟩ := longitude_cos_sin p
  have b2 := (latIter_close hE hφ 2).2
  have b3 := (latIter_close hE hφ 3).2
  rw [← e1, ← e2] at b2 b3
  set R := √(p.x * p.x + p.y * p.y) with hRdef
  set l2 := g.latIter R p.z 2 with hl2
  set l3 := g.latIter R p.z 3 with hl3
  have hs : g.computeLatitude p = g.latStep R p.z l2 := rfl
  have hl3' : (g.latStep R p.z l2).lat = l3 := rfl
  have hac : (g.latStep R p.z l2).aC = g.curvature l2 := rfl
  have hhyp : (g.latStep R p.z l2).hyp = p.z + g.curvature l2 * (g.e2 * sin l2) := rfl
  set y := p.z + g.curvature l2 * (g.e2 * sin l2) with hydef
  have hl3'' : l3 = arctan2 y R := rfl
  have hht : g.heightOf p = √(y * y + R * R) - g.curvature l2 := by
    unfold Geoid.heightOf; simp only; rw [hs, hac, hhyp]
  have hll : (g.latlonOf p).1 = l3 := by unfold Geoid.latlonOf; rw [hs]; exact hl3'
  have hlo : (g.latlonOf p).2 = Geoid.longitudeOf p := rfl
  rw [hll, hlo, hht]
  have hc : √(y * y + R * R) * cos l3 = R := by
    rw [hl3'', add_comm]; exact hypot_mul_cos_arctan2 y R
  have hsn : √(y * y + R * R) * sin l3 = y := by
    rw [hl3'', add_comm]; exact hypot_mul_sin_arctan2 y R
  have key : g.latlon l3 (Geoid.longitudeOf p) (√(y * y + R * R) - g.curvature l2) - p =
      (g.curvature l3 - g.curvature l2) • vertical l3 (Geoid.longitudeOf p) +
        (g.e2 * (g.curvature l2 * sin l2 - g.curvature l3 * sin l3)) • (⟨0, 0, 1⟩ : Vec3) := by
    ext
    · simp only [Vec3.sub_x, Vec3.add_x, Vec3.smul_x, vertical]
      have : (g.latlon l3 (Geoid.longitudeOf p) (√(y * y + R * R) - g.curvature l2)).x =
          (g.curvature l3 + (√(y * y + R * R) - g.curvature l2)) * cos l3 * cos (Geoid.longitudeOf p) := by
        unfold Geoid.latlon Geoid.curvature; simp only; rw [q_eq he.proper]; ring
      rw [this]
      linear_combination cos (Geoid.longitudeOf p) * hc + hx
    · simp only [Vec3.sub_y, Vec3.add_y, Vec3.smul_y, vertical]
      have : (g.latlon l3 (Geoid.longitudeOf p) (√(y * y + R * R) - g.curvature l2)).y =
          (g.curvature l3 + (√(y * y + R * R) - g.curvature l2)) * cos l3 * sin (Geoid.longitudeOf p) := by
        unfold Geoid.latlon Geoid.curvature; simp only; rw [q_eq he.proper]; ring
      rw [this]
      linear_combination sin (Geoid.longitudeOf p) * hc + hy
    · simp only [Vec3.sub_z, Vec3.add_z, Vec3.smul_z, vertical]
      rw [latlon_z he.proper]
      linear_combination hsn + hydef
  rw [key]
  have hL := curve_lipschitz he.e2_nonneg he.e2_le (abs_sin_le_one l2) (abs_sin_le_one l3)
  have hd : |sin l2 - sin l3| ≤ 3.396e-7 := by
    refine (abs_sin_sub_le l2 l3).trans ?_
    have h1 := abs_sub_le l2 φ l3
    rw [abs_sub_comm φ l3] at h1
    norm_num at b2 b3 ⊢
    linarith
  have h1 : |g.curvature l3 - g.curvature l2| ≤ g.radius * (0.0068 * 3.396e-7) := by
    have e : g.curvature l3 - g.curvature l2 =
        -(g.radius * (1 / √(1 - g.e2 * sin l2 * sin l2) - 1 / √(1 - g.e2 * sin l3 * sin l3))) := by
      unfold Geoid.curvature; ring
    rw [e, abs_neg, abs_mul, abs_of_pos hr]
    exact mul_le_mul_of_nonneg_left (hL.2.trans (mul_le_mul_of_nonneg_left hd (by norm_num))) hr.le
  have h2 : |g.e2 * (g.curvature l2 * sin l2 - g.curvature l3 * sin l3)| ≤ 0.0067 * (g.radius * (1.011 * 3.396e-7)) := by
    have e : g.curvature l2 * sin l2 - g.curvature l3 * sin l3 =
        g.radius * (sin l2 / √(1 - g.e2 * sin l2 * sin l2) - sin l3 / √(1 - g.e2 * sin l3 * sin l3)) := by
      unfold Geoid.curvature; ring
    rw [e, abs_mul, abs_mul, abs_of_pos hr, abs_of_nonneg he.e2_nonneg]
    have h3 := mul_le_mul_of_nonneg_left (hL.1.trans (mul_le_mul_of_nonneg_left hd (by norm_num : (0:ℝ) ≤ 1.011))) hr.le
    exact mul_le_mul he.e2_le h3 (mul_nonneg hr.le (abs_nonneg _)) (by norm_num)
  refine (Vec3.length_add_le _ _).trans ?_
  rw [Vec3.length_smul, Vec3.length_smul, (C42_position g he.proper l3 (Geoid.longitudeOf p) 0).2.2.1]
  have hz1 : (⟨0, 0, 1⟩ : Vec3).length = 1 := by unfold Vec3.length; norm_num
  rw [hz1, mul_one, mul_one]
  norm_num at h1 h2 ⊢
  linarith

theorem EarthLike.length_ge {g : Geoid} {h₀ : ℝ} (he : EarthLike g h₀) (lat lon h : ℝ) :
    0.9966 * g.radius + h ≤ (g.latlon lat lon h).length := by
  have hr := he.proper.radius
  have h2 := sin_sq_le_one lat
  have hq : g.e2 * sin lat * sin lat ≤ 0.0067 := by
    rw [mul_assoc]; have := he.e2_le; have := he.e2_nonneg; nlinarith [sq_nonneg (sin lat)]
  have h4 : 0.9966 ≤ √(1 - g.e2 * sin lat * sin lat) := by
    apply Real.le_sqrt_of_sq_le; norm_num; linarith
  have hd := Vec3.dot_le (g.latlon lat lon h) (vertical lat lon)
  rw [(C42_position g he.proper lat lon h).2.2.1, mul_one] at hd
  refine le_trans ?_ hd
  have hx : (g.latlon lat lon h).x = ((g.curvature lat + h) * cos lat) * cos lon := by
    unfold Geoid.latlon Geoid.curvature; simp only; rw [q_eq he.proper]; ring
  have hy : (g.latlon lat lon h).y = ((g.curvature lat + h) * cos lat) * sin lon := by
    unfold Geoid.latlon Geoid.curvature; simp only; rw [q_eq he.proper]; ring
  have e : (g.latlon lat lon h).dot (vertical lat lon) = g.radius * √(1 - g.e2 * sin lat * sin lat) + h := by
    unfold Vec3.dot
    rw [hx, hy, latlon_z he.proper]
    have h5 : g.curvature lat * (1 - g.e2 * sin lat * sin lat) = g.radius * √(1 - g.e2 * sin lat * sin lat) := by
      unfold Geoid.curvature
      have h6 : √(1 - g.e2 * sin lat * sin lat) ≠ 0 := by linarith
      have h7 := Real.mul_self_sqrt (by linarith : 0 ≤ 1 - g.e2 * sin lat * sin lat)
      nth_rw 2 [← h7]
      field_simp
    simp only [vertical]
    linear_combination h5 + (g.curvature lat + h) * sin_sq_add_cos_sq lat +
      (g.curvature lat + h) * cos lat ^ 2 * sin_sq_add_cos_sq lon
  rw [e]
  nlinarith

/-! ### Positions and places -/

theorem itrs_up_to (t : SkyTime) : IsometryUpTo 2e-14 (itrsRotation t) := (C35_frames t 0 0 0 0).2.2.2.1

/-- **C83.** `geographic_position_of(position)`: a place whose position at that time is the position it was made from, with a latitude
from -90° to 90°, a longitude from -180° up to 180°, and an elevation, which together lead to the same point of the Earth to within
5e-9 Earth radii (3.2 centimeters). -/
theorem C83_geographic_position (g : Geoid) (he : EarthLike g 0) (t : SkyTime) (xyz : Vec3)
    (hp : 0.988 * g.radius ≤ xyz.length) :
    ∃ q, g.geographicPositionOf 399 t xyz = .ok q ∧ q.geoid = g ∧
      ((q.at t).1 - xyz).length ≤ 2e-14 * xyz.length ∧
      |q.latitude| ≤ π / 2 ∧ -π ≤ q.longitude ∧ q.longitude < π ∧
      q.itrs = frameXyz itrsFrame t xyz ∧
      (g.latlon q.latitude q.longitude q.elevation - q.itrs).length ≤ 5e-9 * g.radius := by
  have hr := he.proper.radius
  have hI := itrs_up_to t
  set p := frameXyz itrsFrame t xyz with hpdef
  have hlen : 0.987 * g.radius ≤ p.length := by
    have hd := hI.dot xyz xyz
    have e : ((itrsRotation t).mulVec xyz).dot ((itrsRotation t).mulVec xyz) = p.dot p := rfl
    rw [e, ← Vec3.length_mul_self, ← Vec3.length_mul_self, abs_le] at hd
    have h1 := Vec3.length_nonneg p
    have h2 := Vec3.length_nonneg xyz
    by_contra hc
    push Not at hc
    norm_num at hd
    nlinarith [hd.1]
  have hrange := C42_ranges g p
  refine ⟨⟨g, (g.latlonOf p).1, (g.latlonOf p).2, g.heightOf p, p⟩, ?_, rfl, hI.undo xyz, hrange.1, hrange.2.1, hrange.2.2, rfl,
    C83_rebuild g he p hlen⟩
  unfold Geoid.geographicPositionOf
  rw [if_neg (by simp)]
  rfl

/-- **C83.** A place given by latitude, longitude and elevation, observed at any time, has as its geographic position that same place:
to within 5e-9 Earth radii and 2e-14 of its distance from the center. -/
theorem C83_round_trip (g : Geoid) (he : EarthLike g 0) (t : SkyTime) (latDeg lonDeg elevM : ℝ)
    (hh : -0.0078 * g.radius ≤ elevM / auM) :
    let place := g.place latDeg lonDeg elevM
    ∃ q, g.geographicPositionOf 399 t (place.at t).1 = .ok q ∧
      (g.latlon q.latitude q.longitude q.elevation - place.itrs).length ≤ 5e-9 * g.radius + 2e-14 * place.itrs.length := by
  intro place
  have hr := he.proper.radius
  have hI := itrs_up_to t
  have hlen : 0.9888 * g.radius ≤ place.itrs.length := by
    have := he.length_ge (latDeg / 360 * tau) (lonDeg / 360 * tau) (elevM / auM)
    change _ ≤ place.itrs.length at this
    linarith
  have hu := hI.undo' place.itrs
  set p := (place.at t).1 with hpd
  have hup : (frameXyz itrsFrame t p - place.itrs).length ≤ 2e-14 * place.itrs.length := hu
  have hlp : 0.988 * g.radius ≤ p.length := by
    have hd := hI.dot p p
    rw [← Vec3.length_mul_self, ← Vec3.length_mul_self, abs_le] at hd
    have e : place.itrs = (itrsRotation t).mulVec p + -((itrsRotation t).mulVec p - place.itrs) := by abel
    have h3 := Vec3.length_add_le ((itrsRotation t).mulVec p) (-((itrsRotation t).mulVec p - place.itrs))
    rw [← e, Vec3.length_neg] at h3
    have h1 := Vec3.length_nonneg ((itrsRotation t).mulVec p)
    have h2 := Vec3.length_nonneg p
    have h4 : ((itrsRotation t).mulVec p - place.itrs).length ≤ 2e-14 * place.itrs.length := hu
    by_contra hc
    push Not at hc
    have h5 : 0.9887 * g.radius ≤ ((itrsRotation t).mulVec p).length := by norm_num at h4 ⊢; linarith
    norm_num at hd
    nlinarith [hd.2]
  obtain ⟨q, h1, -, -, -, -, -, h2, h3⟩ := C83_geographic_position g he t p hlp
  refine ⟨q, h1, ?_⟩
  have e : g.latlon q.latitude q.longitude q.elevation - place.itrs =
      (g.latlon q.latitude q.longitude q.elevation - q.itrs) + (frameXyz itrsFrame t p - place.itrs) := by rw [h2]; abel
  rw [e]
  exact (Vec3.length_add_le _ _).trans (add_le_add h3 hup)

/-- **C83.** Both functions, and the old method `subpoint()`, refuse every position that is not relative to the Earth's center, and no
other; `subpoint()` is the geographic position on the IERS 2010 ellipsoid. -/
theorem C83_refused (g : Geoid) (center : ℤ) (t : SkyTime) (xyz : Vec3) :
    (center ≠ 399 ↔ g.geographicPositionOf center t xyz = .error .valueError) ∧
    (center ≠ 399 ↔ g.subpointPlace center t xyz = .error .valueError) ∧
    geocentricSubpoint center t xyz = iers2010Au.geographicPositionOf center t xyz := by
  refine ⟨?_, ?_, rfl⟩ <;> by_cases h : center = 399 <;> simp [Geoid.geographicPositionOf, Geoid.subpointPlace, h]

/-! ### The point below -/

theorem vertical_close (a b a' b' : ℝ) : (vertical a b - vertical a' b').length ≤ |a - a'| + |b - b'| := by
  have step1 : (vertical a b - vertical a' b).length ≤ |a - a'| := by
    have h := one_sub_sq_div_two_le_cos (x := a - a')
    have e : (vertical a b - vertical a' b).dot (vertical a b - vertical a' b) = 2 - 2 * cos (a - a') := by
      simp only [Vec3.dot, Vec3.sub_x, Vec3.sub_y, Vec3.sub_z, vertical]
      rw [cos_sub]
      linear_combination (cos a - cos a') ^ 2 * sin_sq_add_cos_sq b + sin_sq_add_cos_sq a + sin_sq_add_cos_sq a'
    rw [Vec3.length_eq, e, ← Real.sqrt_sq_eq_abs]
    apply Real.sqrt_le_sqrt
    linarith
  have step2 : (vertical a' b - vertical a' b').length ≤ |b - b'| := by
    have h := one_sub_sq_div_two_le_cos (x := b - b')
    have h2 := cos_le_one (b - b')
    have e : (vertical a' b - vertical a' b').dot (vertical a' b - vertical a' b') = cos a' ^ 2 * (2 - 2 * cos (b - b')) := by
      simp only [Vec3.dot, Vec3.sub_x, Vec3.sub_y, Vec3.sub_z, vertical]
      rw [cos_sub]
      linear_combination cos a' ^ 2 * sin_sq_add_cos_sq b + cos a' ^ 2 * sin_sq_add_cos_sq b'
    rw [Vec3.length_eq, e, ← Real.sqrt_sq_eq_abs]
    apply Real.sqrt_le_sqrt
    have := cos_sq_le_one a'
    nlinarith
  have e : vertical a b - vertical a' b' = (vertical a b - vertical a' b) + (vertical a' b - vertical a' b') := by abel
  rw [e]
  exact (Vec3.length_add_le _ _).trans (add_le_add step1 step2)

/-- Moving a place by small angles moves it by not much more than those angles times the radius and the height. -/
theorem latlon_close {g : Geoid} {h₀ : ℝ} (he : EarthLike g h₀) (a b a' b' h : ℝ) :
    (g.latlon a b h - g.latlon a' b' h).length ≤ (1.02 * g.radius + |h|) * (|a - a'| + |b - b'|) := by
  have hr := he.proper.radius
  have form : ∀ a b : ℝ, g.latlon a b h = (g.curvature a + h) • vertical a b +
      (-(g.e2 * (g.curvature a * sin a))) • (⟨0, 0, 1⟩ : Vec3) := by
    intro a b
    ext
    · simp only [Vec3.add_x, Vec3.smul_x, vertical]
      unfold Geoid.latlon Geoid.curvature; simp only; rw [q_eq he.proper]; ring
    · simp only [Vec3.add_y, Vec3.smul_y, vertical]
      unfold Geoid.latlon Geoid.curvature; simp only; rw [q_eq he.proper]; ring
    · simp only [Vec3.add_z, Vec3.smul_z, vertical]
      rw [latlon_z he.proper]; ring
  have e : g.latlon a b h - g.latlon a' b' h = (g.curvature a + h) • (vertical a b - vertical a' b') +
      ((g.curvature a - g.curvature a') • vertical a' b' +
        (g.e2 * (g.curvature a' * sin a' - g.curvature a * sin a)) • (⟨0, 0, 1⟩ : Vec3)) := by
    rw [form, form]
    ext <;> simp <;> ring
  rw [e]
  have hz1 : (⟨0, 0, 1⟩ : Vec3).length = 1 := by unfold Vec3.length; norm_num
  have hL := curve_lipschitz he.e2_nonneg he.e2_le (abs_sin_le_one a') (abs_sin_le_one a)
  have hd : |sin a' - sin a| ≤ |a - a'| := by rw [abs_sub_comm a a']; exact abs_sin_sub_le a' a
  have h1 : |g.curvature a - g.curvature a'| ≤ g.radius * (0.0068 * |a - a'|) := by
    have e : g.curvature a - g.curvature a' =
        -(g.radius * (1 / √(1 - g.e2 * sin a' * sin a') - 1 / √(1 - g.e2 * sin a * sin a))) := by
      unfold Geoid.curvature; ring
    rw [e, abs_neg, abs_mul, abs_of_pos hr]
    exact mul_le_mul_of_nonneg_left (hL.2.trans (mul_le_mul_of_nonneg_left hd (by norm_num))) hr.le
  have h2 : |g.e2 * (g.curvature a' * sin a' - g.curvature a * sin a)| ≤ 0.0067 * (g.radius * (1.011 * |a - a'|)) := by
    have e : g.curvature a' * sin a' - g.curvature a * sin a =
        g.radius * (sin a' / √(1 - g.e2 * sin a' * sin a') - sin a / √(1 - g.e2 * sin a * sin a)) := by
      unfold Geoid.curvature; ring
    rw [e, abs_mul, abs_mul, abs_of_pos hr, abs_of_nonneg he.e2_nonneg]
    have h3 := mul_le_mul_of_nonneg_left (hL.1.trans (mul_le_mul_of_nonneg_left hd (by norm_num : (0:ℝ) ≤ 1.011))) hr.le
    exact mul_le_mul he.e2_le h3 (mul_nonneg hr.le (abs_nonneg _)) (by norm_num)
  have h3 : |g.curvature a + h| ≤ g.radius * 1.0034117 + |h| := by
    refine (abs_add_le _ _).trans ?_
    have h4 := he.curvature_le a
    have h5 := he.curvature_ge a
    rw [abs_of_pos (by linarith)]
    linarith
  have h6 := vertical_close a b a' b'
  have h7 := mul_le_mul h3 h6 (Vec3.length_nonneg _) (by positivity)
  refine (Vec3.length_add_le _ _).trans ?_
  refine (add_le_add le_rfl (Vec3.length_add_le _ _)).trans ?_
  rw [Vec3.length_smul, Vec3.length_smul, Vec3.length_smul, (C42_position g he.proper a' b' 0).2.2.1, hz1, mul_one, mul_one]
  have h8 : 0 ≤ |b - b'| * g.radius := by positivity
  norm_num at h1 h2 h7 ⊢
  nlinarith [abs_nonneg (a - a'), abs_nonneg (b - b')]

theorem rad2deg_round_trip {x : ℝ} (hx : |x| ≤ π) : |x * Magnitude.rad2deg / 360 * tau - x| ≤ 1e-17 := by
  have h1 := pi_gt_d20
  have h2 := pi_lt_d20
  have e : x * Magnitude.rad2deg / 360 * tau - x = x * (Magnitude.rad2deg / 180 * π - 1) := by unfold tau; ring
  rw [e, abs_mul]
  have h3 : |Magnitude.rad2deg / 180 * π - 1| ≤ 3e-18 := by
    unfold Magnitude.rad2deg
    rw [abs_le]
    constructor <;> norm_num at h1 h2 ⊢ <;> linarith
  have h4 := mul_le_mul hx h3 (abs_nonneg _) pi_pos.le
  refine h4.trans ?_
  norm_num at h2 ⊢
  linarith

/-- **C83.** `subpoint_of(position)` is on the ellipsoid, directly below (or above) the position: going up from it, along the vertical
there, by the height of the position leads to the position, to within 5e-9 Earth radii (plus 2e-17 of the height, from the constant
`RAD2DEG`). -/
theorem C83_subpoint (g : Geoid) (he : EarthLike g 0) (t : SkyTime) (xyz : Vec3) (hp : 0.988 * g.radius ≤ xyz.length) :
    ∃ s q, g.subpointPlace 399 t xyz = .ok s ∧ g.geographicPositionOf 399 t xyz = .ok q ∧
      s.elevation = 0 ∧ OnGeoid g s.itrs ∧
      (s.itrs + q.elevation • vertical s.latitude s.longitude - frameXyz itrsFrame t xyz).length ≤
        5.1e-9 * g.radius + 2e-17 * |q.elevation| := by
  have hr := he.proper.radius
  obtain ⟨q, h1, -, -, h2, h3, h4, h5, h6⟩ := C83_geographic_position g he t xyz hp
  have hq : q = ⟨g, (g.computeLatitude (frameXyz itrsFrame t xyz)).lat, Geoid.longitudeOf (frameXyz itrsFrame t xyz),
      g.heightOf (frameXyz itrsFrame t xyz), frameXyz itrsFrame t xyz⟩ := by
    unfold Geoid.geographicPositionOf at h1
    rw [if_neg (by simp)] at h1
    exact (Except.ok.inj h1).symm
  refine ⟨g.place (q.latitude * Magnitude.rad2deg) (q.longitude * Magnitude.rad2deg) 0, q, ?_, h1, ?_, ?_, ?_⟩
  · unfold Geoid.subpointPlace
    rw [if_neg (by simp), hq]
  · simp [Geoid.place]
  · simp only [Geoid.place, zero_div]
    exact (C42_position g he.proper _ _ 0).1
  · set la := q.latitude * Magnitude.rad2deg / 360 * tau with hla
    set lo := q.longitude * Magnitude.rad2deg / 360 * tau with hlo
    have e0 : (g.place (q.latitude * Magnitude.rad2deg) (q.longitude * Magnitude.rad2deg) 0).itrs + q.elevation •
        vertical la lo = g.latlon la lo q.elevation := by
      rw [(C42_position g he.proper la lo q.elevation).2.1]
      simp only [Geoid.place, zero_div]
      rfl
    change ((g.place (q.latitude * Magnitude.rad2deg) (q.longitude * Magnitude.rad2deg) 0).itrs + q.elevation •
        vertical la lo - frameXyz itrsFrame t xyz).length ≤ _
    rw [e0, ← h5]
    have e : g.latlon la lo q.elevation - q.itrs = (g.latlon la lo q.elevation - g.latlon q.latitude q.longitude q.elevation) +
        (g.latlon q.latitude q.longitude q.elevation - q.itrs) := by abel
    rw [e]
    refine (Vec3.length_add_le _ _).trans ?_
    have hpi := pi_pos
    have d1 := rad2deg_round_trip (x := q.latitude) (h2.trans (by linarith))
    have d2 := rad2deg_round_trip (x := q.longitude) (abs_le.2 ⟨h3, h4.le⟩)
    have h7 := latlon_close he la lo q.latitude q.longitude q.elevation
    have h8 : |la - q.latitude| + |lo - q.longitude| ≤ 2e-17 := by norm_num at d1 d2 ⊢; linarith
    have h9 := mul_le_mul_of_nonneg_left h8 (by positivity : 0 ≤ 1.02 * g.radius + |q.elevation|)
    norm_num at h6 h9 ⊢
    linarith

/-! ### The old class `Topos` -/

/-- Specification: what the arguments for one coordinate of `Topos` mean, in degrees.  `pos` and `neg` are the capital letters of the two
directions (`N` and `S`, or `E` and `W`). -/
inductive NamesDegrees (readFloat : List Char → Option ℝ) (pos neg : Char) : Option ℝ → ToposArg → ℝ → Prop
  /-- `latitude_degrees=…`, whatever else is given -/
  | keyword (d : ℝ) (arg : ToposArg) : NamesDegrees readFloat pos neg (some d) arg d
  /-- an angle of so many turns -/
  | angle (a : AngleObj) (turns : ℝ) (h : AngleMade a turns) : NamesDegrees readFloat pos neg none (.angle a) (turns * 360)
  /-- a float -/
  | float (x : ℝ) : NamesDegrees readFloat pos neg none (.float x) x
  /-- a tuple of degrees, minutes, seconds, ...: the first entry has the sign -/
  | tuple (v : SignedNum ℝ) (cs : List (SignedNum ℝ)) : NamesDegrees readFloat pos neg none (.tuple (v :: cs))
      ((if v.neg then -1 else 1) * (v.mag + (cs.zipIdx.map fun p => p.1.mag / 60 ^ (p.2 + 1)).sum))
  /-- `"40.5 N"`: blanks, a number, the letter in either case, blanks -/
  | positive (before number after : List Char) (c : Char) (x : ℝ) (hb : ∀ c ∈ before, isStripChar c = true)
      (ha : ∀ c ∈ after, isStripChar c = true) (hn : ∀ c ∈ number, c.toUpper = c)
      (h0 : ∀ c, number.head? = some c → isStripChar c = false) (hc : c.toUpper = pos) (hx : readFloat number = some x) :
      NamesDegrees readFloat pos neg none (.text (before ++ (number ++ [c]) ++ after)) x
  /-- `"40.5 S"` -/
  | negative (before number after : List Char) (c : Char) (x : ℝ) (hb : ∀ c ∈ before, isStripChar c = true)
      (ha : ∀ c ∈ after, isStripChar c = true) (hn : ∀ c ∈ number, c.toUpper = c)
      (h0 : ∀ c, number.head? = some c → isStripChar c = false) (hc : c.toUpper = neg) (hx : readFloat number = some x) :
      NamesDegrees readFloat pos neg none (.text (before ++ (number ++ [c]) ++ after)) (-x)

theorem dropWhile_blanks {before l : List Char} (hb : ∀ c ∈ before, isStripChar c = true)
    (h0 : ∀ c, l.head? = some c → isStripChar c = false) : (before ++ l).dropWhile isStripChar = l := by
  induction before with
  | nil =>
    cases l with
    | nil => rfl
    | cons a l => rw [List.nil_append, List.dropWhile_cons_of_neg]; simp [h0 a rfl]
  | cons a before ih =>
    rw [List.cons_append, List.dropWhile_cons_of_pos (hb a (by simp))]
    exact ih fun c hc => hb c (by simp [hc])

theorem pyStrip_blanks {before number after : List Char} {c : Char} (hb : ∀ c ∈ before, isStripChar c = true)
    (ha : ∀ c ∈ after, isStripChar c = true) (h0 : ∀ c, number.head? = some c → isStripChar c = false)
    (hc : isStripChar c = false) : pyStrip (before ++ (number ++ [c]) ++ after) = number ++ [c] := by
  unfold pyStrip
  rw [List.append_assoc, dropWhile_blanks hb]
  · rw [List.reverse_append, dropWhile_blanks]
    · simp
    · simpa using ha
    · simp [hc]
  · intro d hd
    cases number with
    | nil => simp at hd; rw [← hd]; exact hc
    | cons a l => exact h0 d (by simpa using hd)

theorem not_strip_of_upper {c p : Char} (hp : isStripChar p = false) (h : c.toUpper = p) : isStripChar c = false := by
  rw [Bool.eq_false_iff]
  intro hc
  have : c.toUpper = c := by
    unfold isStripChar at hc
    simp only [Bool.or_eq_true, beq_iff_eq] at hc
    rcases hc with ((((rfl | rfl) | rfl) | rfl) | rfl) | rfl <;> decide
  rw [this] at h
  rw [h, hp] at hc
  cases hc

theorem NamesDegrees.read {readFloat : List Char → Option ℝ} {pos neg : Char} {d : Option ℝ} {arg : ToposArg} {x : ℝ}
    (h : NamesDegrees readFloat pos neg d arg x) (hpn : pos ≠ neg) (hp : isStripChar pos = false)
    (hn : isStripChar neg = false) : toposDegrees readFloat pos neg d arg = .ok x := by
  have hpi := pi_pos
  cases h with
  | keyword => rfl
  | angle a turns h =>
    have hh := h.holds
    simp only [toposDegrees, AngleObj.getDegrees]
    cases hd : a.degrees with
    | some d => simp only; rw [hh.2.2 d hd]
    | none =>
      rw [hh.1]
      simp only [tau]
      congr 1
      field_simp
  | float => rfl
  | tuple v cs =>
    obtain ⟨r, h1, h2, h3⟩ := C23_tuple v cs
    simp only [toposDegrees, h1, SignedNum.val, h2, h3]
    by_cases hv : v.neg = true
    · simp [hv]
    · simp [hv]
  | positive before number after c x hb ha hnum h0 hc hx =>
    have hs := pyStrip_blanks hb ha h0 (not_strip_of_upper hp hc)
    have hm : (number ++ [c]).map Char.toUpper = number ++ [pos] := by
      rw [List.map_append, List.map_congr_left (g := id) (by simpa using hnum)]; simp [hc]
    simp only [toposDegrees, ltude, hs, hm, List.getLast?_append, List.getLast?_singleton, List.dropLast_concat, hx]
    simp
  | negative before number after c x hb ha hnum h0 hc hx =>
    have hs := pyStrip_blanks hb ha h0 (not_strip_of_upper hn hc)
    have hm : (number ++ [c]).map Char.toUpper = number ++ [neg] := by
      rw [List.map_append, List.map_congr_left (g := id) (by simpa using hnum)]; simp [hc]
    simp only [toposDegrees, ltude, hs, hm, List.getLast?_append, List.getLast?_singleton, List.dropLast_concat, hx]
    simp [hpn.symm]

/-- **C83.** However the coordinates are given to `Topos` — degrees, an angle, a float, a tuple, a text with a direction —, the result is
the same as that of `iers2010.latlon()` with that many degrees, with north and east positive. -/
theorem C83_topos (readFloat : List Char → Option ℝ) (latitude longitude : ToposArg) (dlat dlon : Option ℝ) (elevM lat lon : ℝ)
    (h1 : NamesDegrees readFloat 'N' 'S' dlat latitude lat) (h2 : NamesDegrees readFloat 'E' 'W' dlon longitude lon) :
    topos readFloat latitude longitude dlat dlon elevM = .ok (iers2010Au.place lat lon elevM) := by
  unfold topos
  rw [h1.read (by decide) (by decide) (by decide)]
  simp only
  rw [h2.read (by decide) (by decide) (by decide)]

/-- **C83.** Without a latitude or without a longitude, or with one that is neither angle nor text nor float nor tuple (a Python `int`, for
example), there is a `TypeError`, whatever the other arguments; and a text that does not end in one of the two letters of its own
coordinate is a `ValueError`. -/
theorem C83_topos_refused (readFloat : List Char → Option ℝ) (arg : ToposArg) (d : Option ℝ) (elevM lat : ℝ) (dlat : Option ℝ)
    (latitude : ToposArg) (hlat : NamesDegrees readFloat 'N' 'S' dlat latitude lat) :
    topos readFloat .absent arg none d elevM = .error .typeError ∧ topos readFloat .other arg none d elevM = .error .typeError ∧
    topos readFloat latitude .absent dlat none elevM = .error .typeError ∧
    topos readFloat latitude .other dlat none elevM = .error .typeError ∧
    (∀ s c, isStripChar c = false → c.toUpper ≠ 'N' → c.toUpper ≠ 'S' →
      topos readFloat (.text (s ++ [c])) arg none d elevM = .error .valueError) ∧
    (∀ s c, isStripChar c = false → c.toUpper ≠ 'E' → c.toUpper ≠ 'W' →
      topos readFloat latitude (.text (s ++ [c])) dlat none elevM = .error .valueError) := by
  have hl := hlat.read (by decide) (by decide) (by decide)
  have key : ∀ (p n : Char) s c, isStripChar c = false → c.toUpper ≠ p → c.toUpper ≠ n →
      ltude readFloat p n (s ++ [c]) = .error .valueError := by
    intro p n s c hc h1 h2
    have e : ∃ l, pyStrip (s ++ [c]) = l ++ [c] := by
      unfold pyStrip
      have : ∃ l, (s ++ [c]).dropWhile isStripChar = l ++ [c] := by
        induction s with
        | nil => exact ⟨[], by simp [hc]⟩
        | cons a s ih =>
          by_cases ha : isStripChar a = true
          · rw [List.cons_append, List.dropWhile_cons_of_pos ha]; exact ih
          · exact ⟨a :: s, by rw [List.cons_append, List.dropWhile_cons_of_neg ha]⟩
      obtain ⟨l, hl⟩ := this
      refine ⟨l, ?_⟩
      rw [hl]
      simp [hc]
    obtain ⟨l, e⟩ := e
    unfold ltude
    simp [e, h1, h2]
  refine ⟨rfl, rfl, ?_, ?_, ?_, ?_⟩
  · unfold topos; rw [hl]; rfl
  · unfold topos; rw [hl]; rfl
  · intro s c hc h1 h2
    unfold topos toposDegrees
    simp only [key 'N' 'S' s c hc h1 h2]
  · intro s c hc h1 h2
    unfold topos
    rw [hl]
    unfold toposDegrees
    simp only [key 'E' 'W' s c hc h1 h2]

/-! ### `terra` and `reverse_terra` -/

theorem iers2010Au_earthLike {h : ℝ} (hh : -iers2010Au.radius / 60 ≤ h) : EarthLike iers2010Au h := by
  refine ⟨⟨?_, ?_⟩, ?_, ?_, hh⟩ <;> norm_num [iers2010Au, Geoid.e2, auM]

theorem wgs84Au_earthLike {h : ℝ} (hh : -wgs84Au.radius / 60 ≤ h) : EarthLike wgs84Au h := by
  refine ⟨⟨?_, ?_⟩, ?_, ?_, hh⟩ <;> norm_num [wgs84Au, Geoid.e2, auM]

/-- **C83.** The old function `terra` gives the place of `iers2010.latlon()`, turned by the sidereal time, and the velocity of a point
that turns with the Earth. -/
theorem C83_terra (lat lon h gast : ℝ) :
    (terra lat lon h gast).1 = (rotZ (15 * deg2rad * gast)).mulVec (iers2010Au.latlon lat lon h) ∧
    (terra lat lon h gast).2 = (angvel * dayS') • (⟨0, 0, 1⟩ : Vec3).cross (terra lat lon h gast).1 := by
  have ho : iers2010Au.omf2 = (1 - 1 / 298.25642 : ℝ) * (1 - 1 / 298.25642) := by norm_num [Geoid.omf2, iers2010Au]
  have hr : iers2010Au.radius = terraRadiusAu := rfl
  constructor
  · unfold terra Geoid.latlon
    simp only
    rw [ho, hr, sin_add, cos_add]
    ext <;> simp [rotZ, Mat3.mulVec, Vec3.dot] <;> ring
  · unfold terra
    ext <;> simp [Vec3.cross]

theorem terraLoop_succ (z r : ℝ) (n : ℕ) (s : ℝ × ℝ) :
    terraLoop z r (n + 1) s =
      (arctan2 (z + terraRadiusAu * (1 / √(1 - (2 * (1 / 298.25642) - 1 / 298.25642 * (1 / 298.25642)) * sin (terraLoop z r n s).1 ^ 2)) *
        (2 * (1 / 298.25642) - 1 / 298.25642 * (1 / 298.25642)) * sin (terraLoop z r n s).1) r,
        1 / √(1 - (2 * (1 / 298.25642) - 1 / 298.25642 * (1 / 298.25642)) * sin (terraLoop z r n s).1 ^ 2)) := by
  induction n generalizing s with
  | zero => rfl
  | succ n ih => rw [terraLoop, ih]; rfl

theorem terraLoop_latIter (z r c : ℝ) (n : ℕ) :
    (terraLoop z r n (arctan2 z r, c)).1 = iers2010Au.latIter r z n ∧
    terraRadiusAu * (terraLoop z r (n + 1) (arctan2 z r, c)).2 = iers2010Au.curvature (iers2010Au.latIter r z n) := by
  have step : ∀ n, (terraLoop z r n (arctan2 z r, c)).1 = iers2010Au.latIter r z n →
      terraRadiusAu * (terraLoop z r (n + 1) (arctan2 z r, c)).2 = iers2010Au.curvature (iers2010Au.latIter r z n) := by
    intro n h
    rw [terraLoop_succ, h]
    unfold Geoid.curvature Geoid.e2
    simp only [iers2010Au, terraRadiusAu]
    rw [mul_one_div]
    congr 3
    ring
  have first : ∀ n, (terraLoop z r n (arctan2 z r, c)).1 = iers2010Au.latIter r z n := by
    intro n
    induction n with
    | zero => rfl
    | succ n ih =>
      have h2 := step n ih
      rw [terraLoop_succ, ih] at h2 ⊢
      simp only at h2 ⊢
      rw [h2, show iers2010Au.latIter r z (n + 1) = (iers2010Au.latStep r z (iers2010Au.latIter r z n)).lat from rfl]
      unfold Geoid.latStep
      simp only
      have e : iers2010Au.radius / √(1 - iers2010Au.e2 * sin (iers2010Au.latIter r z n) * sin (iers2010Au.latIter r z n)) =
        iers2010Au.curvature (iers2010Au.latIter r z n) := rfl
      rw [e, mul_assoc]
      rfl
  exact ⟨first n, step n (first n)⟩

theorem sqrt_sub_le (y y' r : ℝ) : |√(y' * y' + r * r) - √(y * y + r * r)| ≤ |y' - y| := by
  have h1 := Vec3.length_add_le (⟨y, r, 0⟩ : Vec3) ⟨y' - y, 0, 0⟩
  have h2 := Vec3.length_add_le (⟨y', r, 0⟩ : Vec3) ⟨y - y', 0, 0⟩
  have e1 : (⟨y, r, 0⟩ : Vec3) + ⟨y' - y, 0, 0⟩ = ⟨y', r, 0⟩ := by ext <;> simp
  have e2 : (⟨y', r, 0⟩ : Vec3) + ⟨y - y', 0, 0⟩ = ⟨y, r, 0⟩ := by ext <;> simp
  have e3 : ∀ d : ℝ, (⟨d, 0, 0⟩ : Vec3).length = |d| := fun d => by
    unfold Vec3.length; simp [Real.sqrt_mul_self_eq_abs]
  have e4 : ∀ d : ℝ, (⟨d, r, 0⟩ : Vec3).length = √(d * d + r * r) := fun d => by unfold Vec3.length; simp
  rw [e1, e3, e4, e4] at h1
  rw [e2, e3, e4, e4, abs_sub_comm] at h2
  rw [abs_le]
  constructor <;> linarith

/-- **C83.** The old function `reverse_terra`, with any number of iterations from one upward, undoes `terra` everywhere but at the poles: the
longitude exactly, the latitude to within 0.00688·0.007ⁿ radians after `n` iterations and the elevation to within
600·0.007ⁿ⁻¹ meters (3 centimeters for the default of three). -/
theorem C83_reverse_terra (lat lon h gast : ℝ) (n : ℕ) (hh : -100000 / auM ≤ h) (hlat : |lat| < π / 2) (h0 : -π ≤ lon) (h1 : lon < π) :
    let q := reverseTerra (terra lat lon h gast).1 gast (n + 1)
    |q.1 - lat| ≤ 0.00688 * 0.007 ^ (n + 1) ∧ q.2.1 = lon ∧ |q.2.2 - h * auM| ≤ 600 * 0.007 ^ n := by
  intro q
  have hau : (0 : ℝ) < auM := by norm_num [auM]
  have he : EarthLike iers2010Au h := iers2010Au_earthLike (by
    refine le_trans ?_ hh
    have e : -iers2010Au.radius / 60 = (-6378136.6 / 60) / auM := by simp only [iers2010Au]; ring
    rw [e]
    apply div_le_div_of_nonneg_right _ hau.le
    norm_num)
  have hN0 : 0 < iers2010Au.curvature lat + h := by
    have := he.N_ge lat; have := he.proper.radius; linarith
  have hr := he.proper.radius
  have hc : 0 < cos lat := by
    rw [abs_lt] at hlat
    exact cos_pos_of_mem_Ioo ⟨by linarith, hlat.2⟩
  set θ := 15 * deg2rad * gast with hθ
  set A := (iers2010Au.curvature lat + h) * cos lat with hA
  have hA0 : 0 < A := mul_pos hN0 hc
  have hp : (terra lat lon h gast).1 = ⟨A * cos (θ + lon), A * sin (θ + lon), (iers2010Au.curvature lat * (1 - iers2010Au.e2) + h) * sin lat⟩ := by
    rw [(C83_terra lat lon h gast).1, ← hθ, sin_add, cos_add]
    have hx : (iers2010Au.latlon lat lon h).x = A * cos lon := by
      unfold Geoid.latlon; rw [hA]; unfold Geoid.curvature; simp only; rw [q_eq he.proper]; ring
    have hy : (iers2010Au.latlon lat lon h).y = A * sin lon := by
      unfold Geoid.latlon; rw [hA]; unfold Geoid.curvature; simp only; rw [q_eq he.proper]; ring
    have hz := latlon_z he.proper lat lon h
    ext <;> simp [rotZ, Mat3.mulVec, Vec3.dot, hx, hy, hz] <;> ring
  have hR : √(A * cos (θ + lon) * (A * cos (θ + lon)) + A * sin (θ + lon) * (A * sin (θ + lon))) = A := hypot_polar hA0.le
  set z := (iers2010Au.curvature lat * (1 - iers2010Au.e2) + h) * sin lat with hz
  have hloop := terraLoop_latIter z A 1 n
  have hloop1 := (terraLoop_latIter z A 1 (n + 1)).1
  have hq : q = (iers2010Au.latIter A z (n + 1), pyMod (arctan2 (A * sin (θ + lon)) (A * cos (θ + lon)) - θ - π) tau - π,
      (A / cos (iers2010Au.latIter A z (n + 1)) - iers2010Au.curvature (iers2010Au.latIter A z n)) * auM) := by
    simp only [q, reverseTerra, hp, hR]
    rw [hloop1, hloop.2]
  have bn := (latIter_close he hlat.le n).2
  have bn1 := (latIter_close he hlat.le (n + 1)).2
  rw [← hA, ← hz] at bn bn1
  rw [hq]
  refine ⟨bn1, ?_, ?_⟩
  · have hcs : ∃ k : ℤ, arctan2 (A * sin (θ + lon)) (A * cos (θ + lon)) = θ + lon + 2 * π * k := by
      apply TwoBody.eq_of_sin_cos
      · have := hypot_mul_cos_arctan2 (A * sin (θ + lon)) (A * cos (θ + lon))
        rw [hypot_polar hA0.le] at this
        exact mul_left_cancel₀ hA0.ne' this
      · have := hypot_mul_sin_arctan2 (A * sin (θ + lon)) (A * cos (θ + lon))
        rw [hypot_polar hA0.le] at this
        exact mul_left_cancel₀ hA0.ne' this
    obtain ⟨k, hk⟩ := hcs
    simp only
    rw [hk, pyMod_unique' (x := lon + π) _ (k - 1) tau_pos (by linarith) (by unfold tau; linarith) (by unfold tau; push_cast; ring)]
    ring
  · simp only
    set l := iers2010Au.latIter A z n with hl
    set y := z + iers2010Au.curvature l * (iers2010Au.e2 * sin l) with hy
    have hl1 : iers2010Au.latIter A z (n + 1) = arctan2 y A := rfl
    have hcl : √(y * y + A * A) * cos (arctan2 y A) = A := by
      rw [add_comm]; exact hypot_mul_cos_arctan2 y A
    have hcl0 : cos (arctan2 y A) ≠ 0 := fun h0 => by rw [h0, mul_zero] at hcl; linarith
    have e1 : A / cos (iers2010Au.latIter A z (n + 1)) = √(y * y + A * A) := by
      rw [hl1, div_eq_iff hcl0, hcl]
    set y0 := (iers2010Au.curvature lat + h) * sin lat with hy0
    have e2 : √(y0 * y0 + A * A) = iers2010Au.curvature lat + h := by
      rw [add_comm]
      exact hypot_polar hN0.le
    have hs := sqrt_sub_le y0 y A
    rw [e2] at hs
    have hL := curve_lipschitz he.e2_nonneg he.e2_le (abs_sin_le_one l) (abs_sin_le_one lat)
    have hd : |sin l - sin lat| ≤ 0.00688 * 0.007 ^ n := (abs_sin_sub_le l lat).trans bn
    set δ : ℝ := 0.00688 * 0.007 ^ n with hδ
    have h2 : |iers2010Au.curvature l - iers2010Au.curvature lat| ≤ iers2010Au.radius * (0.0068 * δ) := by
      have e : iers2010Au.curvature l - iers2010Au.curvature lat =
          iers2010Au.radius * (1 / √(1 - iers2010Au.e2 * sin l * sin l) - 1 / √(1 - iers2010Au.e2 * sin lat * sin lat)) := by
        unfold Geoid.curvature; ring
      rw [e, abs_mul, abs_of_pos hr]
      exact mul_le_mul_of_nonneg_left (hL.2.trans (mul_le_mul_of_nonneg_left hd (by norm_num))) hr.le
    have h3 : |y - y0| ≤ 0.0067 * (iers2010Au.radius * (1.011 * δ)) := by
      have e : y - y0 = iers2010Au.e2 * (iers2010Au.radius * (sin l / √(1 - iers2010Au.e2 * sin l * sin l) -
          sin lat / √(1 - iers2010Au.e2 * sin lat * sin lat))) := by
        rw [hy, hy0, hz]; unfold Geoid.curvature; ring
      rw [e, abs_mul, abs_mul, abs_of_pos hr, abs_of_nonneg he.e2_nonneg]
      have h4 := mul_le_mul_of_nonneg_left (hL.1.trans (mul_le_mul_of_nonneg_left hd (by norm_num : (0:ℝ) ≤ 1.011))) hr.le
      exact mul_le_mul he.e2_le h4 (mul_nonneg hr.le (abs_nonneg _)) (by norm_num)
    rw [e1]
    have e3 : (√(y * y + A * A) - iers2010Au.curvature l) * auM - h * auM =
        ((√(y * y + A * A) - (iers2010Au.curvature lat + h)) - (iers2010Au.curvature l - iers2010Au.curvature lat)) * auM := by ring
    rw [e3, abs_mul, abs_of_pos hau]
    have h5 := abs_sub (√(y * y + A * A) - (iers2010Au.curvature lat + h)) (iers2010Au.curvature l - iers2010Au.curvature lat)
    have hra : iers2010Au.radius * auM = 6378136.6 := by simp only [iers2010Au]; field_simp
    have h6 : |(√(y * y + A * A) - (iers2010Au.curvature lat + h)) - (iers2010Au.curvature l - iers2010Au.curvature lat)| ≤
        iers2010Au.radius * (0.0135737 * δ) := by
      refine h5.trans ?_
      have h7 := hs.trans h3
      norm_num at h7 h2 ⊢
      linarith
    refine (mul_le_mul_of_nonneg_right h6 hau.le).trans ?_
    have e4 : iers2010Au.radius * (0.0135737 * δ) * auM = 6378136.6 * (0.0135737 * δ) := by rw [← hra]; ring
    rw [e4, hδ]
    have : (0 : ℝ) < 0.007 ^ n := by positivity
    generalize (0.007 : ℝ) ^ n = e at *
    norm_num
    linarith

/-- **C83 (finding).** On the axis of the Earth `reverse_terra` reports an elevation of about minus the Earth's radius, however high the
position is above the pole. -/
theorem C83_reverse_terra_pole (z gast : ℝ) (hz : 0 < z) (n : ℕ) : (reverseTerra ⟨0, 0, z⟩ gast (n + 1)).2.2 < -6399000 := by
  have hau : (0 : ℝ) < auM := by norm_num [auM]
  have hat : ∀ y : ℝ, 0 < y → arctan2 y 0 = π / 2 := fun y hy => by
    have := arctan2_polar (r := y) (θ := π / 2) hy (by linarith [pi_pos]) (by linarith [pi_pos])
    simpa using this
  have hit : ∀ n, iers2010Au.latIter 0 z n = π / 2 := by
    intro n
    induction n with
    | zero => exact hat z hz
    | succ n ih =>
      unfold Geoid.latIter Geoid.latStep
      simp only
      rw [ih]
      apply hat
      have h1 : (0 : ℝ) < iers2010Au.radius := by norm_num [iers2010Au, auM]
      have h2 : (0 : ℝ) ≤ iers2010Au.e2 := by norm_num [iers2010Au, Geoid.e2]
      rw [sin_pi_div_two]
      positivity
  unfold reverseTerra
  simp only [mul_zero, add_zero, Real.sqrt_zero, zero_div, zero_sub]
  have h := (terraLoop_latIter z 0 1 n).2
  rw [hit] at h
  rw [h]
  unfold Geoid.curvature
  rw [sin_pi_div_two]
  have h3 : √(1 - iers2010Au.e2 * 1 * 1) < 0.9967 := by
    rw [Real.sqrt_lt' (by norm_num)]
    norm_num [iers2010Au, Geoid.e2]
  have h4 : 0 < √(1 - iers2010Au.e2 * 1 * 1) := by
    apply Real.sqrt_pos.2
    norm_num [iers2010Au, Geoid.e2]
  have e : -(iers2010Au.radius / √(1 - iers2010Au.e2 * 1 * 1)) * auM = -(6378136.6 / √(1 - iers2010Au.e2 * 1 * 1)) := by
    simp only [iers2010Au]
    field_simp
  rw [e, neg_lt_neg_iff, lt_div_iff₀ h4]
  norm_num at h3 ⊢
  linarith

/-! ### Examples -/

/-- The Moon's distance, anywhere in the sky: its geographic position exists and leads back to it. -/
example (t : SkyTime) : ∃ q, wgs84Au.geographicPositionOf 399 t ⟨0.0018, -0.0017, 0.0009⟩ = .ok q ∧
    (wgs84Au.latlon q.latitude q.longitude q.elevation - q.itrs).length ≤ 5e-9 * wgs84Au.radius := by
  obtain ⟨q, h1, -, -, -, -, -, -, h2⟩ := C83_geographic_position wgs84Au
    (wgs84Au_earthLike (by norm_num [wgs84Au, auM])) t ⟨0.0018, -0.0017, 0.0009⟩ (by
      unfold Vec3.length
      apply Real.le_sqrt_of_sq_le
      norm_num [wgs84Au, auM])
  exact ⟨q, h1, h2⟩

/-- A mountain: 46.5° north, 8° east, 4000 meters. -/
example (t : SkyTime) : ∃ q, wgs84Au.geographicPositionOf 399 t ((wgs84Au.place 46.5 8 4000).at t).1 = .ok q ∧
    (wgs84Au.latlon q.latitude q.longitude q.elevation - (wgs84Au.place 46.5 8 4000).itrs).length ≤
      5e-9 * wgs84Au.radius + 2e-14 * (wgs84Au.place 46.5 8 4000).itrs.length :=
  C83_round_trip wgs84Au (wgs84Au_earthLike (by norm_num [wgs84Au, auM])) t 46.5 8 4000 (by norm_num [wgs84Au, auM])

/-- `Topos(' 42.25 n', '71.5 W ')`. -/
example (readFloat : List Char → Option ℝ) (h1 : readFloat "42.25 ".toList = some 42.25) (h2 : readFloat "71.5 ".toList = some 71.5) :
    topos readFloat (.text " 42.25 n".toList) (.text "71.5 W ".toList) none none 0 = .ok (iers2010Au.place 42.25 (-71.5) 0) :=
  C83_topos readFloat _ _ none none 0 _ _
    (.positive [' '] "42.25 ".toList [] 'n' _ (by decide) (by decide) (by decide) (by decide) (by decide) h1)
    (.negative [] "71.5 ".toList [' '] 'W' _ (by decide) (by decide) (by decide) (by decide) (by decide) h2)

example : let q := reverseTerra (terra 0.7 (-1.2) 0.00001 5.5).1 5.5 3
    |q.1 - 0.7| ≤ 0.00688 * 0.007 ^ 3 ∧ q.2.1 = -1.2 ∧ |q.2.2 - 0.00001 * auM| ≤ 600 * 0.007 ^ 2 :=
  C83_reverse_terra 0.7 (-1.2) 0.00001 5.5 2 (by norm_num [auM])
    (by rw [abs_of_pos (by norm_num)]; linarith [pi_gt_three]) (by linarith [pi_gt_three]) (by linarith [pi_gt_three])

/-- **C83**: the ellipsoids that places stand on have the published semi-axes, in meters. -/
theorem C83_published_axes :
    wgs84Au.radius * 149597870700 = 6378137 ∧ |wgs84Au.polarRadius * 149597870700 - 6356752.3142| ≤ 1e-4 ∧
    iers2010Au.radius * 149597870700 = 6378136.6 ∧ |iers2010Au.polarRadius * 149597870700 - 6356751.86| ≤ 1e-2 := by
  refine ⟨by norm_num [wgs84Au, auM], ?_, by norm_num [iers2010Au, auM], ?_⟩
  · rw [abs_le]; constructor <;> norm_num [wgs84Au, Geoid.polarRadius, auM]
  · rw [abs_le]; constructor <;> norm_num [iers2010Au, Geoid.polarRadius, auM]

/-- **C83**: a place at sea level on the equator is 6378137 meters from the center of the Earth on WGS84. -/
theorem C83_equator (lon : ℝ) : (wgs84Au.place 0 lon 0).itrs.length * 149597870700 = 6378137 := by
  have h := (C42_semi_axes wgs84Au (by norm_num [wgs84Au]) (lon / 360 * tau)).1
  have : (wgs84Au.place 0 lon 0).itrs = wgs84Au.latlon 0 (lon / 360 * tau) 0 := by simp [Geoid.place]
  rw [this, h, Vec3.length]
  simp only
  have e : ∀ a b : ℝ, 0 ≤ a → √((a * Real.cos b) * (a * Real.cos b) + (a * Real.sin b) * (a * Real.sin b) + 0 * 0) = a := by
    intro a b ha
    rw [show (a * Real.cos b) * (a * Real.cos b) + (a * Real.sin b) * (a * Real.sin b) + 0 * 0 =
      a ^ 2 * (Real.sin b ^ 2 + Real.cos b ^ 2) by ring, Real.sin_sq_add_cos_sq, mul_one, Real.sqrt_sq ha]
  rw [e _ _ (by norm_num [wgs84Au, auM])]
  exact C83_published_axes.1

end Skyfield
