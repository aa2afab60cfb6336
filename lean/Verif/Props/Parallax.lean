import Verif.Model.RadecPositions
import Verif.Props.SkyCoordinates
import Verif.Props.Star
import Verif.Props.Places
import Verif.Props.Eclipse
import Verif.Props.SatelliteFixed
import Mathlib.Analysis.Real.Pi.Bounds

/-
C109: parallax — how far a target moves on the sky as its observer moves.
-/
namespace Skyfield
open _root_.Spec Real InnerProductGeometry RealInnerProductSpace

/-! ### The specification -/

/-- An angle given in microarcseconds, in radians. -/
noncomputable def microarcseconds (x : ℝ) : ℝ := x / 1000000 / 3600 / 360 * (2 * π)

/-- The direction of a target as seen by an observer: where target and observer are, from a common origin. -/
def sightFrom (target observer : Vec3) : Vec3 := target - observer

/-! ### Moving the observer -/

/-- Moving the observer by at most `R` moves a target at distance `D` by at most `arcsin (R / D)`. -/
theorem parallax_le {p o : Vec3} {R : ℝ} (h0 : o.length ≤ R) (h1 : R < p.length) :
    sightFrom p o ≠ 0 ∧ angleBetween (sightFrom p o) p ≤ arcsin (R / p.length) := by
  have hR : 0 ≤ R := (Vec3.length_nonneg o).trans h0
  have hp : p ≠ 0 := ne_zero_of_length (hR.trans_lt h1)
  have hs : sightFrom p o ≠ 0 := by
    intro h
    have e : p = o := by
      unfold sightFrom at h
      have hx := congrArg Vec3.x h
      have hy := congrArg Vec3.y h
      have hz := congrArg Vec3.z h
      simp only [Vec3.sub_x, Vec3.sub_y, Vec3.sub_z, Vec3.zero_x, Vec3.zero_y, Vec3.zero_z] at hx hy hz
      ext <;> linarith
    rw [e] at h1
    linarith
  refine ⟨hs, ?_⟩
  rw [C79_euclidean _ _ hs hp, ← Vec3.norm_toEuclidean]
  apply Shadow.angle_of_ball hR
  · rwa [Vec3.norm_toEuclidean]
  · unfold sightFrom
    rw [Vec3.toEuclidean_sub, sub_sub_cancel_left, norm_neg, Vec3.norm_toEuclidean]
    exact h0

/-- At a right angle the bound is reached. -/
theorem parallax_eq {p o : Vec3} (h1 : o.length < p.length) (h : (sightFrom p o).dot o = 0) :
    angleBetween (sightFrom p o) p = arcsin (o.length / p.length) := by
  have hp : p ≠ 0 := ne_zero_of_length ((Vec3.length_nonneg o).trans_lt h1)
  have hs := (parallax_le le_rfl h1).1
  have hpl := Vec3.length_pos hp
  have hsl := Vec3.length_pos hs
  rw [C79_euclidean _ _ hs hp, angle, Vec3.inner_toEuclidean, Vec3.norm_toEuclidean, Vec3.norm_toEuclidean,
    arcsin_eq_arccos (by have := Vec3.length_nonneg o; positivity)]
  congr 1
  have e1 : (sightFrom p o).dot p = (sightFrom p o).length ^ 2 := by
    rw [Vec3.length_sq]
    unfold sightFrom Vec3.dot at h ⊢
    simp only [Vec3.sub_x, Vec3.sub_y, Vec3.sub_z] at h ⊢
    linear_combination h
  have e2 : (sightFrom p o).length ^ 2 = p.length ^ 2 - o.length ^ 2 := by
    rw [Vec3.length_sq, Vec3.length_sq, Vec3.length_sq]
    unfold sightFrom Vec3.dot at h ⊢
    simp only [Vec3.sub_x, Vec3.sub_y, Vec3.sub_z] at h ⊢
    linear_combination -2 * h
  rw [e1, show 1 - (o.length / p.length) ^ 2 = ((sightFrom p o).length / p.length) ^ 2 by rw [div_pow, div_pow, e2]; field_simp,
    sqrt_sq (by positivity)]
  field_simp

/-- **C109.** Moving the observer by `o` moves a target at `p` on the sky by at most `arcsin (|o| / |p|)`, the angle under which the
way moved is seen from the target at best; and by just that much when the target then stands at a right angle to the way moved. -/
theorem C109_parallax (p o : Vec3) (h : o.length < p.length) :
    separationFrom (.single (sightFrom p o)) (.single p) = .ok [angleBetween (sightFrom p o) p] ∧
    angleBetween (sightFrom p o) p ≤ arcsin (o.length / p.length) ∧
    ((sightFrom p o).dot o = 0 → angleBetween (sightFrom p o) p = arcsin (o.length / p.length)) :=
  ⟨rfl, (parallax_le le_rfl h).2, parallax_eq h⟩

/-- **C109.** Two observers, each within `R` of the origin, see a target at `p` at most `2 arcsin (R / |p|)` apart. -/
theorem C109_two_observers (p o o' : Vec3) (R : ℝ) (ho : o.length ≤ R) (ho' : o'.length ≤ R) (h : R < p.length) :
    angleBetween (sightFrom p o) (sightFrom p o') ≤ 2 * arcsin (R / p.length) := by
  have hp : p ≠ 0 := ne_zero_of_length (((Vec3.length_nonneg o).trans ho).trans_lt h)
  obtain ⟨a, b⟩ := parallax_le ho h
  obtain ⟨a', b'⟩ := parallax_le ho' h
  have := C79_triangle _ _ _ a hp a'
  rw [C37_symmetric p] at this
  linarith

/-! ### Positions without a distance -/

theorem gigaparsec_bounds : 1 - 1e-15 ≤ gigaparsecAu * (2 * π) / (1e9 * 3600 * 360) ∧
    gigaparsecAu * (2 * π) / (1e9 * 3600 * 360) ≤ 1 + 1e-15 := by
  have h1 := pi_gt_d20
  have h2 := pi_lt_d20
  unfold gigaparsecAu
  constructor
  · rw [le_div_iff₀ (by norm_num)]; norm_num; linarith
  · rw [div_le_iff₀ (by norm_num)]; norm_num; linarith

theorem fromRadec_length (ra dec d : ℝ) (hd : 0 ≤ d) (epoch : Option SkyTime) :
    |(fromRadec ra dec d epoch).length - d| ≤ 2e-14 * d := by
  unfold fromRadec
  cases epoch with
  | none =>
    simp only
    rw [fromSpherical_length hd, sub_self, abs_zero]
    positivity
  | some t =>
    simp only
    have h := (isometryUpTo_M t).transpose_length (fromSpherical d (dec / 360 * tau) (ra / 24 * tau))
    rw [fromSpherical_length hd] at h
    exact h

/-- **C109.** `position_of_radec(ra_hours, dec_degrees)` and the class method `from_radec`, without a distance: the position is a
gigaparsec away (to within 10⁻¹³), and from anywhere in the Solar System it stands where it stands from the origin.  An observer `R` au
from the origin sees it shifted by no more than `R / 1000` microarcseconds (a billionth more at most). -/
theorem C109_far_away {T L O : Type*} [DecidableEq O] (ra dec : ℝ) (epoch : Option SkyTime) (t : Option T)
    (center target : Option (Body O)) (kind : PositionKind) (p : Position Vec3 T L O)
    (hp : p = positionOfRadec ra dec none epoch t center target ∨ p = classFromRadec kind ra dec none epoch) :
    |p.distance * (2 * π) / (1e9 * 3600 * 360) - 1| ≤ 1e-13 ∧
    ∀ observer : Vec3, observer.length ≤ 1e9 →
      angleBetween (sightFrom p.core.xyz observer) p.core.xyz ≤ microarcseconds (observer.length / 1000 * (1 + 1e-9)) := by
  have hxyz : p.core.xyz = fromRadec ra dec gigaparsecAu epoch := by
    rcases hp with rfl | rfl
    · unfold positionOfRadec buildPosition
      split_ifs <;> rfl
    · rfl
  have hg : 0 ≤ gigaparsecAu := by unfold gigaparsecAu; norm_num
  have hlen := abs_le.1 (fromRadec_length ra dec gigaparsecAu hg epoch)
  have hdist : p.distance = (fromRadec ra dec gigaparsecAu epoch).length := by
    unfold Position.distance; rw [hxyz]
  rw [hdist, hxyz]
  set v := fromRadec ra dec gigaparsecAu epoch
  obtain ⟨g1, g2⟩ := gigaparsec_bounds
  have hpi := pi_pos
  have hk : 0 < 2 * π / (1e9 * 3600 * 360) := by positivity
  have w1 : 1 - 9e-14 ≤ v.length * (2 * π) / (1e9 * 3600 * 360) := by
    have := mul_le_mul_of_nonneg_right (show gigaparsecAu * (1 - 2e-14) ≤ v.length by linarith [hlen.1]) hk.le
    have e : gigaparsecAu * (1 - 2e-14) * (2 * π / (1e9 * 3600 * 360)) = gigaparsecAu * (2 * π) / (1e9 * 3600 * 360) * (1 - 2e-14) := by ring
    rw [e] at this
    have e2 : v.length * (2 * π / (1e9 * 3600 * 360)) = v.length * (2 * π) / (1e9 * 3600 * 360) := by ring
    rw [e2] at this
    norm_num at g1 this ⊢
    linarith
  have w2 : v.length * (2 * π) / (1e9 * 3600 * 360) ≤ 1 + 9e-14 := by
    have := mul_le_mul_of_nonneg_right (show v.length ≤ gigaparsecAu * (1 + 2e-14) by linarith [hlen.2]) hk.le
    have e : gigaparsecAu * (1 + 2e-14) * (2 * π / (1e9 * 3600 * 360)) = gigaparsecAu * (2 * π) / (1e9 * 3600 * 360) * (1 + 2e-14) := by ring
    rw [e] at this
    have e2 : v.length * (2 * π / (1e9 * 3600 * 360)) = v.length * (2 * π) / (1e9 * 3600 * 360) := by ring
    rw [e2] at this
    norm_num at g2 this ⊢
    linarith
  refine ⟨abs_le.2 ⟨by linarith, by linarith⟩, fun o ho => ?_⟩
  have hv : 2e14 ≤ v.length := by
    have := hlen.1
    unfold gigaparsecAu at this
    norm_num at this ⊢
    linarith
  have hv0 : 0 < v.length := by linarith
  have ho0 := Vec3.length_nonneg o
  refine ((parallax_le le_rfl (by linarith)).2).trans ?_
  have hx0 : 0 ≤ o.length / v.length := by positivity
  have hx1 : o.length / v.length ≤ 5e-6 := by
    rw [div_le_iff₀ hv0]; linarith
  refine (Shadow.arcsin_le_cube hx0 (by linarith)).trans ?_
  have hsq : (o.length / v.length) ^ 2 ≤ 2.5e-11 := by
    have := pow_le_pow_left₀ hx0 hx1 2
    norm_num at this ⊢
    linarith
  have hinv : 1 / v.length ≤ (2 * π) / (1e9 * 3600 * 360) * (1 + 1e-13) := by
    rw [div_le_iff₀ hv0]
    have e : 2 * π / (1e9 * 3600 * 360) * (1 + 1e-13) * v.length = v.length * (2 * π) / (1e9 * 3600 * 360) * (1 + 1e-13) := by ring
    rw [e]
    norm_num at w1 ⊢
    linarith
  calc o.length / v.length + (o.length / v.length) ^ 3
      = o.length * (1 / v.length) * (1 + (o.length / v.length) ^ 2) := by ring
    _ ≤ o.length * ((2 * π) / (1e9 * 3600 * 360) * (1 + 1e-13)) * (1 + 2.5e-11) := by
        apply mul_le_mul (mul_le_mul_of_nonneg_left hinv ho0) (by linarith) (by positivity) (by positivity)
    _ ≤ microarcseconds (o.length / 1000 * (1 + 1e-9)) := by
        unfold microarcseconds
        have e1 : o.length * ((2 * π) / (1e9 * 3600 * 360) * (1 + 1e-13)) * (1 + 2.5e-11) =
          (o.length * (2 * π) / (1e9 * 3600 * 360)) * ((1 + 1e-13) * (1 + 2.5e-11)) := by ring
        have e2 : o.length / 1000 * (1 + 1e-9) / 1000000 / 3600 / 360 * (2 * π) =
          (o.length * (2 * π) / (1e9 * 3600 * 360)) * (1 + 1e-9) := by ring
        rw [e1, e2]
        apply mul_le_mul_of_nonneg_left _ (by positivity)
        norm_num

/-- **C109.** The old function `position_from_radec` puts a position without a distance one au away instead, in the same direction: an
observer who has moved two au towards it sees it behind them. -/
theorem C109_old_function {T L O : Type*} [DecidableEq O] (ra dec : ℝ) (t : Option T) (center target : Option (Body O)) :
    let p : Position Vec3 T L O := positionFromRadec ra dec none none t center target
    let q : Position Vec3 T L O := positionOfRadec ra dec none none t center target
    p.distance = 1 ∧ q.core.xyz = gigaparsecAu • p.core.xyz ∧
    (∀ d, positionFromRadec ra dec (some d) none t center target = (positionOfRadec ra dec (some d) none t center target : Position Vec3 T L O)) ∧
    ∃ observer : Vec3, observer.length = 2 ∧ sightFrom p.core.xyz observer = -p.core.xyz ∧
      angleBetween (sightFrom p.core.xyz observer) p.core.xyz = π := by
  intro p q
  have hp : p.core.xyz = fromSpherical 1 (dec / 360 * tau) (ra / 24 * tau) := by
    unfold p positionFromRadec positionOfRadec buildPosition
    split_ifs <;> rfl
  have hq : q.core.xyz = fromSpherical gigaparsecAu (dec / 360 * tau) (ra / 24 * tau) := by
    unfold q positionOfRadec buildPosition
    split_ifs <;> rfl
  have h1 : p.core.xyz.length = 1 := by rw [hp]; exact fromSpherical_length zero_le_one _ _
  have hne : p.core.xyz ≠ 0 := ne_zero_of_length (by rw [h1]; norm_num)
  refine ⟨h1, ?_, fun d => rfl, (2 : ℝ) • p.core.xyz, ?_, ?_, ?_⟩
  · rw [hp, hq]
    ext <;> simp [fromSpherical] <;> ring
  · rw [Vec3.length_smul_of_nonneg (by norm_num), h1, mul_one]
  · unfold sightFrom
    ext <;> simp <;> ring
  · have e : sightFrom p.core.xyz ((2 : ℝ) • p.core.xyz) = -p.core.xyz := by
      unfold sightFrom
      ext <;> simp <;> ring
    have hn : -p.core.xyz ≠ 0 := ne_zero_of_length (by rw [Vec3.length_neg, h1]; norm_num)
    rw [e, C79_euclidean _ _ hn hne, Vec3.toEuclidean_neg]
    apply angle_neg_self_of_nonzero
    intro h
    have := Vec3.norm_toEuclidean p.core.xyz
    rw [h, norm_zero, h1] at this
    norm_num at this

/-! ### Stars -/

/-- A star that does not move, seen by an observer. -/
theorem star_at_rest (tiny : ℝ) (s : StarEntry) (p tdb : ℝ) (observer velocity : Vec3) (hra : s.raMasPerYear = 0) (hdec : s.decMasPerYear = 0)
    (hr : s.radialKmPerS = 0) :
    (starObserve tiny (starVectorsFor s p) s.epoch tdb (observer, velocity)).vector = sightFrom (starVectorsFor s p).1 observer := by
  have hv : (starVectorsFor s p).2 = 0 := by
    unfold starVectorsFor
    rw [hra, hdec, hr]
    ext <;> simp
  unfold starObserve sightFrom
  simp only [hv]
  ext <;> simp

theorem star_length (s : StarEntry) (p : ℝ) (hp : 0 < p) (hp' : masAngle p < π) : (starVectorsFor s p).1.length = 1 / sin (masAngle p) := by
  have hs : 0 < sin (masAngle p) := sin_pos_of_pos_of_lt_pi (masAngle_pos hp) hp'
  rw [starVectorsFor_position, fromSpherical_length (by positivity)]

/-- **C109.** The catalogued parallax of a star is its parallax.  A star that does not move, seen by an observer who is `R` au from the
barycenter, stands at most `arcsin (R sin ϖ)` from where it stands seen from the barycenter, where `ϖ` is the catalogued parallax;
for an observer one au away that is `ϖ` itself; and it stands just that far off when it is at a right angle to the barycenter. -/
theorem C109_star (tiny : ℝ) (s : StarEntry) (p tdb : ℝ) (observer velocity : Vec3) (hra : s.raMasPerYear = 0) (hdec : s.decMasPerYear = 0)
    (hr : s.radialKmPerS = 0) (hp : 0 < p) (hp' : masAngle p < π / 2) (ho : observer.length * sin (masAngle p) < 1) :
    let seen := (starObserve tiny (starVectorsFor s p) s.epoch tdb (observer, velocity)).vector
    let home := (starObserve tiny (starVectorsFor s p) s.epoch tdb (0, 0)).vector
    angleBetween seen home ≤ arcsin (observer.length * sin (masAngle p)) ∧
    (observer.length = 1 → angleBetween seen home ≤ masAngle p) ∧
    (seen.dot observer = 0 → angleBetween seen home = arcsin (observer.length * sin (masAngle p))) ∧
    (seen.dot observer = 0 → observer.length = 1 → angleBetween seen home = masAngle p) := by
  intro seen home
  have hpi := pi_pos
  have hm := masAngle_pos hp
  have hs : 0 < sin (masAngle p) := sin_pos_of_pos_of_lt_pi hm (by linarith)
  have hl := star_length s p hp (by linarith)
  have e1 : seen = sightFrom (starVectorsFor s p).1 observer := star_at_rest tiny s p tdb observer velocity hra hdec hr
  have e2 : home = (starVectorsFor s p).1 := by
    refine (star_at_rest tiny s p tdb 0 0 hra hdec hr).trans ?_
    unfold sightFrom
    ext <;> simp
  have hd : observer.length < (starVectorsFor s p).1.length := by
    rw [hl, lt_div_iff₀ hs]; exact ho
  have hratio : observer.length / (starVectorsFor s p).1.length = observer.length * sin (masAngle p) := by
    rw [hl]; field_simp
  have b := (parallax_le le_rfl hd).2
  have c := parallax_eq hd
  rw [← e1, ← e2] at b c
  rw [e2, hratio, ← e2] at b c
  have one : observer.length = 1 → arcsin (observer.length * sin (masAngle p)) = masAngle p := by
    intro h
    rw [h, one_mul, arcsin_sin (by linarith) hp'.le]
  exact ⟨b, fun h => (one h) ▸ b, c, fun h h1 => (c h).trans (one h1)⟩

theorem abs_lightTimeDifference_le (tiny : ℝ) (ht : 0 ≤ tiny) (p o : Vec3) : |lightTimeDifference tiny p o| ≤ o.length / cAuDay := by
  have hc : 0 < cAuDay := by unfold cAuDay lightSpeed daySeconds auM; norm_num
  unfold lightTimeDifference
  simp only
  rw [abs_div, abs_of_pos hc]
  apply div_le_div_of_nonneg_right _ hc.le
  refine (Vec3.abs_dot_le _ _).trans ?_
  have hl := Vec3.length_nonneg p
  rw [Vec3.length_smul, abs_of_nonneg (by positivity)]
  have : 1 / (p.length + tiny) * p.length ≤ 1 := by
    rcases (add_nonneg hl ht).eq_or_lt with h | h
    · rw [← h]; simp
    · rw [div_mul_eq_mul_div, one_mul, div_le_one h]; linarith
  exact mul_le_of_le_one_left (Vec3.length_nonneg o) this

/-- **C109.** A star that moves: seen at the same moment from the barycenter and by an observer `R` au from it, its directions differ by at
most the parallax of the distance `d` that it has then and of `R (1 + v / c)`, where `v` is its speed: the light reaches the two at
times that differ by no more than `R / c`. -/
theorem C109_moving_star (tiny : ℝ) (ht : 0 ≤ tiny) (star : Vec3 × Vec3) (epoch tdb : ℝ) (observer velocity : Vec3) :
    let seen := (starObserve tiny star epoch tdb (observer, velocity)).vector
    let home := (starObserve tiny star epoch tdb (0, 0)).vector
    let reach := observer.length * (1 + star.2.length / cAuDay)
    reach < home.length → angleBetween seen home ≤ arcsin (reach / home.length) := by
  intro seen home reach h
  have hc : 0 < cAuDay := by unfold cAuDay lightSpeed daySeconds auM; norm_num
  have e : seen = sightFrom home (observer - lightTimeDifference tiny star.1 observer • star.2) := by
    unfold seen home starObserve sightFrom
    have : lightTimeDifference tiny star.1 0 = 0 := by unfold lightTimeDifference; simp [Vec3.dot]
    simp only [this]
    ext <;> simp <;> ring
  rw [e]
  refine (parallax_le ?_ h).2
  have h1 := Vec3.length_add_le observer (-(lightTimeDifference tiny star.1 observer • star.2))
  have e2 : observer + -(lightTimeDifference tiny star.1 observer • star.2) = observer - lightTimeDifference tiny star.1 observer • star.2 := by
    ext <;> simp <;> ring
  rw [e2, Vec3.length_neg, Vec3.length_smul] at h1
  refine h1.trans ?_
  have h2 := mul_le_mul_of_nonneg_right (abs_lightTimeDifference_le tiny ht star.1 observer) (Vec3.length_nonneg star.2)
  have : reach = observer.length + observer.length / cAuDay * star.2.length := by unfold reach; ring
  rw [this]
  linarith

/-! ### From the surface of the Earth -/

theorem Geoid.Proper.latlon_length_le {g : Geoid} (hg : g.Proper) (lat lon h : ℝ) : (g.latlon lat lon h).length ≤ g.radius + |h| := by
  obtain ⟨h1, h2, h3, -⟩ := C42_position g hg lat lon h
  rw [h2]
  refine (Vec3.length_add_le _ _).trans ?_
  rw [Vec3.length_smul, h3, mul_one]
  refine add_le_add ?_ le_rfl
  have ha := hg.radius
  have hf := hg.flattening
  have hb : 0 < g.polarRadius := by
    unfold Geoid.polarRadius
    have : 1 / g.inverseFlattening < 1 := by rw [div_lt_one (by linarith)]; linarith
    exact mul_pos ha (by linarith)
  have hba : g.polarRadius ≤ g.radius := by
    unfold Geoid.polarRadius
    have : 0 < 1 / g.inverseFlattening := by positivity
    nlinarith
  generalize g.latlon lat lon 0 = p at h1
  unfold OnGeoid at h1
  unfold Vec3.length
  rw [Real.sqrt_le_left ha.le]
  have hz : p.z ^ 2 / g.radius ^ 2 ≤ (p.z / g.polarRadius) ^ 2 := by
    rw [div_pow]
    exact div_le_div_of_nonneg_left (sq_nonneg _) (by positivity) (pow_le_pow_left₀ hb.le hba 2)
  have : (p.x ^ 2 + p.y ^ 2 + p.z ^ 2) / g.radius ^ 2 ≤ 1 := by
    rw [div_pow, div_pow] at h1
    calc (p.x ^ 2 + p.y ^ 2 + p.z ^ 2) / g.radius ^ 2 = p.x ^ 2 / g.radius ^ 2 + p.y ^ 2 / g.radius ^ 2 + p.z ^ 2 / g.radius ^ 2 := by ring
      _ ≤ 1 := by linarith
  rw [div_le_one (by positivity)] at this
  linarith

/-- **C109.** A body seen from a place on Earth, `elevation` m above or below the ellipsoid: it stands at most
`arcsin ((a + |elevation|) / d)` from where it stands seen from the Earth's center, where `a` is the equatorial radius and `d` the
distance from the Earth's center (the matrices of the frames add at most 2·10⁻¹⁴ to the ratio). -/
theorem C109_from_the_ground (g : Geoid) (hg : g.Proper) (lat lon elevation : ℝ) (t : SkyTime) (body : Vec3)
    (h : (g.radius + |elevation / auM|) * (1 + 2e-14) < body.length) :
    angleBetween (sightFrom body ((g.place lat lon elevation).at t).1) body ≤
      arcsin ((g.radius + |elevation / auM|) * (1 + 2e-14) / body.length) := by
  refine (parallax_le ?_ h).2
  have h1 := (itrs_up_to t).transpose_length (g.place lat lon elevation).itrs
  have h2 : (g.place lat lon elevation).itrs.length ≤ g.radius + |elevation / auM| := by
    unfold Geoid.place
    exact hg.latlon_length_le _ _ _
  have h3 := (abs_le.1 h1).2
  have e : ((g.place lat lon elevation).at t).1 = (itrsRotation t).transpose.mulVec (g.place lat lon elevation).itrs := rfl
  rw [e]
  nlinarith

/-- **C109.** From the ground, no more than 9 km above or below the ellipsoid, the Moon is never seen further than 1.03° from its
geocentric place, nor a body at the distance of the Sun further than 9 arcseconds. -/
theorem C109_moon_and_sun (lat lon elevation : ℝ) (he : |elevation| ≤ 9000) (t : SkyTime) (body : Vec3) :
    (356000000 / auM ≤ body.length → angleBetween (sightFrom body ((wgs84Au.place lat lon elevation).at t).1) body ≤ 1.03 / 360 * (2 * π)) ∧
    (0.983 ≤ body.length → angleBetween (sightFrom body ((wgs84Au.place lat lon elevation).at t).1) body ≤ 9 / 3600 / 360 * (2 * π)) := by
  have hg : wgs84Au.Proper := ⟨by norm_num [wgs84Au, auM], by norm_num [wgs84Au]⟩
  have hpi := pi_gt_d6
  have ha : (auM : ℝ) = 149597870700 := by unfold auM; norm_num
  have hR : (wgs84Au.radius + |elevation / auM|) * (1 + 2e-14) ≤ 6387138 / auM := by
    rw [abs_div, abs_of_pos (by rw [ha]; norm_num : (0 : ℝ) < auM)]
    have : wgs84Au.radius + |elevation| / auM ≤ 6387137 / auM := by
      unfold wgs84Au
      simp only
      rw [← add_div]
      apply div_le_div_of_nonneg_right _ (by rw [ha]; norm_num)
      linarith
    calc (wgs84Au.radius + |elevation| / auM) * (1 + 2e-14) ≤ 6387137 / auM * (1 + 2e-14) :=
          mul_le_mul_of_nonneg_right this (by norm_num)
      _ ≤ 6387138 / auM := by rw [ha]; norm_num
  have hR0 : 0 ≤ (wgs84Au.radius + |elevation / auM|) * (1 + 2e-14) := by
    have : 0 ≤ wgs84Au.radius := hg.radius.le
    positivity
  have general : ∀ k : ℝ, 0 < k → 6387138 / auM < k → k ≤ body.length → 6387138 / auM / k ≤ 1 / 2 →
      angleBetween (sightFrom body ((wgs84Au.place lat lon elevation).at t).1) body ≤
        6387138 / auM / k + (6387138 / auM / k) ^ 3 := by
    intro k hk hk1 hk2 hk3
    refine (C109_from_the_ground wgs84Au hg lat lon elevation t body (by linarith)).trans ?_
    have h1 : (wgs84Au.radius + |elevation / auM|) * (1 + 2e-14) / body.length ≤ 6387138 / auM / k :=
      div_le_div₀ (by rw [ha]; norm_num) hR hk hk2
    refine (arcsin_le_arcsin h1).trans ?_
    exact Shadow.arcsin_le_cube (hR0.trans hR |> fun h => by positivity) hk3
  constructor
  · intro h
    refine (general _ (by rw [ha]; norm_num) (by rw [ha]; norm_num) h (by rw [ha]; norm_num)).trans ?_
    rw [ha]
    norm_num
    linarith
  · intro h
    refine (general _ (by norm_num) (by rw [ha]; norm_num) h (by rw [ha]; norm_num)).trans ?_
    rw [ha]
    norm_num
    linarith

/-! ### Non-vacuity -/

/-- The parallax of a star at a right angle to the barycenter, as in the theorem: 61 Cygni, with a parallax of 286 mas. -/
example : ∃ (s : StarEntry) (observer : Vec3), observer.length = 1 ∧
    (starObserve 0 (starVectorsFor s 286) s.epoch 2451545 (observer, 0)).vector.dot observer = 0 ∧
    angleBetween (starObserve 0 (starVectorsFor s 286) s.epoch 2451545 (observer, 0)).vector
      (starObserve 0 (starVectorsFor s 286) s.epoch 2451545 (0, 0)).vector = masAngle 286 := by
  have hm : 0 < masAngle 286 := masAngle_pos (by norm_num)
  have hm2 : masAngle 286 < 1 := by unfold masAngle asec2rad; norm_num
  have hpi := pi_gt_three
  have hs : 0 < sin (masAngle 286) := sin_pos_of_pos_of_lt_pi hm (by linarith)
  have hs1 : sin (masAngle 286) < 1 := (sin_lt hm).trans hm2
  let s : StarEntry := ⟨0, 0, 0, 0, some 286, 0, 2451545⟩
  let o : Vec3 := ⟨sin (masAngle 286), cos (masAngle 286), 0⟩
  have ho : o.length = 1 := by
    unfold o Vec3.length
    simp only
    rw [show sin (masAngle 286) * sin (masAngle 286) + cos (masAngle 286) * cos (masAngle 286) + 0 * 0 = 1 by
      linear_combination sin_sq_add_cos_sq (masAngle 286), sqrt_one]
  have hd : (starObserve 0 (starVectorsFor s 286) s.epoch 2451545 (o, 0)).vector.dot o = 0 := by
    rw [star_at_rest 0 s 286 2451545 o 0 rfl rfl rfl, starVectorsFor_position]
    unfold sightFrom fromSpherical Vec3.dot o s
    simp only [Vec3.sub_x, Vec3.sub_y, Vec3.sub_z, cos_zero, sin_zero]
    field_simp
    linear_combination (-sin (masAngle 286)) * sin_sq_add_cos_sq (masAngle 286)
  refine ⟨s, o, ho, hd, ?_⟩
  exact (C109_star 0 s 286 2451545 o 0 rfl rfl rfl (by norm_num) (by linarith) (by rw [ho]; linarith)).2.2.2 hd ho

/-- From Neptune, thirty au away, a position made without a distance is shifted by less than a few hundredths of a microarcsecond. -/
example (ra dec : ℝ) : angleBetween (sightFrom (positionOfRadec ra dec none none none none none : Position Vec3 ℝ ℝ ℕ).core.xyz ⟨30, 0, 0⟩)
    (positionOfRadec ra dec none none none none none : Position Vec3 ℝ ℝ ℕ).core.xyz ≤ microarcseconds 0.031 := by
  have hl : (⟨30, 0, 0⟩ : Vec3).length = 30 := by
    unfold Vec3.length
    simp only
    rw [show (30 : ℝ) * 30 + 0 * 0 + 0 * 0 = 30 ^ 2 by norm_num, sqrt_sq (by norm_num)]
  have h := (C109_far_away (T := ℝ) (L := ℝ) (O := ℕ) ra dec none none none none .icrf _ (.inl rfl)).2 ⟨30, 0, 0⟩ (by rw [hl]; norm_num)
  rw [hl] at h
  refine h.trans ?_
  unfold microarcseconds
  have := pi_pos
  apply mul_le_mul_of_nonneg_right _ (by positivity)
  norm_num

end Skyfield
