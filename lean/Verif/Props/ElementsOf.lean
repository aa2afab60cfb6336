import Verif.Model.ElementsOf
import Verif.Props.ElementSizes
import Verif.Props.Rotations

/-
C102: the osculating orbit of a position is the same in every reference frame, and its units are those documented.
-/
namespace Skyfield
open Real

namespace Osculating

/-! ### Another unit of time -/

/-- The same orbit with time counted in units `k` times as long. -/
noncomputable def slower (o : Osculating) (k : ℝ) : Osculating := ⟨o.pos, k • o.vel, o.mu * k ^ 2⟩

theorem arctan2_scale {k : ℝ} (hk : 0 < k) (y x : ℝ) : arctan2 (k * y) (k * x) = arctan2 y x := by
  unfold arctan2
  rw [← Complex.arg_real_mul ⟨x, y⟩ hk]
  congr 1
  apply Complex.ext <;> simp

theorem angleBetween_scale {k : ℝ} (hk : 0 < k) (u v : Vec3) : angleBetween (k • u) v = angleBetween u v := by
  unfold angleBetween
  simp only
  have e1 : v.length • k • u - (k • u).length • v = k • (v.length • u - u.length • v) := by
    rw [Vec3.length_smul_of_nonneg hk.le]; ext <;> simp <;> ring
  have e2 : v.length • k • u + (k • u).length • v = k • (v.length • u + u.length • v) := by
    rw [Vec3.length_smul_of_nonneg hk.le]; ext <;> simp <;> ring
  rw [e1, e2, Vec3.length_smul_of_nonneg hk.le, Vec3.length_smul_of_nonneg hk.le, arctan2_scale hk]

variable (o : Osculating) {k : ℝ} (hk : 0 < k)
include hk

omit hk in
theorem slower_h : (o.slower k).hVec = k • o.hVec := by
  unfold hVec slower
  ext <;> simp [Vec3.cross] <;> ring

theorem slower_e : (o.slower k).eVec = o.eVec := by
  unfold eVec slower eccentricityVector
  simp only
  rw [Vec3.length_smul_of_nonneg hk.le]
  have hd : o.pos.dot (k • o.vel) = k * o.pos.dot o.vel := by simp [Vec3.dot]; ring
  rw [hd]
  by_cases hm : o.mu = 0
  · rw [hm]; ext <;> simp
  · ext <;> simp <;> field_simp

theorem slower_n : (o.slower k).nVec = o.nVec := by
  unfold nVec nodeVector
  simp only
  rw [slower_h]
  have e : (⟨-(k • o.hVec).y, (k • o.hVec).x, 0⟩ : Vec3) = k • ⟨-o.hVec.y, o.hVec.x, 0⟩ := by ext <;> simp
  rw [e, Vec3.length_smul_of_nonneg hk.le]
  by_cases h0 : (⟨-o.hVec.y, o.hVec.x, 0⟩ : Vec3).length = 0
  · rw [if_neg (by rw [h0]; simp), if_neg (by rw [h0]; simp), Vec3.length_eq_zero.1 h0]
    ext <;> simp
  · rw [if_pos (mul_ne_zero hk.ne' h0), if_pos h0]
    ext <;> simp <;> field_simp

theorem slower_inclination : (o.slower k).inclination = o.inclination := by
  unfold inclination inclinationOf
  rw [slower_h, angleBetween_scale hk]

theorem slower_node : (o.slower k).ascendingNode = o.ascendingNode := by
  unfold ascendingNode longitudeOfAscendingNode
  rw [slower_inclination o hk, slower_h]
  simp only [Vec3.smul_x, Vec3.smul_y]
  rw [show -(k * o.hVec.y) = k * -o.hVec.y by ring, arctan2_scale hk]

theorem slower_periapsisArgument : (o.slower k).periapsisArgument = o.periapsisArgument := by
  unfold periapsisArgument argumentOfPeriapsis
  rw [slower_e o hk, slower_n o hk]
  have e : ((o.slower k).pos.cross (o.slower k).vel).z = k * (o.pos.cross o.vel).z := by
    have := congrArg Vec3.z (slower_h (k := k) o)
    exact this
  rw [e]
  have : (k * (o.pos.cross o.vel).z ≥ 0) = ((o.pos.cross o.vel).z ≥ 0) := by
    rw [ge_iff_le, ge_iff_le, mul_nonneg_iff_of_pos_left hk]
  simp only [this]

theorem slower_trueAnomaly : (o.slower k).trueAnomaly = o.trueAnomaly := by
  unfold trueAnomaly trueAnomalyOf
  rw [slower_e o hk, slower_n o hk]
  have e1 : ((o.slower k).pos.dot (o.slower k).vel > 0) = (o.pos.dot o.vel > 0) := by
    have : (o.slower k).pos.dot (o.slower k).vel = k * o.pos.dot o.vel := by simp [slower, Vec3.dot]; ring
    rw [this, gt_iff_lt, gt_iff_lt, mul_pos_iff_of_pos_left hk]
  have e2 : ((o.slower k).vel.x < 0) = (o.vel.x < 0) := by
    have : (o.slower k).vel.x = k * o.vel.x := rfl
    rw [this]
    apply propext
    constructor
    · intro h; by_contra hc; exact absurd h (not_lt.2 (mul_nonneg hk.le (not_lt.1 hc)))
    · exact fun h => mul_neg_of_pos_of_neg hk h
  simp only [e1, e2]
  rfl

theorem slower_eccentricity : (o.slower k).eccentricity = o.eccentricity := by
  unfold eccentricity; rw [slower_e o hk]

theorem slower_latusRectum : (o.slower k).latusRectum = o.latusRectum := by
  unfold latusRectum semiLatusRectum
  rw [slower_h, Vec3.length_smul_of_nonneg hk.le]
  show (k * o.hVec.length) ^ 2 / (o.mu * k ^ 2) = _
  by_cases hm : o.mu = 0
  · rw [hm]; simp
  · field_simp

theorem slower_majorAxis : (o.slower k).majorAxis = o.majorAxis := by
  unfold majorAxis; rw [slower_latusRectum o hk, slower_eccentricity o hk]

theorem slower_period : (o.slower k).period = o.period.map (· / k) := by
  unfold period periodOf
  rw [slower_majorAxis o hk]
  cases ha : o.majorAxis with
  | none => rfl
  | some a =>
    simp only
    by_cases h0 : a > 0
    · rw [if_pos h0, if_pos h0, Option.map_some]
      congr 1
      show tau * √(a ^ 3 / (o.mu * k ^ 2)) = _
      rw [← div_div, sqrt_div' _ (sq_nonneg k), sqrt_sq hk.le, mul_div_assoc]
    · rw [if_neg h0, if_neg h0]; rfl

theorem slower_motion : (o.slower k).motion = o.motion * k := by
  unfold motion meanMotion
  rw [slower_majorAxis o hk]
  cases ha : o.majorAxis with
  | none => simp
  | some a =>
    simp only
    show √(o.mu * k ^ 2 / |a| ^ 3) = _
    rw [mul_div_right_comm, sqrt_mul' _ (sq_nonneg k), sqrt_sq hk.le]

theorem slower_eccentricAnomaly : (o.slower k).eccentricAnomaly = o.eccentricAnomaly := by
  unfold eccentricAnomaly; rw [slower_trueAnomaly o hk, slower_eccentricity o hk]

end Osculating

/-- **C102.** Counting time in seconds or in days makes no difference: the elements of a position are those of the same orbit
with velocity in kilometers per day and GM in km³/day², and the rate, the period and the time of periapsis are then in days. -/
theorem C102_days (o : ElementsOf) :
    let d : Osculating := ⟨o.orbit.pos, (86400 : ℝ) • o.orbit.vel, o.orbit.mu * 86400 ^ 2⟩
    o.orbit.eccentricity = d.eccentricity ∧ o.orbit.inclination = d.inclination ∧ o.orbit.ascendingNode = d.ascendingNode ∧
    o.orbit.periapsisArgument = d.periapsisArgument ∧ o.orbit.trueAnomaly = d.trueAnomaly ∧
    o.orbit.eccentricAnomaly = d.eccentricAnomaly ∧ o.orbit.meanAnomaly = d.meanAnomaly ∧
    o.orbit.latusRectum = d.latusRectum ∧ o.orbit.majorAxis = d.majorAxis ∧ o.orbit.minorAxis = d.minorAxis ∧
    o.orbit.periapsis = d.periapsis ∧ o.orbit.apoapsis = d.apoapsis ∧
    o.meanMotionPerDay = d.motion ∧ o.periodInDays = d.period ∧ o.periapsisTdb = o.tdb - d.sincePeriapsis := by
  intro d
  have hk : (0 : ℝ) < 86400 := by norm_num
  have hd : d = o.orbit.slower 86400 := rfl
  have h1 := Osculating.slower_eccentricity o.orbit hk
  have h2 := Osculating.slower_eccentricAnomaly o.orbit hk
  have h3 := Osculating.slower_latusRectum o.orbit hk
  have h4 := Osculating.slower_motion o.orbit hk
  have h5 := Osculating.slower_trueAnomaly o.orbit hk
  have hs : (daySeconds : ℝ) = 86400 := rfl
  rw [hd]
  refine ⟨h1.symm, (Osculating.slower_inclination _ hk).symm, (Osculating.slower_node _ hk).symm,
    (Osculating.slower_periapsisArgument _ hk).symm, h5.symm, h2.symm, ?_, h3.symm,
    (Osculating.slower_majorAxis _ hk).symm, ?_, ?_, ?_, ?_, ?_, ?_⟩
  · unfold Osculating.meanAnomaly; rw [h1, h2]
  · unfold Osculating.minorAxis; rw [h1, h3]
  · unfold Osculating.periapsis; rw [h1, h3]
  · unfold Osculating.apoapsis; rw [h1, h3]
  · unfold ElementsOf.meanMotionPerDay; rw [h4, hs]
  · unfold ElementsOf.periodInDays; rw [Osculating.slower_period _ hk, hs]
  · unfold ElementsOf.periapsisTdb ElementsOf.meanMotionPerDay Osculating.sincePeriapsis
    rw [h1, h2, h3, h4, h5, hs]
    show _ - timeSincePeriapsis _ _ _ _ (o.orbit.mu * (86400 * 86400)) = _ - timeSincePeriapsis _ _ _ _ (o.orbit.mu * 86400 ^ 2)
    norm_num

theorem chooseGm_pos {table : ℤ → Option ℝ} {given : Option ℝ} {c t : Option ℤ} {gm : ℝ}
    (h : chooseGm table given c t = some gm) : 0 < gm := by
  unfold chooseGm at h
  obtain ⟨g, _, hg⟩ := Option.bind_eq_some_iff.1 h
  split at hg
  · cases hg
  · rename_i hn
    injection hg with hg
    rw [← hg]; exact not_le.1 hn

/-- **C102.** Sizes in kilometers and periods in days, from a position in au and a velocity in au per day: the semi-major axis
obeys the vis-viva equation, and the period Kepler's third law. -/
theorem C102_units (table : ℤ → Option ℝ) (p : OrbitalPosition) (given : Option ℝ) {o : ElementsOf}
    (ho : osculatingElementsOf table p none given = some o) (hh : p.xyz.cross p.velocity ≠ 0) :
    ∃ gm, chooseGm table given p.center p.target = some gm ∧ 0 < gm ∧
      (∀ a, o.orbit.majorAxis = some a → (p.velocity.length * 149597870.7 / 86400) ^ 2 =
        gm * (2 / (p.xyz.length * 149597870.7) - 1 / a)) ∧
      (∀ P, o.periodInDays = some P → ∃ a, o.orbit.majorAxis = some a ∧ 0 < P ∧ (P * 86400) ^ 2 * gm = 4 * π ^ 2 * a ^ 3 ∧
        o.meanMotionPerDay * P = 2 * π) := by
  unfold osculatingElementsOf at ho
  obtain ⟨gm, hg, ho⟩ := Option.map_eq_some_iff.1 ho
  simp only at ho
  have hpos := chooseGm_pos hg
  have ka : (0 : ℝ) < auKm := by norm_num [auKm]
  have kd : (0 : ℝ) < daySeconds := by norm_num [daySeconds]
  have hm : 0 < o.orbit.mu := by rw [← ho]; exact hpos
  have hc : o.orbit.pos.cross o.orbit.vel ≠ 0 := by
    rw [← ho]
    intro h
    apply hh
    have e : ((auKm : ℝ) • p.xyz).cross ((auKm / daySeconds : ℝ) • p.velocity) =
        (auKm * (auKm / daySeconds) : ℝ) • p.xyz.cross p.velocity := by
      ext <;> simp [Vec3.cross] <;> ring
    have h' : ((auKm : ℝ) • p.xyz).cross ((auKm / daySeconds : ℝ) • p.velocity) = 0 := h
    rw [e] at h'
    have hk : (auKm * (auKm / daySeconds) : ℝ) ≠ 0 := (mul_pos ka (div_pos ka kd)).ne'
    have hx := congrArg Vec3.x h'
    have hy := congrArg Vec3.y h'
    have hz := congrArg Vec3.z h'
    simp only [Vec3.smul_x, Vec3.smul_y, Vec3.smul_z, Vec3.zero_x, Vec3.zero_y, Vec3.zero_z, mul_eq_zero, hk, false_or] at hx hy hz
    exact Vec3.ext hx hy hz
  have hmu : o.orbit.mu = gm := by rw [← ho]
  refine ⟨gm, hg, hpos, ?_, ?_⟩
  · intro a ha
    have h := ((C63_vis_viva hm hc).1 a ha).1
    rw [hmu] at h
    have e1 : o.orbit.vel.length = p.velocity.length * 149597870.7 / 86400 := by
      rw [← ho]
      show ((auKm / daySeconds : ℝ) • p.velocity).length = _
      rw [Vec3.length_smul_of_nonneg (div_pos ka kd).le]
      norm_num [auKm, daySeconds]; ring
    have e2 : o.orbit.pos.length = p.xyz.length * 149597870.7 := by
      rw [← ho]
      show ((auKm : ℝ) • p.xyz).length = _
      rw [Vec3.length_smul_of_nonneg ka.le]
      norm_num [auKm]; ring
    rw [e1, e2] at h
    exact h
  · intro P hP
    unfold ElementsOf.periodInDays at hP
    obtain ⟨Q, hQ, hP⟩ := Option.map_eq_some_iff.1 hP
    obtain ⟨a, ha, h0, h1, h2⟩ := (C63_period hm hc).1 Q hQ
    have hd : (daySeconds : ℝ) = 86400 := rfl
    have hQ' : Q = P * 86400 := by rw [← hP, hd]; ring
    refine ⟨a, ha, by rw [hQ'] at h0; linarith, by rw [← hQ', ← hmu]; exact h1, ?_⟩
    unfold ElementsOf.meanMotionPerDay
    rw [hd, ← h2, hQ']; ring

/-! ### Another reference frame -/

theorem IsIsometry.angleBetween {m : Mat3} (hm : IsIsometry m) (u v : Vec3) :
    angleBetween (m.mulVec u) (m.mulVec v) = angleBetween u v := by
  unfold Skyfield.angleBetween
  simp only
  rw [hm.length, hm.length]
  have e1 : v.length • m.mulVec u - u.length • m.mulVec v = m.mulVec (v.length • u - u.length • v) := by
    ext <;> simp [Mat3.mulVec, Vec3.dot] <;> ring
  have e2 : v.length • m.mulVec u + u.length • m.mulVec v = m.mulVec (v.length • u + u.length • v) := by
    ext <;> simp [Mat3.mulVec, Vec3.dot] <;> ring
  rw [e1, e2, hm.length, hm.length]

theorem IsIsometry.cross_length {m : Mat3} (hm : IsIsometry m) (u v : Vec3) :
    ((m.mulVec u).cross (m.mulVec v)).length = (u.cross v).length := by
  rw [Vec3.length_eq, Vec3.length_eq, Vec3.lagrange, Vec3.lagrange, hm.dot, hm.dot, hm.dot]

theorem triple_mulVec (m : Mat3) (u v w : Vec3) :
    ((m.mulVec u).cross (m.mulVec v)).dot (m.mulVec w) = m.det * (u.cross v).dot w := by
  simp only [Mat3.mulVec, Mat3.det, Vec3.dot, Vec3.cross]
  ring

/-- A rotation turns a cross product. -/
theorem IsIsometry.cross {m : Mat3} (hm : IsIsometry m) (hd : m.det = 1) (u v : Vec3) :
    (m.mulVec u).cross (m.mulVec v) = m.mulVec (u.cross v) := by
  have key : ∀ w, ((m.mulVec u).cross (m.mulVec v)).dot w = (m.mulVec (u.cross v)).dot w := by
    intro w
    obtain ⟨x, hx⟩ : ∃ x, m.mulVec x = w := ⟨m.transpose.mulVec w, hm.undo' w⟩
    rw [← hx, triple_mulVec, hd, one_mul, hm.dot]
  have h1 := key ⟨1, 0, 0⟩
  have h2 := key ⟨0, 1, 0⟩
  have h3 := key ⟨0, 0, 1⟩
  simp only [Vec3.dot, mul_one, mul_zero, add_zero, zero_add] at h1 h2 h3
  exact Vec3.ext h1 h2 h3

namespace Osculating

theorem turned_eVec {m : Mat3} (hm : IsIsometry m) (o : Osculating) :
    (⟨m.mulVec o.pos, m.mulVec o.vel, o.mu⟩ : Osculating).eVec = m.mulVec o.eVec := by
  unfold eVec eccentricityVector
  simp only
  rw [hm.length, hm.length, hm.dot]
  ext <;> simp [Mat3.mulVec, Vec3.dot] <;> ring

variable {m : Mat3} (hm : IsIsometry m) (o : Osculating)
include hm

theorem turned_eccentricity : (⟨m.mulVec o.pos, m.mulVec o.vel, o.mu⟩ : Osculating).eccentricity = o.eccentricity := by
  unfold eccentricity
  rw [turned_eVec hm, hm.length]

theorem turned_latusRectum : (⟨m.mulVec o.pos, m.mulVec o.vel, o.mu⟩ : Osculating).latusRectum = o.latusRectum := by
  unfold latusRectum semiLatusRectum hVec
  simp only
  rw [hm.cross_length]

theorem turned_trueAnomaly (h : 1e-15 < o.eccentricity) :
    (⟨m.mulVec o.pos, m.mulVec o.vel, o.mu⟩ : Osculating).trueAnomaly = o.trueAnomaly := by
  unfold trueAnomaly trueAnomalyOf
  simp only
  rw [turned_eVec hm, hm.length, if_pos (show o.eVec.length > 1e-15 from h), if_pos (show o.eVec.length > 1e-15 from h),
    hm.angleBetween, hm.dot]

end Osculating

/-- **C102.** The orbit does not depend on the reference frame: whatever matrix preserving lengths and angles is given, the
eccentricity, all sizes, the rate and the period are those without one; for an orbit that is not circular so are the true,
eccentric and mean anomalies and the time of periapsis. -/
theorem C102_frame (table : ℤ → Option ℝ) (p : OrbitalPosition) (given : Option ℝ) (m : Mat3) (hm : IsIsometry m) {o : ElementsOf}
    (ho : osculatingElementsOf table p none given = some o) :
    ∃ o', osculatingElementsOf table p (some m) given = some o' ∧
      o'.orbit.eccentricity = o.orbit.eccentricity ∧ o'.orbit.latusRectum = o.orbit.latusRectum ∧
      o'.orbit.majorAxis = o.orbit.majorAxis ∧ o'.orbit.minorAxis = o.orbit.minorAxis ∧ o'.orbit.periapsis = o.orbit.periapsis ∧
      o'.orbit.apoapsis = o.orbit.apoapsis ∧ o'.meanMotionPerDay = o.meanMotionPerDay ∧ o'.periodInDays = o.periodInDays ∧
      (1e-15 < o.orbit.eccentricity → o'.orbit.trueAnomaly = o.orbit.trueAnomaly ∧
        o'.orbit.eccentricAnomaly = o.orbit.eccentricAnomaly ∧ o'.orbit.meanAnomaly = o.orbit.meanAnomaly ∧
        o'.periapsisTdb = o.periapsisTdb) := by
  unfold osculatingElementsOf at ho ⊢
  obtain ⟨gm, hg, ho⟩ := Option.map_eq_some_iff.1 ho
  simp only at ho
  rw [hg]
  refine ⟨_, rfl, ?_⟩
  simp only
  have e : (⟨(auKm : ℝ) • m.mulVec p.xyz, (auKm / daySeconds : ℝ) • m.mulVec p.velocity, gm⟩ : Osculating) =
      ⟨m.mulVec o.orbit.pos, m.mulVec o.orbit.vel, o.orbit.mu⟩ := by
    rw [← ho, Mat3.mulVec_smul, Mat3.mulVec_smul]
  have ht : p.tdb = o.tdb := by rw [← ho]
  rw [e, ht]
  have h1 := Osculating.turned_eccentricity hm o.orbit
  have h2 := Osculating.turned_latusRectum hm o.orbit
  have h3 : (⟨m.mulVec o.orbit.pos, m.mulVec o.orbit.vel, o.orbit.mu⟩ : Osculating).majorAxis = o.orbit.majorAxis := by
    unfold Osculating.majorAxis; rw [h1, h2]
  have h4 : (⟨m.mulVec o.orbit.pos, m.mulVec o.orbit.vel, o.orbit.mu⟩ : Osculating).motion = o.orbit.motion := by
    unfold Osculating.motion; rw [h3]
  refine ⟨h1, h2, h3, ?_, ?_, ?_, ?_, ?_, ?_⟩
  · unfold Osculating.minorAxis; rw [h1, h2]
  · unfold Osculating.periapsis; rw [h1, h2]
  · unfold Osculating.apoapsis; rw [h1, h2]
  · unfold ElementsOf.meanMotionPerDay; simp only; rw [h4]
  · unfold ElementsOf.periodInDays Osculating.period; simp only; rw [h3]
  · intro hc
    have h5 := Osculating.turned_trueAnomaly hm o.orbit hc
    have h6 : (⟨m.mulVec o.orbit.pos, m.mulVec o.orbit.vel, o.orbit.mu⟩ : Osculating).eccentricAnomaly =
        o.orbit.eccentricAnomaly := by
      unfold Osculating.eccentricAnomaly; rw [h5, h1]
    refine ⟨h5, h6, ?_, ?_⟩
    · unfold Osculating.meanAnomaly; rw [h6, h1]
    · unfold ElementsOf.periapsisTdb ElementsOf.meanMotionPerDay
      simp only
      rw [h1, h2, h4, h5, h6]

/-- **C102.** The inclination is measured from the third axis of the reference frame: for a rotation it is the angle between the
axis of the orbit and the direction whose coordinates are the third row of the matrix, between 0 and a half turn. -/
theorem C102_inclination (table : ℤ → Option ℝ) (p : OrbitalPosition) (given : Option ℝ) (m : Mat3) (hm : IsIsometry m)
    (hd : m.det = 1) {o : ElementsOf} (ho : osculatingElementsOf table p (some m) given = some o)
    (hh : p.xyz.cross p.velocity ≠ 0) :
    0 ≤ o.orbit.inclination ∧ o.orbit.inclination ≤ π ∧
      cos o.orbit.inclination * (p.xyz.cross p.velocity).length = (p.xyz.cross p.velocity).dot m.r3 := by
  unfold osculatingElementsOf at ho
  obtain ⟨gm, hg, ho⟩ := Option.map_eq_some_iff.1 ho
  simp only at ho
  have ka : (0 : ℝ) < auKm := by norm_num [auKm]
  have kd : (0 : ℝ) < daySeconds := by norm_num [daySeconds]
  have hk := mul_pos ka (div_pos ka kd)
  have e : o.orbit.hVec = (auKm * (auKm / daySeconds) : ℝ) • m.mulVec (p.xyz.cross p.velocity) := by
    rw [← ho, ← hm.cross hd]
    unfold Osculating.hVec
    ext <;> simp [Vec3.cross] <;> ring
  have hi : o.orbit.inclination = angleBetween (m.mulVec (p.xyz.cross p.velocity)) ⟨0, 0, 1⟩ := by
    unfold Osculating.inclination inclinationOf
    rw [e, Osculating.angleBetween_scale hk]
  have hne : m.mulVec (p.xyz.cross p.velocity) ≠ 0 := by
    intro h
    have := hm.length (p.xyz.cross p.velocity)
    rw [h, Vec3.length_zero] at this
    exact hh (Vec3.length_eq_zero.1 this.symm)
  obtain ⟨h1, h2, h3⟩ := C37_angle (m.mulVec (p.xyz.cross p.velocity)) ⟨0, 0, 1⟩ hne (fun h => by
    have := congrArg Vec3.z h
    simp at this)
  rw [hi]
  refine ⟨h2, h3, ?_⟩
  rw [h1, hm.length]
  have hz : (⟨0, 0, 1⟩ : Vec3).length = 1 := unit_z_length
  have hl := Vec3.length_pos hh
  rw [hz]
  have : (m.mulVec (p.xyz.cross p.velocity)).dot ⟨0, 0, 1⟩ = (p.xyz.cross p.velocity).dot m.r3 := by
    simp [Mat3.mulVec, Vec3.dot]; ring
  rw [this]
  field_simp

/-- The Earth around the Sun, roughly: one au out, 0.0172 au per day, and a frame tilted by the angle 0.4. -/
example : (osculatingElementsOf (fun k => if k = 10 then some 1.327e11 else none)
      ⟨some 10, some 399, ⟨1, 0, 0⟩, ⟨0, 0.0172, 0⟩, 2451545⟩ none none).isSome ∧ IsIsometry (rotX (-0.4)) ∧ (rotX (-0.4)).det = 1 ∧
    (⟨1, 0, 0⟩ : Vec3).cross ⟨0, 0.0172, 0⟩ ≠ 0 := by
  refine ⟨?_, C35_rot_x _, ?_, ?_⟩
  · norm_num [osculatingElementsOf, chooseGm]
  · have := sin_sq_add_cos_sq (-0.4)
    simp only [rotX, Mat3.det, Vec3.dot, Vec3.cross]
    linarith
  · intro h
    have := congrArg Vec3.z h
    norm_num [Vec3.cross] at this

end Skyfield
