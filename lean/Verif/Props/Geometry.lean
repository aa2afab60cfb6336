import Verif.Model.Geometry
import Verif.Lemmas.Linear
import Mathlib.Tactic.NormNum
import Mathlib.Tactic.FieldSimp

/-
C39: lines and spheres.  C40: lines and ellipsoids.  C41: sunlit, behind Earth.
-/
namespace Skyfield

/-- Specification: the point at distance `s` from the origin, toward `endpoint` (behind the origin if `s < 0`). -/
noncomputable def pointAt (endpoint : Vec3) (s : ℝ) : Vec3 := (s / endpoint.length) • endpoint

/-- Specification: on the sphere. -/
def OnSphere (center : Vec3) (radius : ℝ) (p : Vec3) : Prop := (p - center).length = radius

/-- Specification: in the ball (or on its surface). -/
def InBall (center : Vec3) (radius : ℝ) (p : Vec3) : Prop := (p - center).length ≤ radius

/-- Meaning of `pointAt`: it is at distance |s| from the origin. -/
theorem pointAt_length {e : Vec3} (he : e ≠ 0) (s : ℝ) : (pointAt e s).length = |s| := by
  have := Vec3.length_pos he
  unfold pointAt
  rw [Vec3.length_smul, abs_div, abs_of_pos this, div_mul_cancel₀ _ this.ne']

theorem sqrtNan_some {n d : ℝ} (h : sqrtNan n = some d) : 0 ≤ n ∧ d = √n ∧ d * d = n ∧ 0 ≤ d := by
  unfold sqrtNan at h
  split at h
  · cases h
  · rename_i hn
    push Not at hn
    cases h
    rw [abs_of_nonneg hn]
    exact ⟨hn, rfl, Real.mul_self_sqrt hn, Real.sqrt_nonneg n⟩

theorem sqrtNan_none {n : ℝ} (h : sqrtNan n = none) : n < 0 := by
  unfold sqrtNan at h
  split at h
  · assumption
  · cases h

/-- The quadratic whose roots the code computes. -/
theorem dist_sq_pointAt (e c : Vec3) (he : e ≠ 0) (s : ℝ) :
    (pointAt e s - c).length ^ 2 = s ^ 2 - 2 * s * (e.dot c / e.length) + c.dot c := by
  have h := Vec3.length_pos he
  have hl := Vec3.length_mul_self e
  rw [Vec3.length_sq]
  unfold pointAt
  simp only [Vec3.sub_dot, Vec3.dot_sub, Vec3.smul_dot, Vec3.dot_smul, Vec3.dot_comm c e, ← hl]
  field_simp
  ring

theorem intersect_cases (e c : Vec3) (r : ℝ) (he : e ≠ 0) :
    (intersectLineSphere e c r = none ∧ ∀ s, r ^ 2 < (pointAt e s - c).length ^ 2) ∨
    ∃ a b, intersectLineSphere e c r = some (a, b) ∧ a ≤ b ∧
      ∀ s, (pointAt e s - c).length ^ 2 - r ^ 2 = (s - a) * (s - b) := by
  have h := Vec3.length_pos he
  have hb : 2 * (e.x / e.length * c.x + e.y / e.length * c.y + e.z / e.length * c.z) = 2 * (e.dot c / e.length) := by
    unfold Vec3.dot; field_simp
  unfold intersectLineSphere
  rw [if_neg h.ne']
  simp only [hb]
  change _ ∨ _
  generalize hB : e.dot c / e.length = B
  have hc : c.x * c.x + c.y * c.y + c.z * c.z - r * r = c.dot c - r ^ 2 := by unfold Vec3.dot; ring
  rw [hc]
  cases hs : sqrtNan (2 * B * (2 * B) - 4 * (c.dot c - r ^ 2)) with
  | none =>
    left
    refine ⟨rfl, fun s => ?_⟩
    have := sqrtNan_none hs
    rw [dist_sq_pointAt e c he, hB]
    nlinarith [sq_nonneg (s - B)]
  | some d =>
    right
    obtain ⟨h0, -, h2, h3⟩ := sqrtNan_some hs
    refine ⟨(2 * B - d) / 2, (2 * B + d) / 2, rfl, by linarith, fun s => ?_⟩
    rw [dist_sq_pointAt e c he, hB]
    linear_combination (1 / 4 : ℝ) * h2

/-- **C39.** For any line through the origin and any sphere: if the two distances `a`, `b` are returned then `a ≤ b` and the
points at these distances are exactly the points of the line on the sphere; if `nan` is returned the line misses the
sphere. -/
theorem C39_intersections (e c : Vec3) (r : ℝ) (he : e ≠ 0) (hr : 0 ≤ r) :
    (∀ a b, intersectLineSphere e c r = some (a, b) →
      a ≤ b ∧ ∀ s, OnSphere c r (pointAt e s) ↔ s = a ∨ s = b) ∧
    (intersectLineSphere e c r = none ↔ ∀ s, ¬ OnSphere c r (pointAt e s)) := by
  have hon : ∀ s, OnSphere c r (pointAt e s) ↔ (pointAt e s - c).length ^ 2 - r ^ 2 = 0 := by
    intro s
    unfold OnSphere
    have := Vec3.length_nonneg (pointAt e s - c)
    constructor
    · intro h; rw [h]; ring
    · intro h
      have : ((pointAt e s - c).length - r) * ((pointAt e s - c).length + r) = 0 := by linarith
      rcases mul_eq_zero.1 this with h' | h'
      · linarith
      · have : r = 0 := by linarith
        rw [this] at h' ⊢
        linarith
  rcases intersect_cases e c r he with ⟨h1, h2⟩ | ⟨a, b, h1, hab, h2⟩
  · rw [h1]
    refine ⟨fun a b h => (Option.some_ne_none _ h.symm).elim, iff_of_true rfl fun s hs => ?_⟩
    rw [hon] at hs
    have := h2 s
    linarith
  · rw [h1]
    refine ⟨fun a' b' h => ?_, iff_of_false (by simp) fun hs => hs a ((hon a).2 ?_)⟩
    · simp only [Option.some.injEq, Prod.mk.injEq] at h
      obtain ⟨rfl, rfl⟩ := h
      refine ⟨hab, fun s => ?_⟩
      rw [hon, h2, mul_eq_zero, sub_eq_zero, sub_eq_zero]
    · rw [h2]; ring

/-- **C39.** The ball is met exactly between the two distances, and not at all if `nan` is returned. -/
theorem C39_inside (e c : Vec3) (r : ℝ) (he : e ≠ 0) (hr : 0 ≤ r) (s : ℝ) :
    InBall c r (pointAt e s) ↔ ∃ a b, intersectLineSphere e c r = some (a, b) ∧ a ≤ s ∧ s ≤ b := by
  have hin : InBall c r (pointAt e s) ↔ (pointAt e s - c).length ^ 2 - r ^ 2 ≤ 0 := by
    unfold InBall
    have := Vec3.length_nonneg (pointAt e s - c)
    constructor
    · intro h; nlinarith
    · intro h
      exact abs_le_of_sq_le_sq' (by linarith) hr |>.2
  rw [hin]
  rcases intersect_cases e c r he with ⟨h1, h2⟩ | ⟨a, b, h1, hab, h2⟩
  · rw [h1]
    have := h2 s
    constructor
    · intro h; linarith
    · rintro ⟨a, b, h, -⟩; cases h
  · rw [h2, h1]
    constructor
    · intro h
      refine ⟨a, b, rfl, ?_, ?_⟩
      · by_contra hc
        push Not at hc
        nlinarith
      · by_contra hc
        push Not at hc
        nlinarith
    · rintro ⟨a', b', h, h3, h4⟩
      simp only [Option.some.injEq, Prod.mk.injEq] at h
      obtain ⟨rfl, rfl⟩ := h
      nlinarith

/-- Non-vacuity: the line along x meets the sphere of radius 1 around (3, 0, 0) at distances 2 and 4; it misses the sphere
around (0, 3, 0). -/
example : intersectLineSphere ⟨5, 0, 0⟩ ⟨3, 0, 0⟩ 1 = some (2, 4) ∧ intersectLineSphere ⟨5, 0, 0⟩ ⟨0, 3, 0⟩ 1 = none := by
  have h5 : √(25 : ℝ) = 5 := by rw [show (25 : ℝ) = 5 ^ 2 by norm_num]; exact Real.sqrt_sq (by norm_num)
  have h4 : √(4 : ℝ) = 2 := by rw [show (4 : ℝ) = 2 ^ 2 by norm_num]; exact Real.sqrt_sq (by norm_num)
  constructor
  · simp only [intersectLineSphere, Vec3.length, sqrtNan]
    norm_num [h5, h4]
  · simp only [intersectLineSphere, Vec3.length, sqrtNan]
    norm_num [h5, h4]

/-! ### C40 -/

/-- Specification: the point reached after `k` times the direction. -/
def pointOn (start direction : Vec3) (k : ℝ) : Vec3 := start + k • direction

/-- Specification: on the ellipsoid around the origin with the given radii along the axes. -/
def OnEllipsoid (radii p : Vec3) : Prop :=
  (p.x / radii.x) ^ 2 + (p.y / radii.y) ^ 2 + (p.z / radii.z) ^ 2 = 1

/-- Specification: strictly inside. -/
def InsideEllipsoid (radii p : Vec3) : Prop :=
  (p.x / radii.x) ^ 2 + (p.y / radii.y) ^ 2 + (p.z / radii.z) ^ 2 < 1

theorem onEllipsoid_iff (radii p : Vec3) : OnEllipsoid radii p ↔ (p / radii).dot (p / radii) = 1 := by
  unfold OnEllipsoid Vec3.dot
  simp only [Vec3.div_x, Vec3.div_y, Vec3.div_z, pow_two]

theorem insideEllipsoid_iff (radii p : Vec3) : InsideEllipsoid radii p ↔ (p / radii).dot (p / radii) < 1 := by
  unfold InsideEllipsoid Vec3.dot
  simp only [Vec3.div_x, Vec3.div_y, Vec3.div_z, pow_two]

/-- Facts about the scaled problem. -/
structure Scaled (s d : Vec3) (k0 q : ℝ) : Prop where
  quad : ∀ k, (s + k • d).dot (s + k • d) = q + d.dot d * (k - k0) ^ 2
  dpos : 0 < d.dot d
  closest : s - vectorProjection s d = s + k0 • d
  behind : ((s - vectorProjection s d) - s).dot d = k0 * d.dot d
  pmag : (s - vectorProjection s d).length * (s - vectorProjection s d).length = q

theorem scaled (s d : Vec3) (hd : d ≠ 0) : ∃ k0 q, Scaled s d k0 q := by
  have hpos : 0 < d.dot d := lt_of_le_of_ne (Vec3.dot_self_nonneg d) fun e => hd (Vec3.dot_self_eq_zero.1 e.symm)
  have hne := hpos.ne'
  have hcl : s - vectorProjection s d = s + (-(s.dot d / d.dot d)) • d := by
    unfold vectorProjection; ext <;> simp <;> ring
  have quad : ∀ k, (s + k • d).dot (s + k • d) = (s.dot s - s.dot d ^ 2 / d.dot d) +
      d.dot d * (k - (-(s.dot d / d.dot d))) ^ 2 := by
    intro k
    simp only [Vec3.add_dot, Vec3.dot_add, Vec3.smul_dot, Vec3.dot_smul, Vec3.dot_comm d s]
    field_simp
    ring
  refine ⟨-(s.dot d / d.dot d), s.dot s - s.dot d ^ 2 / d.dot d, quad, hpos, hcl, ?_, ?_⟩
  · rw [hcl]
    simp only [Vec3.sub_dot, Vec3.add_dot, Vec3.smul_dot]
    ring
  · rw [Vec3.length_mul_self, hcl, quad]
    ring

theorem div_smul_add (a d radii : Vec3) (k : ℝ) : (a + k • d) / radii = a / radii + k • (d / radii) := by
  ext <;> simp <;> ring

theorem mul_div_vec (p radii : Vec3) (h1 : radii.x ≠ 0) (h2 : radii.y ≠ 0) (h3 : radii.z ≠ 0) :
    (p / radii) * radii = p := by
  ext <;> simp <;> field_simp

theorem length_lt_one {s : Vec3} : s.length < 1 ↔ s.dot s < 1 := by
  rw [← Vec3.length_mul_self]
  have := Vec3.length_nonneg s
  constructor <;> intro h <;> nlinarith

theorem length_eq_one {s : Vec3} : s.length = 1 ↔ s.dot s = 1 := by
  rw [← Vec3.length_mul_self]
  have := Vec3.length_nonneg s
  constructor
  · intro h; rw [h]; ring
  · intro h; nlinarith

/-- **C40.** For every start, direction and radii, the answer is: the start itself if it is on the surface; the point where
the line leaves if the start is inside; the first point ahead on the surface if the start is outside; and `nan` exactly
if the start is outside and no point ahead is on the surface. -/
theorem C40_first_point (start direction radii : Vec3) (hd : direction ≠ 0)
    (h1 : 0 < radii.x) (h2 : 0 < radii.y) (h3 : 0 < radii.z) :
    match lineEllipsoidIntersection start direction radii with
    | some p => ∃ k, 0 ≤ k ∧ p = pointOn start direction k ∧ OnEllipsoid radii p ∧
        ∀ k', 0 ≤ k' → k' < k → ¬ OnEllipsoid radii (pointOn start direction k')
    | none => ¬ InsideEllipsoid radii start ∧ ∀ k, 0 ≤ k → ¬ OnEllipsoid radii (pointOn start direction k) := by
  have hmd := fun p => mul_div_vec p radii h1.ne' h2.ne' h3.ne'
  set s := start / radii with hs
  set d := direction / radii with hdd
  have hd0 : d ≠ 0 := by
    intro h
    apply hd
    rw [← hmd direction, ← hdd, h]
    ext <;> simp
  obtain ⟨k0, q, hq⟩ := scaled s d hd0
  have hlen : 0 < d.length := Vec3.length_pos hd0
  have hdl : d.dot d = d.length * d.length := (Vec3.length_mul_self d).symm
  have hon : ∀ k, OnEllipsoid radii (pointOn start direction k) ↔ q + d.dot d * (k - k0) ^ 2 = 1 := by
    intro k
    rw [onEllipsoid_iff]
    unfold pointOn
    rw [div_smul_add, ← hs, ← hdd, hq.quad]
  have hss : s.dot s = q + d.dot d * k0 ^ 2 := by
    have := hq.quad 0
    rw [show s + (0 : ℝ) • d = s by ext <;> simp] at this
    rw [this]; ring
  have hdpos := hq.dpos
  -- the point the code computes, for either sign
  have hpt : ∀ σ h : ℝ, σ ^ 2 = 1 → h * h = 1 - q →
      ((s - vectorProjection s d) + (σ * h) • ((1 / d.length) • d)) * radii =
        pointOn start direction (k0 + σ * h / d.length) ∧
      OnEllipsoid radii (pointOn start direction (k0 + σ * h / d.length)) := by
    intro σ h hσ hh
    constructor
    · rw [hq.closest]
      have : s + k0 • d + (σ * h) • ((1 / d.length) • d) = pointOn start direction (k0 + σ * h / d.length) / radii := by
        unfold pointOn
        rw [div_smul_add, ← hs, ← hdd]
        ext <;> simp <;> ring
      rw [this, hmd]
    · rw [hon, hdl]
      field_simp
      nlinarith
  unfold lineEllipsoidIntersection
  simp only [← hs, ← hdd]
  by_cases hone : s.length = 1
  · rw [if_pos hone]
    refine ⟨0, le_rfl, ?_, ?_, fun k' h h' => absurd h' (not_lt.2 h)⟩
    · unfold pointOn; ext <;> simp
    · rw [onEllipsoid_iff, ← hs]; exact length_eq_one.1 hone
  rw [if_neg hone]
  have hone' : s.dot s ≠ 1 := fun h => hone (length_eq_one.2 h)
  rw [hq.pmag]
  by_cases hin : s.length < 1
  · -- inside
    have hin' := length_lt_one.1 hin
    simp only [hin, decide_true, if_true]
    have hq1 : q < 1 := by nlinarith [mul_nonneg hdpos.le (sq_nonneg k0)]
    cases hc : sqrtNan (1 - q) with
    | none => exact absurd (sqrtNan_none hc) (by linarith)
    | some h =>
      obtain ⟨-, -, hh, hh0⟩ := sqrtNan_some hc
      obtain ⟨e1, e2⟩ := hpt 1 h (by norm_num) hh
      have hk : 0 ≤ k0 + 1 * h / d.length := by
        rw [one_mul]
        have : (k0 * d.length) ^ 2 ≤ h ^ 2 := by
          rw [hdl] at hss; nlinarith
        have := (abs_le_of_sq_le_sq' this hh0).1
        rw [show k0 + h / d.length = (k0 * d.length + h) / d.length by field_simp]
        exact div_nonneg (by linarith) hlen.le
      refine ⟨k0 + 1 * h / d.length, hk, e1, e1 ▸ e2, fun k' hk' hlt hc' => ?_⟩
      rw [hon] at hc' e2
      have e3 : d.dot d * ((k' - k0) ^ 2 - (k0 + 1 * h / d.length - k0) ^ 2) = 0 := by linarith
      have e4 := (mul_eq_zero.1 e3).resolve_left hdpos.ne'
      have e5 : (k' - (k0 + 1 * h / d.length)) * (k' - k0 + (k0 + 1 * h / d.length - k0)) = 0 := by linarith
      rcases mul_eq_zero.1 e5 with e6 | e6
      · linarith
      · -- the other root is behind the start, which is inside
        have : k' = k0 - h / d.length := by rw [one_mul] at e6; linarith
        have h6 : k0 * d.length - h = k' * d.length := by rw [this]; field_simp
        have h7 : 0 ≤ k0 * d.length - h := by rw [h6]; positivity
        rw [hdl] at hss
        nlinarith
  · -- outside
    have hout : 1 < s.dot s := by
      have : ¬ s.dot s < 1 := fun h => hin (length_lt_one.2 h)
      exact lt_of_le_of_ne (not_lt.1 this) (Ne.symm hone')
    simp only [hin, decide_false, Bool.false_eq_true, if_false]
    rw [hq.behind]
    by_cases hb : k0 * d.dot d < 0
    · have hk0 : k0 < 0 := by
        by_contra hc; push Not at hc; nlinarith [mul_nonneg hc hdpos.le]
      simp only [hb, decide_true, if_true]
      refine ⟨?_, fun k hk hc => ?_⟩
      · rw [insideEllipsoid_iff, ← hs]; linarith
      · rw [hon] at hc
        have : k0 ^ 2 ≤ (k - k0) ^ 2 := by nlinarith
        nlinarith [mul_le_mul_of_nonneg_left this hdpos.le]
    · have hk0 : 0 ≤ k0 := by
        push Not at hb
        by_contra hc; push Not at hc; nlinarith [mul_neg_of_neg_of_pos hc hdpos]
      simp only [hb, decide_false, Bool.false_eq_true, if_false]
      cases hc : sqrtNan (1 - q) with
      | none =>
        have := sqrtNan_none hc
        refine ⟨?_, fun k hk hc' => ?_⟩
        · rw [insideEllipsoid_iff, ← hs]; linarith
        · rw [hon] at hc'
          nlinarith [mul_nonneg hdpos.le (sq_nonneg (k - k0))]
      | some h =>
        obtain ⟨-, -, hh, hh0⟩ := sqrtNan_some hc
        obtain ⟨e1, e2⟩ := hpt (-1) h (by norm_num) hh
        have hk : 0 ≤ k0 + -1 * h / d.length := by
          have h5 : h ^ 2 ≤ (k0 * d.length) ^ 2 := by
            rw [hdl] at hss; nlinarith
          have := (abs_le_of_sq_le_sq' h5 (by positivity)).2
          rw [show k0 + -1 * h / d.length = (k0 * d.length - h) / d.length by field_simp; ring]
          exact div_nonneg (by linarith) hlen.le
        refine ⟨k0 + -1 * h / d.length, hk, e1, e1 ▸ e2, fun k' hk' hlt hc' => ?_⟩
        rw [hon] at hc' e2
        have e3 : d.dot d * ((k' - k0) ^ 2 - (k0 + -1 * h / d.length - k0) ^ 2) = 0 := by linarith
        have e4 := (mul_eq_zero.1 e3).resolve_left hdpos.ne'
        have e5 : (k' - (k0 + -1 * h / d.length)) * (k' - k0 + (k0 + -1 * h / d.length - k0)) = 0 := by linarith
        have : 0 ≤ h / d.length := by positivity
        rcases mul_eq_zero.1 e5 with e6 | e6
        · linarith
        · have : -1 * h / d.length = -(h / d.length) := by ring
          rw [this] at e6 hlt
          linarith

/-- Non-vacuity: looking from (4, 0, 0) toward the origin at the ellipsoid with radii 2, 1, 1. -/
example : (⟨-1, 0, 0⟩ : Vec3) ≠ 0 ∧ OnEllipsoid ⟨2, 1, 1⟩ (pointOn ⟨4, 0, 0⟩ ⟨-1, 0, 0⟩ 2) ∧
    ¬ InsideEllipsoid ⟨2, 1, 1⟩ ⟨4, 0, 0⟩ := by
  refine ⟨fun h => ?_, ?_, ?_⟩
  · have := congrArg Vec3.x h
    norm_num at this
  · norm_num [OnEllipsoid, pointOn]
  · norm_num [InsideEllipsoid]

/-! ### C41 -/

theorem SightAnswer.ofProp_yes {p : Prop} : SightAnswer.ofProp p = .yes ↔ p := by
  unfold SightAnswer.ofProp; split <;> simp_all

theorem SightAnswer.ofProp_no {p : Prop} : SightAnswer.ofProp p = .no ↔ ¬ p := by
  unfold SightAnswer.ofProp; split <;> simp_all

/-- Specification: the Earth as a sphere of radius `erad` around the geocenter. -/
def InEarth (p : Vec3) : Prop := p.length ≤ erad

theorem erad_pos : 0 < erad := by unfold erad; norm_num

/-- The point a fraction `k` of the way from `a` to `b`. -/
def between (a b : Vec3) (k : ℝ) : Vec3 := a + k • (b - a)

theorem inBall_between (a b : Vec3) (hab : b - a ≠ 0) (s : ℝ) :
    InBall (-a) erad (pointAt (b - a) s) ↔ InEarth (between a b (s / (b - a).length)) := by
  unfold InBall InEarth pointAt between
  rw [show (s / (b - a).length) • (b - a) - -a = a + (s / (b - a).length) • (b - a) by
    ext <;> simp <;> ring]

/-- The line test in terms of points between two places: `far > 0` says that the Earth is met beyond `a` toward `b`. -/
theorem far_pos_iff (a b : Vec3) :
    0 < nanToNum ((intersectLineSphere (b - a) (-a) erad).map Prod.snd) ↔
      b ≠ a ∧ ∃ k, 0 < k ∧ InEarth (between a b k) := by
  by_cases hab : b - a = 0
  · have h : (b - a).length = 0 := by rw [hab]; exact Vec3.length_zero
    have hba : b = a := sub_eq_zero.1 hab
    simp [intersectLineSphere, Vec3.length_zero, nanToNum, hba]
  have hba : b ≠ a := fun h => hab (sub_eq_zero.2 h)
  have hl := Vec3.length_pos hab
  have key := C39_inside (b - a) (-a) erad hab erad_pos.le
  constructor
  · intro h
    refine ⟨hba, ?_⟩
    cases hi : intersectLineSphere (b - a) (-a) erad with
    | none => rw [hi] at h; simp [nanToNum] at h
    | some p =>
      obtain ⟨x, y⟩ := p
      rw [hi] at h
      simp only [Option.map_some, nanToNum] at h
      have hxy := ((C39_intersections _ _ _ hab erad_pos.le).1 x y hi).1
      refine ⟨y / (b - a).length, by positivity, ?_⟩
      rw [← inBall_between a b hab, key]
      exact ⟨x, y, hi, hxy, le_rfl⟩
  · rintro ⟨-, k, hk, hin⟩
    have : InBall (-a) erad (pointAt (b - a) (k * (b - a).length)) := by
      rw [inBall_between a b hab, mul_div_cancel_right₀ _ hl.ne']
      exact hin
    rw [key] at this
    obtain ⟨x, y, hi, h1, h2⟩ := this
    rw [hi]
    simp only [Option.map_some, nanToNum]
    have : 0 < k * (b - a).length := by positivity
    linarith

/-- **C41.** With the satellite's geocentric position `sat` known (either because the position is geocentric, or because the
observer's geocentric position is known), it is reported as not sunlit exactly if the ray from it toward the Sun meets
the Earth; otherwise the question is refused. -/
theorem C41_sunlit (xyz sun : Vec3) (geocentric : Bool) (g : Option Vec3) :
    (geocentric = true → isSunlit geocentric xyz g sun ≠ .valueError ∧
      (isSunlit geocentric xyz g sun = .no ↔ sun ≠ xyz ∧ ∃ k, 0 < k ∧ InEarth (between xyz sun k))) ∧
    (∀ o, geocentric = false → g = some o → isSunlit geocentric xyz g sun ≠ .valueError ∧
      (isSunlit geocentric xyz g sun = .no ↔ sun ≠ o + xyz ∧ ∃ k, 0 < k ∧ InEarth (between (o + xyz) sun k))) ∧
    (geocentric = false → g = none → isSunlit geocentric xyz g sun = .valueError) := by
  have hne : ∀ p : Prop, SightAnswer.ofProp p ≠ .valueError := by
    intro p; unfold SightAnswer.ofProp; split <;> simp
  refine ⟨?_, ?_, ?_⟩
  · rintro rfl
    refine ⟨by simp only [isSunlit, if_true]; exact hne _, ?_⟩
    simp only [isSunlit, if_true]
    rw [SightAnswer.ofProp_no, not_le, show sun + -xyz = sun - xyz by rw [sub_eq_add_neg]]
    exact far_pos_iff xyz sun
  · rintro o rfl rfl
    refine ⟨by simp only [isSunlit, Bool.false_eq_true, if_false, Option.map_some]; exact hne _, ?_⟩
    simp only [isSunlit, Bool.false_eq_true, if_false, Option.map_some]
    have e : -xyz - o = -(o + xyz) := by ext <;> simp <;> ring
    rw [e, SightAnswer.ofProp_no, not_le, show sun + -(o + xyz) = sun - (o + xyz) by rw [sub_eq_add_neg]]
    exact far_pos_iff (o + xyz) sun
  · rintro rfl rfl
    simp [isSunlit]

theorem between_length_le (a b : Vec3) {k : ℝ} (hk : 1 ≤ k) : b.length ≤ max a.length (between a b k).length := by
  have hk0 : 0 < k := by linarith
  have e : b = (1 - 1 / k) • a + (1 / k) • between a b k := by
    unfold between
    ext <;> simp <;> field_simp <;> ring
  have h1 : 0 ≤ 1 / k := by positivity
  have h2 : 0 ≤ 1 - 1 / k := by
    rw [sub_nonneg, div_le_one hk0]; exact hk
  have h3 := Vec3.length_add_le ((1 - 1 / k) • a) ((1 / k) • between a b k)
  rw [← e, Vec3.length_smul_of_nonneg h2, Vec3.length_smul_of_nonneg h1] at h3
  have h4 := le_max_left a.length (between a b k).length
  have h5 := le_max_right a.length (between a b k).length
  nlinarith [mul_le_mul_of_nonneg_left h4 h2, mul_le_mul_of_nonneg_left h5 h1]

/-- **C41.** When the Sun is farther from Earth's center than the satellite and than Earth's surface, "not sunlit" is
exactly: the segment from the satellite to the Sun passes through the Earth. -/
theorem C41_sunlit_segment (sat sun : Vec3) (h1 : sat.length < sun.length) (h2 : erad < sun.length) (g : Option Vec3) :
    isSunlit true sat g sun = .no ↔ ∃ k, 0 < k ∧ k < 1 ∧ InEarth (between sat sun k) := by
  rw [((C41_sunlit sat sun true g).1 rfl).2]
  constructor
  · rintro ⟨-, k, hk, hin⟩
    refine ⟨k, hk, ?_, hin⟩
    by_contra hc
    push Not at hc
    have := between_length_le sat sun hc
    have : sun.length ≤ max sat.length erad := this.trans (max_le_max_left _ hin)
    rcases le_max_iff.1 this with h | h <;> linarith
  · rintro ⟨k, hk, -, hin⟩
    refine ⟨?_, k, hk, hin⟩
    intro h
    rw [h] at h1
    exact lt_irrefl _ h1

/-- **C41.** From an observer with geocentric position `o`, a target at `xyz` from it is reported as behind the Earth
exactly if the open segment from observer to target meets the Earth; without `o` the question is refused. -/
theorem C41_behind_earth (xyz o : Vec3) :
    isBehindEarth xyz none = .valueError ∧ isBehindEarth xyz (some o) ≠ .valueError ∧
    (isBehindEarth xyz (some o) = .yes ↔ ∃ k, 0 < k ∧ k < 1 ∧ xyz ≠ 0 ∧ InEarth (between o (o + xyz) k)) := by
  have hne : ∀ p : Prop, SightAnswer.ofProp p ≠ .valueError := by
    intro p; unfold SightAnswer.ofProp; split <;> simp
  refine ⟨rfl, hne _, ?_⟩
  simp only [isBehindEarth]
  rw [SightAnswer.ofProp_yes]
  have e : (o + xyz) - o = xyz := by ext <;> simp
  by_cases hx : xyz = 0
  · have h : xyz.length = 0 := by rw [hx]; exact Vec3.length_zero
    simp [intersectLineSphere, Vec3.length_zero, nanToNum, hx]
  have hl := Vec3.length_pos hx
  have key := C39_inside xyz (-o) erad hx erad_pos.le
  have hb := inBall_between o (o + xyz) (by rw [e]; exact hx)
  rw [e] at hb
  constructor
  · rintro ⟨h1, h2⟩
    cases hi : intersectLineSphere xyz (-o) erad with
    | none => rw [hi] at h1; simp [nanToNum] at h1
    | some p =>
      obtain ⟨x, y⟩ := p
      rw [hi] at h1 h2
      simp only [Option.map_some, nanToNum] at h1 h2
      have hxy := ((C39_intersections _ _ _ hx erad_pos.le).1 x y hi).1
      obtain ⟨s, hs1, hs2, hs3, hs4⟩ : ∃ s, 0 < s ∧ s < xyz.length ∧ x ≤ s ∧ s ≤ y := by
        rcases le_or_gt x 0 with hx0 | hx0
        · rcases le_or_gt xyz.length y with hy | hy
          · exact ⟨xyz.length / 2, by linarith, by linarith, by linarith, by linarith⟩
          · exact ⟨y, h1, hy, hxy, le_rfl⟩
        · exact ⟨x, hx0, h2, le_rfl, hxy⟩
      refine ⟨s / xyz.length, by positivity, by rw [div_lt_one hl]; exact hs2, hx, ?_⟩
      rw [← hb, key]
      exact ⟨x, y, hi, hs3, hs4⟩
  · rintro ⟨k, hk0, hk1, -, hin⟩
    have : InBall (-o) erad (pointAt xyz (k * xyz.length)) := by
      rw [hb, mul_div_cancel_right₀ _ hl.ne']
      exact hin
    rw [key] at this
    obtain ⟨x, y, hi, h1, h2⟩ := this
    rw [hi]
    simp only [Option.map_some, nanToNum]
    have : 0 < k * xyz.length := by positivity
    constructor
    · linarith
    · nlinarith

/-- Non-vacuity: a satellite 7000 km from the geocenter on the night side is not sunlit; on the day side it is. -/
example : isSunlit true ⟨-7e6, 0, 0⟩ none ⟨1.5e11, 0, 0⟩ = .no ∧ isSunlit true ⟨7e6, 0, 0⟩ none ⟨1.5e11, 0, 0⟩ ≠ .no := by
  have hx : ∀ x : ℝ, (⟨x, 0, 0⟩ : Vec3).length = |x| := by
    intro x; unfold Vec3.length; simp only [mul_zero, add_zero]; exact Real.sqrt_mul_self_eq_abs x
  constructor
  · rw [C41_sunlit_segment]
    · refine ⟨7e6 / (1.5e11 + 7e6), by norm_num, by norm_num, ?_⟩
      unfold InEarth between
      rw [show (⟨-7e6, 0, 0⟩ : Vec3) + (7e6 / (1.5e11 + 7e6) : ℝ) • ((⟨1.5e11, 0, 0⟩ : Vec3) - ⟨-7e6, 0, 0⟩) = 0 by
        ext <;> simp <;> norm_num]
      rw [Vec3.length_zero]
      exact erad_pos.le
    · rw [hx, hx]; norm_num [abs_of_pos, abs_of_neg]
    · rw [hx]; norm_num [erad]
  · rw [Ne, C41_sunlit_segment]
    · rintro ⟨k, h0, h1, hin⟩
      unfold InEarth between at hin
      rw [show (⟨7e6, 0, 0⟩ : Vec3) + k • ((⟨1.5e11, 0, 0⟩ : Vec3) - ⟨7e6, 0, 0⟩) = ⟨7e6 + k * (1.5e11 - 7e6), 0, 0⟩ by
        ext <;> simp] at hin
      rw [hx, abs_of_pos (by positivity)] at hin
      unfold erad at hin
      nlinarith
    · rw [hx, hx]; norm_num
    · rw [hx]; norm_num [erad]

end Skyfield
