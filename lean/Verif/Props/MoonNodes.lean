import Verif.Props.Seasons
import Verif.Props.SettlingSearch

/-
C118, third part: the search of `moon_nodes`, with the ecliptic of date as Skyfield computes it.
-/
namespace Skyfield
open _root_.Spec Real

/-- Specification: the Moon's orbit crosses the ecliptic.  On the ecliptic of any date of the span, from that date on, the sine of the Moon's latitude is `A sin U`, where `A`, the sine
of the inclination of the orbit, is at least `tilt`, and `U`, how far along the orbit the Moon is from the node, grows by at least `slow` radians a day, and within `long` days by
no more than `reach`.  As seen on the ecliptic of one date and of another, `U` is about the same, to within half a radian. -/
structure OrbitCrosses (ts : Timescale ℝ) (moon : ℝ → Vec3) (lo hi tilt slow long reach : ℝ) (A U : ℝ → ℝ → ℝ) : Prop where
  somewhere : ∀ jd, lo ≤ jd → jd ≤ hi → moon jd ≠ 0
  inclined : ∀ a b, lo ≤ a → a ≤ b → b ≤ hi → tilt ≤ A a b
  latitude : ∀ a b s, lo ≤ a → a ≤ b → b ≤ hi → (ts.ttJd a none).sky = some s → sin (eclipticLat s (moon b)) = A a b * sin (U a b)
  onward : ∀ a b c, lo ≤ a → a ≤ b → b ≤ c → c ≤ hi → slow * (c - b) ≤ U a c - U a b
  bounded : ∀ a b c, lo ≤ a → a ≤ b → b ≤ c → c ≤ hi → c - b < long → U a c - U a b ≤ reach
  coherent : ∀ a b, lo ≤ a → a ≤ b → b ≤ hi → |U a b - U b b| ≤ 1 / 2

/-! ### How the ecliptic's motion moves the latitude -/

private theorem abs_z_le' (v : Vec3) : |v.z| ≤ v.length := by
  refine abs_le_of_sq_le_sq ?_ (Vec3.length_nonneg v)
  rw [Vec3.length_sq]
  unfold Vec3.dot
  nlinarith [mul_self_nonneg v.x, mul_self_nonneg v.y]

private theorem ecliptic_height (σ : SkyTime) {x : Vec3} (hx : x ≠ 0) :
    ((eclipticRotation σ).mulVec x.direction).z = ((eclipticRotation σ).mulVec x.direction).length * sin (eclipticLat σ x) := by
  obtain ⟨-, -, m3⟩ := C36_meaning ((eclipticRotation σ).mulVec x)
  have hl : frameLatlon eclipticFrame σ x = toSpherical ((eclipticRotation σ).mulVec x) := rfl
  unfold eclipticLat
  rw [hl]
  have hpos := Vec3.length_pos hx
  have e : (eclipticRotation σ).mulVec x = x.length • (eclipticRotation σ).mulVec x.direction := by
    rw [← Mat3.mulVec_smul, ← Vec3.smul_direction hx]
  have hl1 : (toSpherical ((eclipticRotation σ).mulVec x)).1 = x.length * ((eclipticRotation σ).mulVec x.direction).length := by
    rw [(C36_range _).1, e, Vec3.length_smul_of_nonneg hpos.le]
  have ez : ((eclipticRotation σ).mulVec x).z = x.length * ((eclipticRotation σ).mulVec x.direction).z := by rw [e]; rfl
  rw [hl1, ez] at m3
  exact mul_left_cancel₀ hpos.ne' (by rw [m3]; ring)

/-- **C118.** As the ecliptic of date moves, the sine of the latitude of a fixed direction changes by no more than 2.04e-6 a day. -/
theorem C118_fixed_latitude (ts : Timescale ℝ) {a b : ℝ} (ha : 2451545 - 29 * 36525 ≤ a) (hab : a ≤ b) (hb : b ≤ 2451545 + 29 * 36525)
    {series : NutationSeries} {s s' : SkyTime} (hs : (ts.ttJd a none).sky series = some s) (hs' : (ts.ttJd b none).sky series = some s') {v : Vec3} (hv : v ≠ 0) :
    |sin (eclipticLat s v) - sin (eclipticLat s' v)| ≤ 2.04e-6 * (b - a) + 1e-13 := by
  have hu := Vec3.direction_length hv
  have hN := near_ecliptics ts ha hab hb hs hs' v.direction
  rw [hu, mul_one] at hN
  have hz := (abs_z_le' _).trans hN
  obtain ⟨l1, l2⟩ := ecliptic_length s hu
  obtain ⟨k1, k2⟩ := ecliptic_length s' hu
  rw [Vec3.sub_z, ecliptic_height s hv, ecliptic_height s' hv] at hz
  generalize ((eclipticRotation s).mulVec v.direction).length = l at *
  generalize ((eclipticRotation s').mulVec v.direction).length = k at *
  have a1 := abs_sin_le_one (eclipticLat s v)
  have a2 := abs_sin_le_one (eclipticLat s' v)
  generalize sin (eclipticLat s v) = x at *
  generalize sin (eclipticLat s' v) = y at *
  have e : x - y = (l * x - k * y) + (1 - l) * x - (1 - k) * y := by ring
  have b1 : |(1 - l) * x| ≤ 2e-14 := by
    rw [abs_mul]
    have : |1 - l| ≤ 2e-14 := abs_le.2 ⟨by linarith, by linarith⟩
    exact (mul_le_mul this a1 (abs_nonneg _) (by norm_num)).trans (by norm_num)
  have b2 : |(1 - k) * y| ≤ 2e-14 := by
    rw [abs_mul]
    have : |1 - k| ≤ 2e-14 := abs_le.2 ⟨by linarith, by linarith⟩
    exact (mul_le_mul this a2 (abs_nonneg _) (by norm_num)).trans (by norm_num)
  rw [abs_le] at hz b1 b2 ⊢
  rw [e]
  constructor <;> linarith [hz.1, hz.2, b1.1, b1.2, b2.1, b2.2]

/-! ### Above and below in turn -/

private theorem sin_steep {x : ℝ} (h0 : 0 ≤ x) (h1 : x ≤ 1.5) : 0.63 * x ≤ sin x := by
  have hp := pi_gt_d4
  have hq := pi_lt_d4
  refine le_trans ?_ (mul_le_sin h0 (by linarith))
  refine mul_le_mul_of_nonneg_right ?_ h0
  rw [le_div_iff₀ pi_pos]
  linarith

/-- Where a sine is small. -/
private theorem small_sin {y : ℝ} (h0 : 0.01 < y) (h1 : y < π - 0.01) : 0.006 < sin y := by
  have hp := pi_gt_d4
  have hq := pi_lt_d4
  rcases le_total y (π / 2) with h | h
  · by_cases h2 : y ≤ 1.5
    · have := sin_steep (by linarith) h2
      linarith
    · have h3 := sin_le_sin_of_le_of_le_pi_div_two (by linarith : -(π / 2) ≤ 1.5) h (by linarith : (1.5 : ℝ) ≤ y)
      have := sin_steep (x := 1.5) (by norm_num) (by norm_num)
      linarith
  · rw [← sin_pi_sub]
    by_cases h2 : π - y ≤ 1.5
    · have := sin_steep (by linarith : 0 ≤ π - y) h2
      linarith
    · have h3 := sin_le_sin_of_le_of_le_pi_div_two (by linarith : -(π / 2) ≤ 1.5) (by linarith : π - y ≤ π / 2) (by linarith : (1.5 : ℝ) ≤ π - y)
      have := sin_steep (x := 1.5) (by norm_num) (by norm_num)
      linarith

/-- Above, below and above again in less than half a turn. -/
private theorem nodes_apart {x y v p q r d e slow κ j tiny : ℝ} (hx0 : 0 ≤ x) (hx1 : x < 2 * π) (sx : 0 ≤ sin x) (hslow : 0 ≤ slow) (hd : 0 ≤ d) (he : 0 ≤ e)
    (hxy : slow * d ≤ y - x) (hyv : 0 ≤ v - y) (hv : v - x ≤ 3.09) (hpr : slow * e ≤ r - p) (c1 : |y - p| ≤ 1 / 2) (c2 : |v - q| ≤ 1 / 2) (c3 : |r - q| ≤ 1 / 2)
    (sy : sin y ≤ κ * d + j) (sy' : κ * d + j ≤ 0.006) (sv : -0.006 ≤ sin v) (sp : sin p ≤ 0) (sr : -(κ * e + j) ≤ sin r) (hκ : κ < 0.63 * slow)
    (hj : j ≤ (0.63 * slow - κ) * tiny) : d ≤ tiny ∨ e ≤ tiny := by
  have hp := pi_gt_d4
  have hq := pi_lt_d4
  have hsd : 0 ≤ slow * d := mul_nonneg hslow hd
  have hse : 0 ≤ slow * e := mul_nonneg hslow he
  have fin : ∀ {x}, 0.63 * (slow * x) ≤ κ * x + j → x ≤ tiny := fun {x} h =>
    le_of_mul_le_mul_left (a := 0.63 * slow - κ) (by linarith) (by linarith)
  rw [abs_le] at c1 c2 c3
  have hx : x ≤ π := by
    by_contra hc
    push Not at hc
    have := sin_pos_of_pos_of_lt_pi (by linarith : 0 < x - π) (by linarith)
    rw [sin_sub_pi] at this
    linarith
  have hv' : v ≤ π + 0.01 := by
    by_contra hc
    push Not at hc
    have := small_sin (by linarith : 0.01 < v - π) (by linarith)
    rw [sin_sub_pi] at this
    linarith
  by_cases hy : y ≤ 0.01
  · left
    have := sin_steep (by linarith : 0 ≤ y) (by linarith)
    exact fin (by linarith)
  · right
    have hy' : π - 0.01 ≤ y := by
      by_contra hc
      push Not at hc hy
      have := small_sin hy hc
      linarith
    have hpp : π ≤ p := by
      by_contra hc
      push Not at hc
      have := sin_pos_of_pos_of_lt_pi (by linarith : 0 < p) hc
      linarith
    have := sin_steep (x := r - π) (by linarith) (by linarith)
    rw [sin_sub_pi] at this
    exact fin (by linarith)

/-- Something that rises and falls about a level like the sine of an angle that advances by less than half a turn in `long`, and by at least `slow` a day, as measured from a level that
drifts: if it is not below, then not above, then not below again within `long`, then only just. -/
theorem crossing_returns {lo hi tilt slow long κ j tiny : ℝ} {z A U : ℝ → ℝ → ℝ} (htilt : 0 < tilt) (hslow : 0 ≤ slow) (hκ0 : 0 ≤ κ) (hj0 : 0 ≤ j)
    (hlong : κ * long + j ≤ 0.006 * tilt) (hκ : κ < 0.63 * slow * tilt) (hj : j ≤ (0.63 * slow * tilt - κ) * tiny)
    (hA : ∀ a b, lo ≤ a → a ≤ b → b ≤ hi → tilt ≤ A a b)
    (hz : ∀ a b, lo ≤ a → a ≤ b → b ≤ hi → z a b = A a b * sin (U a b)) (hon : ∀ a b c, lo ≤ a → a ≤ b → b ≤ c → c ≤ hi → slow * (c - b) ≤ U a c - U a b)
    (hb : ∀ a b c, lo ≤ a → a ≤ b → b ≤ c → c ≤ hi → c - b < long → U a c - U a b ≤ 3.09) (hc : ∀ a b, lo ≤ a → a ≤ b → b ≤ hi → |U a b - U b b| ≤ 1 / 2)
    (hm : ∀ a b, lo ≤ a → a ≤ b → b ≤ hi → b - a < long → |z a b - z b b| ≤ κ * (b - a) + j) {s u w : ℝ} (h0 : lo ≤ s) (hsu : s < u) (huw : u < w) (h1 : w ≤ hi)
    (hw : w - s < long) (zs : 0 ≤ z s s) (zu : z u u ≤ 0) (zw : 0 ≤ z w w) : u - s ≤ tiny ∨ w - u ≤ tiny := by
  have hp := pi_pos
  have key : ∀ {a b g : ℝ}, lo ≤ a → a ≤ b → b ≤ hi → 0 ≤ g → z a b ≤ g → sin (U a b) ≤ g / tilt := by
    intro a b g ha hab hb' hg h
    rw [hz a b ha hab hb'] at h
    have := hA a b ha hab hb'
    rw [le_div_iff₀ htilt]
    rcases le_total 0 (sin (U a b)) with hp' | hn
    · nlinarith
    · nlinarith
  have key' : ∀ {a b g : ℝ}, lo ≤ a → a ≤ b → b ≤ hi → 0 ≤ g → -g ≤ z a b → -(g / tilt) ≤ sin (U a b) := by
    intro a b g ha hab hb' hg h
    rw [hz a b ha hab hb'] at h
    have := hA a b ha hab hb'
    rw [neg_le, le_div_iff₀ htilt]
    rcases le_total 0 (sin (U a b)) with hp' | hn
    · nlinarith
    · nlinarith
  set n := ⌊U s s / (2 * π)⌋ with hn
  have f1 := Int.floor_le (U s s / (2 * π))
  have f2 := Int.lt_floor_add_one (U s s / (2 * π))
  rw [← hn] at f1 f2
  rw [le_div_iff₀ (by positivity)] at f1
  rw [div_lt_iff₀ (by positivity)] at f2
  have turn : ∀ t : ℝ, sin (t - 2 * π * n) = sin t := fun t => by
    rw [mul_comm (2 * π), sin_sub_int_mul_two_pi]
  have m1 := abs_le.1 (hm s u h0 hsu.le (by linarith) (by linarith))
  have m2 := abs_le.1 (hm s w h0 (by linarith) h1 hw)
  have m3 := abs_le.1 (hm u w (by linarith) huw.le h1 (by linarith))
  have g1 : 0 ≤ κ * (u - s) := mul_nonneg hκ0 (by linarith)
  have g2 : 0 ≤ κ * (w - u) := mul_nonneg hκ0 (by linarith)
  have g3 : κ * (w - s) ≤ κ * long := mul_le_mul_of_nonneg_left hw.le hκ0
  have g4 : κ * (w - s) = κ * (u - s) + κ * (w - u) := by ring
  have e : ∀ d, (κ * d + j) / tilt = κ / tilt * d + j / tilt := fun d => by field_simp
  refine nodes_apart (x := U s s - 2 * π * n) (y := U s u - 2 * π * n) (v := U s w - 2 * π * n) (p := U u u - 2 * π * n) (q := U w w - 2 * π * n)
    (r := U u w - 2 * π * n) (κ := κ / tilt) (j := j / tilt) (slow := slow) (by linarith) (by linarith) ?_ hslow (by linarith) (by linarith) ?_ ?_ ?_ ?_ ?_ ?_ ?_ ?_ ?_ ?_ ?_ ?_ ?_ ?_
  · rw [turn]
    have := key' (g := 0) h0 le_rfl (by linarith) le_rfl (by linarith)
    simpa using this
  · have := hon s s u h0 le_rfl hsu.le (by linarith)
    linarith
  · have := hon s u w h0 hsu.le huw.le h1
    have : 0 ≤ slow * (w - u) := mul_nonneg hslow (by linarith)
    linarith
  · have := hb s s w h0 le_rfl (by linarith) h1 hw
    linarith
  · have := hon u u w (by linarith) le_rfl huw.le h1
    linarith
  · rw [sub_sub_sub_cancel_right]
    exact hc s u h0 hsu.le (by linarith)
  · rw [sub_sub_sub_cancel_right]
    exact hc s w h0 (by linarith) h1
  · rw [sub_sub_sub_cancel_right]
    exact hc u w (by linarith) huw.le h1
  · rw [turn, ← e]
    exact key h0 hsu.le (by linarith) (by linarith) (by linarith [m1.2])
  · rw [← e, div_le_iff₀ htilt]
    linarith
  · rw [turn]
    refine le_trans ?_ (key' (g := κ * (w - s) + j) h0 (by linarith) h1 (by linarith) (by linarith [m2.1]))
    rw [neg_le_neg_iff, div_le_iff₀ htilt]
    linarith
  · rw [turn]
    have := key (g := 0) (by linarith) le_rfl (by linarith : u ≤ hi) le_rfl zu
    simpa using this
  · rw [turn, ← e]
    exact key' (by linarith) huw.le h1 (by linarith) (by linarith [m3.1])
  · rw [div_lt_iff₀ htilt]
    linarith
  · rw [div_le_iff₀ htilt]
    refine hj.trans (le_of_eq ?_)
    field_simp

/-! ### The search -/

/-- **C118.** A search of `moon_nodes`, for a Moon whose orbit, inclined by 0.08 radians or more, crosses the ecliptic, and that moves along it by at least 0.15 radians a day and
in `long`, a little over 12 days, by less than half a turn (not more than 3.09 radians): it ends, and what it returns are the nodes.  At each event `True` the Moon is north of the
ecliptic of date, and it was not, at some moment within the millisecond before; likewise for events `False`.  Nothing is missed: at every moment of the span the Moon is north of
the ecliptic or not as the latest event says, but for 1.04 ms before events and 0.04 ms after.  And ascending and descending nodes alternate. -/
theorem C118_moon_nodes (ts : Timescale ℝ) (moon : ℝ → Vec3) {lo hi tilt slow long reach : ℝ} {A U : ℝ → ℝ → ℝ} (hlo : 2451545 - 29 * 36525 ≤ lo)
    (hhi : hi ≤ 2451545 + 29 * 36525) (hspan : lo + 0.001 / 86400 ≤ hi) (h : OrbitCrosses ts moon lo hi tilt slow long reach A U) (htilt : 0.08 ≤ tilt)
    (hslow : 0.15 ≤ slow) (hlong : 12 + 4e-10 ≤ long) (hlong' : long ≤ 13) (hreach : reach ≤ 3.09) {lat : ℝ → ℝ}
    (hlat : ∀ t s, (ts.ttJd t none).sky = some s → lat t = eclipticLat s (moon t)) :
    ∃ rounds events, findDiscrete lo hi (moonNodes ts moon) (0.001 / 86400) 12 rounds = .ok (some events) ∧
      (∀ e ∈ events, e.2 = some true ∨ e.2 = some false) ∧
      (∀ t, (t, some true) ∈ events → lo < t ∧ t ≤ hi ∧ 0 < lat t ∧ ∃ s, lo ≤ s ∧ s < t ∧ t - s ≤ 0.001 / 86400 ∧ lat s ≤ 0) ∧
      (∀ t, (t, some false) ∈ events → lo < t ∧ t ≤ hi ∧ lat t ≤ 0 ∧ ∃ s, lo ≤ s ∧ s < t ∧ t - s ≤ 0.001 / 86400 ∧ 0 < lat s) ∧
      (∀ S : ℝ → Option Bool, (∀ t, (S t = some true ↔ 0 < lat t) ∧ (S t = some false ↔ lat t ≤ 0)) → Tells (0.00104 / 86400) (0.00004 / 86400) lo hi S events) ∧
      ∀ x ∈ events.zip events.tail, x.1.2 ≠ x.2.2 ∧ x.1.1 < x.2.1 := by
  have hp := pi_pos
  have hcall : ∀ t, (moonNodes ts moon).call t = some true ↔ 0 < lat t := by
    intro t
    obtain ⟨s, hs⟩ := (ts.ttJd t none).sky_defined
    rw [hlat t s hs]
    unfold moonNodes moonNodeAt
    simp only [hs, Option.map_some, Option.some.injEq, decide_eq_true_eq]
    exact Iff.rfl
  have hcall' : ∀ t, (moonNodes ts moon).call t = some false ↔ lat t ≤ 0 := by
    intro t
    obtain ⟨s, hs⟩ := (ts.ttJd t none).sky_defined
    rw [hlat t s hs]
    unfold moonNodes moonNodeAt
    simp only [hs, Option.map_some, Option.some.injEq, decide_eq_false_iff_not, not_lt]
    exact Iff.rfl
  have two : ∀ t, (moonNodes ts moon).call t = some true ∨ (moonNodes ts moon).call t = some false := fun t =>
    (lt_or_ge 0 (lat t)).imp (hcall t).2 (hcall' t).2
  -- the sine of the latitude at one moment on the ecliptic of another
  let sky : ℝ → SkyTime := fun a => ((ts.ttJd a none).sky_defined .iau2000a).choose
  have hsky : ∀ a, (ts.ttJd a none).sky = some (sky a) := fun a => ((ts.ttJd a none).sky_defined .iau2000a).choose_spec
  let z : ℝ → ℝ → ℝ := fun a b => sin (eclipticLat (sky a) (moon b))
  have hzz : ∀ t, z t t = sin (lat t) := fun t => by rw [hlat t _ (hsky t)]
  have hrange : ∀ t, |lat t| ≤ π / 2 := fun t => by
    rw [hlat t _ (hsky t)]
    exact (C36_range _).2.2.1
  have zup : ∀ t, 0 < lat t → 0 ≤ z t t := fun t ht => by
    rw [hzz]
    exact sin_nonneg_of_nonneg_of_le_pi ht.le (by linarith [(abs_le.1 (hrange t)).2])
  have zdown : ∀ t, lat t ≤ 0 → z t t ≤ 0 := fun t ht => by
    rw [hzz]
    exact sin_nonpos_of_nonpos_of_neg_pi_le ht (by linarith [(abs_le.1 (hrange t)).1])
  have hm : ∀ a b, lo ≤ a → a ≤ b → b ≤ hi → |z a b - z b b| ≤ 2.04e-6 * (b - a) + 1e-13 := fun a b ha hab hb =>
    C118_fixed_latitude ts (by linarith) hab (by linarith) (hsky a) (hsky b) (h.somewhere b (by linarith) hb)
  have hz : ∀ a b, lo ≤ a → a ≤ b → b ≤ hi → z a b = A a b * sin (U a b) := fun a b ha hab hb => h.latitude a b _ ha hab hb (hsky a)
  have hA : ∀ a b, lo ≤ a → a ≤ b → b ≤ hi → 0.08 ≤ A a b := fun a b ha hab hb => htilt.trans (h.inclined a b ha hab hb)
  have hon : ∀ a b c, lo ≤ a → a ≤ b → b ≤ c → c ≤ hi → 0.15 * (c - b) ≤ U a c - U a b := fun a b c ha hab hbc hc =>
    (mul_le_mul_of_nonneg_right hslow (by linarith)).trans (h.onward a b c ha hab hbc hc)
  have hbd : ∀ a b c, lo ≤ a → a ≤ b → b ≤ c → c ≤ hi → c - b < long → U a c - U a b ≤ 3.09 := fun a b c ha hab hbc hc hl =>
    (h.bounded a b c ha hab hbc hc hl).trans hreach
  have hS : Settles long 1e-10 lo hi (moonNodes ts moon).call := by
    intro s u w h0 hsu huw h1 hw hsame
    rcases two s with es | es <;> rcases two u with eu | eu
    · exact Or.inl (eu.trans es.symm)
    · right
      rw [es] at hsame
      exact crossing_returns (tilt := 0.08) (slow := 0.15) (long := long) (by norm_num) (by norm_num) (by norm_num) (by norm_num) (by linarith) (by norm_num) (by norm_num) hA hz hon hbd h.coherent (fun a b ha hab hb _ => hm a b ha hab hb) h0 hsu huw h1 hw (zup _ ((hcall _).1 es)) (zdown _ ((hcall' _).1 eu)) (zup _ ((hcall _).1 hsame.symm))
    · right
      rw [es] at hsame
      refine crossing_returns (z := fun a b => -z a b) (A := A) (U := fun a b => U a b + π) (tilt := 0.08) (slow := 0.15) (long := long) (κ := 2.04e-6) (j := 1e-13) (by norm_num) (by norm_num)
        (by norm_num) (by norm_num) (by linarith) (by norm_num) (by norm_num) hA ?_ ?_ ?_ ?_ ?_ h0 hsu huw h1 hw
        (neg_nonneg.2 (zdown _ ((hcall' _).1 es))) (neg_nonpos.2 (zup _ ((hcall _).1 eu))) (neg_nonneg.2 (zdown _ ((hcall' _).1 hsame.symm)))
      · intro a b ha hab hb
        show -z a b = _
        rw [sin_add_pi, hz a b ha hab hb]
        ring
      · intro a b c ha hab hbc hc
        linarith [hon a b c ha hab hbc hc]
      · intro a b c ha hab hbc hc hl
        linarith [hbd a b c ha hab hbc hc hl]
      · intro a b ha hab hb
        rw [add_sub_add_right_eq_sub]
        exact h.coherent a b ha hab hb
      · intro a b ha hab hb _
        rw [show -z a b - -z b b = -(z a b - z b b) by ring, abs_neg]
        exact hm a b ha hab hb
    · exact Or.inl (eu.trans es.symm)
  have hstep : (moonNodes ts moon).stepDays = some 12 := rfl
  obtain ⟨samples, hsm, -⟩ := C16_sample_spacing lo hi (moonNodes ts moon) 12 12 (by linarith) hstep (by norm_num)
  obtain ⟨⟨rounds, hr⟩, hall⟩ := C17_terminates lo hi (moonNodes ts moon) (0.001 / 86400) 12 (by norm_num) (by norm_num)
    (by intro s' hs'; rw [hstep] at hs'; rw [← Option.some.inj hs']; norm_num) samples hsm
  obtain ⟨events, hev⟩ := hall rounds hr
  obtain ⟨c1, c2, c3⟩ := C117_search_values hS (by norm_num) hstep (by norm_num) (by norm_num) hspan (by norm_num) (by norm_num) (by linarith) hev
  refine ⟨rounds + 1, events, hev, ?_, ?_, ?_, ?_, fun x hx => ⟨(c3 x hx).1, (c3 x hx).2.1⟩⟩
  · intro e he
    rw [← (c1 e he).2.2.1]
    exact two e.1
  · intro t ht
    obtain ⟨a1, a2, a3, s, b1, b2, b3, b4⟩ := c1 _ ht
    refine ⟨a1, a2, (hcall t).1 a3, s, b1, ?_, b3, (hcall' s).1 ((two s).resolve_left b4)⟩
    norm_num at b2
    linarith
  · intro t ht
    obtain ⟨a1, a2, a3, s, b1, b2, b3, b4⟩ := c1 _ ht
    refine ⟨a1, a2, (hcall' t).1 a3, s, b1, ?_, b3, (hcall s).1 ((two s).resolve_right b4)⟩
    norm_num at b2
    linarith
  · intro S hSS
    have : S = (moonNodes ts moon).call := by
      funext t
      rcases two t with e | e
      · rw [e, (hSS t).1]
        exact (hcall t).1 e
      · rw [e, (hSS t).2]
        exact (hcall' t).1 e
    rw [this]
    intro u h0 h1 hu
    refine c2 u (by linarith) (by linarith) fun x hx => ?_
    rcases hu x hx with h | h
    · left; linarith
    · right; linarith

/-! ### Such an orbit -/

private theorem small_arctan {x : ℝ} (h : |x| ≤ 0.01) : |arctan x| ≤ 1 / 4 := by
  have ht : (0.01 : ℝ) ≤ tan (1 / 4) := by
    have := le_tan (x := 1 / 4) (by norm_num) (by linarith [pi_gt_three])
    linarith
  have e : arctan (tan (1 / 4)) = 1 / 4 := arctan_tan (by linarith [pi_gt_three]) (by linarith [pi_gt_three])
  rw [abs_le] at h ⊢
  constructor
  · rw [← e, ← arctan_neg]
    exact arctan_mono (by linarith [h.1])
  · rw [← e]
    exact arctan_mono (by linarith [h.2])

theorem unit_from (σ : SkyTime) {v : Vec3} (h : ((eclipticRotation σ).mulVec v).length = 1) : v ≠ 0 ∧ v.length ≤ 1.1 := by
  have hm : IsometryUpTo 2e-14 (eclipticRotation σ) := (C35_frames σ 0 0 0 0).2.2.2.2.1
  have hd := hm.dot v v
  rw [← Vec3.length_sq, ← Vec3.length_sq, h, abs_le] at hd
  have hl := Vec3.length_nonneg v
  constructor
  · rintro rfl
    rw [Vec3.length_zero] at hd
    norm_num at hd
  · by_contra hc
    push Not at hc
    nlinarith [hd.1]

/-- Three months of a body on an orbit inclined by 0.1 radians to the ecliptic, along which it moves by 0.23 radians a day: what `C118_moon_nodes` asks for. -/
example (ts : Timescale ℝ) : ∃ (moon : ℝ → Vec3) (A U : ℝ → ℝ → ℝ), OrbitCrosses ts moon 2451545 2451635 0.08 0.15 12.1 3.09 A U := by
  obtain ⟨σ, hσ⟩ := (ts.ttJd 2451545 none).sky_defined
  obtain ⟨e1, h1⟩ := ecliptic_onto σ ⟨1, 0, 0⟩
  obtain ⟨e2, h2⟩ := ecliptic_onto σ ⟨0, cos 0.1, sin 0.1⟩
  let sky : ℝ → SkyTime := fun a => ((ts.ttJd a none).sky_defined .iau2000a).choose
  have hsky : ∀ a, (ts.ttJd a none).sky = some (sky a) := fun a => ((ts.ttJd a none).sky_defined .iau2000a).choose_spec
  have s0 : sin 0.1 ≤ 0.1 := sin_le (by norm_num)
  have s1 : 0.099 ≤ sin 0.1 := by
    have := sin_gt_sub_cube (x := 0.1) (by norm_num)
    norm_num at this ⊢
    linarith
  have c0 : cos 0.1 ^ 2 = 1 - sin 0.1 ^ 2 := by linarith [sin_sq_add_cos_sq (0.1 : ℝ)]
  have unit : ∀ x y : ℝ, x ^ 2 + y ^ 2 = 1 → ((eclipticRotation σ).mulVec (x • e1 + y • e2)).length = 1 := by
    intro x y hxy
    rw [Mat3.mulVec_add, Mat3.mulVec_smul, Mat3.mulVec_smul, h1, h2]
    have e : (x • (⟨1, 0, 0⟩ : Vec3) + y • (⟨0, cos 0.1, sin 0.1⟩ : Vec3)).length ^ 2 = 1 := by
      rw [Vec3.length_sq]
      simp only [Vec3.dot, Vec3.add_x, Vec3.add_y, Vec3.add_z, Vec3.smul_x, Vec3.smul_y, Vec3.smul_z]
      linear_combination hxy + y ^ 2 * c0
    exact (pow_eq_one_iff_of_nonneg (Vec3.length_nonneg _) (by norm_num)).1 e
  have near : ∀ a x y : ℝ, 2451545 ≤ a → a ≤ 2451635 → x ^ 2 + y ^ 2 = 1 →
      ((eclipticRotation σ).mulVec (x • e1 + y • e2) - (eclipticRotation (sky a)).mulVec (x • e1 + y • e2)).length ≤ 0.00021 := by
    intro a x y ha ha' hxy
    have hN := near_ecliptics ts (by norm_num) ha (by linarith) hσ (hsky a) (x • e1 + y • e2)
    have hl := (unit_from σ (unit x y hxy)).2
    have h3 : (2.04e-6 * (a - 2451545) + 1e-20) * (x • e1 + y • e2).length ≤ (2.04e-6 * 90 + 1e-20) * 1.1 :=
      mul_le_mul (by linarith) hl (Vec3.length_nonneg _) (by norm_num)
    refine hN.trans (h3.trans (by norm_num))
  let p : ℝ → ℝ := fun a => ((eclipticRotation (sky a)).mulVec e1).z
  let q : ℝ → ℝ := fun a => ((eclipticRotation (sky a)).mulVec e2).z
  have hpq : ∀ a, 2451545 ≤ a → a ≤ 2451635 → |p a| ≤ 0.00021 ∧ 0.098 ≤ q a := by
    intro a ha ha'
    have n1 := (abs_z_le' _).trans (near a 1 0 ha ha' (by norm_num))
    have n2 := (abs_z_le' _).trans (near a 0 1 ha ha' (by norm_num))
    have z1 : (1 : ℝ) • e1 + (0 : ℝ) • e2 = e1 := by ext <;> simp
    have z2 : (0 : ℝ) • e1 + (1 : ℝ) • e2 = e2 := by ext <;> simp
    rw [z1, Vec3.sub_z, h1] at n1
    rw [z2, Vec3.sub_z, h2] at n2
    rw [abs_le] at n1 n2
    simp only at n1 n2
    exact ⟨abs_le.2 ⟨by linarith [n1.2], by linarith [n1.1]⟩, by linarith [n2.2]⟩
  let φ : ℝ → ℝ := fun a => arctan (p a / q a)
  have hφ : ∀ a, 2451545 ≤ a → a ≤ 2451635 → |φ a| ≤ 1 / 4 := by
    intro a ha ha'
    obtain ⟨k1, k2⟩ := hpq a ha ha'
    apply small_arctan
    rw [abs_div, abs_of_pos (by linarith : 0 < q a), div_le_iff₀ (by linarith)]
    linarith
  let θ : ℝ → ℝ := fun b => 0.23 * (b - 2451545)
  let moon : ℝ → Vec3 := fun b => cos (θ b) • e1 + sin (θ b) • e2
  have hθ : ∀ b, cos (θ b) ^ 2 + sin (θ b) ^ 2 = 1 := fun b => cos_sq_add_sin_sq _
  have hlen : ∀ a b, 2451545 ≤ a → a ≤ 2451635 → 0.9 ≤ ((eclipticRotation (sky a)).mulVec (moon b)).length ∧
      ((eclipticRotation (sky a)).mulVec (moon b)).length ≤ 1.1 := by
    intro a b ha ha'
    have n := near a _ _ ha ha' (hθ b)
    have u1 := unit _ _ (hθ b)
    change ((eclipticRotation σ).mulVec (moon b) - (eclipticRotation (sky a)).mulVec (moon b)).length ≤ 0.00021 at n
    change ((eclipticRotation σ).mulVec (moon b)).length = 1 at u1
    generalize (eclipticRotation σ).mulVec (moon b) = x at *
    generalize (eclipticRotation (sky a)).mulVec (moon b) = y at *
    have t1 := Vec3.length_add_le (x - y) y
    have t2 := Vec3.length_add_le (y - x) x
    rw [show x - y + y = x by ext <;> simp] at t1
    rw [show y - x + x = y by ext <;> simp, show (y - x).length = (x - y).length by
      rw [← Vec3.length_neg]; congr 1; ext <;> simp] at t2
    constructor <;> linarith
  refine ⟨moon, fun a b => q a / cos (φ a) / ((eclipticRotation (sky a)).mulVec (moon b)).length, fun a b => θ b + φ a, ?_, ?_, ?_, ?_, ?_, ?_⟩
  · intro jd _ _
    exact (unit_from σ (unit _ _ (hθ jd))).1
  · intro a b ha hab hb
    obtain ⟨l1, l2⟩ := hlen a b ha (hab.trans hb)
    obtain ⟨k1, k2⟩ := hpq a ha (hab.trans hb)
    have hc := cos_arctan_pos (p a / q a)
    have hR : 0.098 ≤ q a / cos (φ a) := by
      rw [le_div_iff₀ hc]
      have := cos_le_one (φ a)
      linarith
    rw [le_div_iff₀ (by linarith)]
    linarith
  · intro a b s ha hab hb hs
    have es : s = sky a := Option.some.inj (hs.symm.trans (hsky a))
    subst es
    obtain ⟨l1, l2⟩ := hlen a b ha (hab.trans hb)
    obtain ⟨k1, k2⟩ := hpq a ha (hab.trans hb)
    have hc := cos_arctan_pos (p a / q a)
    obtain ⟨-, -, m3⟩ := C36_meaning ((eclipticRotation (sky a)).mulVec (moon b))
    rw [(C36_range _).1] at m3
    have hz : ((eclipticRotation (sky a)).mulVec (moon b)).z = cos (θ b) * p a + sin (θ b) * q a := by
      show ((eclipticRotation (sky a)).mulVec (cos (θ b) • e1 + sin (θ b) • e2)).z = _
      rw [Mat3.mulVec_add, Mat3.mulVec_smul, Mat3.mulVec_smul]
      rfl
    have ht : sin (φ a) * q a = p a * cos (φ a) := by
      have : tan (φ a) = p a / q a := tan_arctan _
      rw [tan_eq_sin_div_cos, div_eq_div_iff hc.ne' (by linarith)] at this
      exact this
    have hlat : sin (eclipticLat (sky a) (moon b)) = (cos (θ b) * p a + sin (θ b) * q a) / ((eclipticRotation (sky a)).mulVec (moon b)).length := by
      rw [eq_div_iff (by linarith), ← hz, m3]
      rw [mul_comm]
      rfl
    rw [hlat, sin_add, div_mul_eq_mul_div]
    congr 1
    rw [div_mul_eq_mul_div, eq_div_iff hc.ne']
    linear_combination -(cos (θ b)) * ht
  · intro a b c _ _ hbc _
    show 0.15 * (c - b) ≤ 0.23 * (c - 2451545) + φ a - (0.23 * (b - 2451545) + φ a)
    linarith
  · intro a b c _ _ hbc _ hl
    show 0.23 * (c - 2451545) + φ a - (0.23 * (b - 2451545) + φ a) ≤ 3.09
    linarith
  · intro a b ha hab hb
    have f1 := abs_le.1 (hφ a ha (hab.trans hb))
    have f2 := abs_le.1 (hφ b (ha.trans hab) hb)
    show |θ b + φ a - (θ b + φ b)| ≤ 1 / 2
    rw [abs_le]
    constructor <;> linarith [f1.1, f1.2, f2.1, f2.2]

end Skyfield
