import Verif.Props.MoonNodes

/-
C118, fourth part: the search of `oppositions_conjunctions` for a planet inside the Earth's orbit, which goes to and fro past the Sun.
-/
namespace Skyfield
open _root_.Spec Real

/-- Specification: a planet goes to and fro about the Sun.  On the ecliptic of any date of the span, from that date on, the Sun's longitude less the planet's is, up to whole turns, `E`,
less than 3 radians either way; and `E` is `A sin U`, where `A`, how far the planet goes from the Sun, is at least `far`, and `U` grows by at least `slow` radians a day and within
`long` days by no more than `reach`.  As seen on the ecliptic of one date and of another, `U` is about the same, to within half a radian.  Sun and planet are never more than 60° from
the ecliptic. -/
structure ToAndFro (ts : Timescale ℝ) (target sun : ℝ → Vec3) (lo hi far slow long reach : ℝ) (E A U : ℝ → ℝ → ℝ) : Prop where
  somewhere : ∀ jd, lo ≤ jd → jd ≤ hi → target jd ≠ 0 ∧ sun jd ≠ 0
  latitude : ∀ a b s, lo ≤ a → a ≤ b → b ≤ hi → (ts.ttJd a none).sky = some s →
    0.5 ≤ cos (eclipticLat s (target b)) ∧ 0.5 ≤ cos (eclipticLat s (sun b))
  longitude : ∀ a b s, lo ≤ a → a ≤ b → b ≤ hi → (ts.ttJd a none).sky = some s →
    ∃ n : ℤ, E a b = eclipticLon s (sun b) - eclipticLon s (target b) + 2 * π * n
  apart : ∀ a b, lo ≤ a → a ≤ b → b ≤ hi → |E a b| ≤ 3 ∧ far ≤ A a b ∧ E a b = A a b * sin (U a b)
  onward : ∀ a b c, lo ≤ a → a ≤ b → b ≤ c → c ≤ hi → slow * (c - b) ≤ U a c - U a b
  bounded : ∀ a b c, lo ≤ a → a ≤ b → b ≤ c → c ≤ hi → c - b < long → U a c - U a b ≤ reach
  coherent : ∀ a b, lo ≤ a → a ≤ b → b ≤ hi → |U a b - U b b| ≤ 1 / 2

/-- **C118.** A search of `oppositions_conjunctions` for a planet that goes to and fro about the Sun, by `far`, at least 0.1 radians, passing it at `slow * far`, at least 0.001 radians a
day, and that takes more than `long`, at least 40 days, from one conjunction to the next: it ends, and what it returns are the conjunctions.  At each event 1 the planet is east of the Sun, and it was not, at
some moment within the millisecond before; at each event 0 it is not, and was.  Nothing is missed: at every moment of the span the planet is east of the Sun or not as the latest event
says, but for 1.04 ms before events and 0.04 ms after.  And the two kinds alternate.  Here `E t t` is the Sun's longitude of date less the planet's, from -3 to 3 radians. -/
theorem C118_inner_conjunctions (ts : Timescale ℝ) {code : ℤ} (hcode : code ≠ 301) (target sun : ℝ → Vec3) {lo hi far slow long reach : ℝ} {E A U : ℝ → ℝ → ℝ}
    (hlo : 2451545 - 29 * 36525 ≤ lo) (hhi : hi ≤ 2451545 + 29 * 36525) (hspan : lo + 0.001 / 86400 ≤ hi)
    (h : ToAndFro ts target sun lo hi far slow long reach E A U) (hfar : 0.1 ≤ far) (hslow : 0 ≤ slow) (hpass : 0.001 ≤ slow * far) (hlong : 40 + 4e-10 ≤ long) (hlong' : long ≤ 45)
    (hreach : reach ≤ 3.09) :
    ∃ rounds events, findDiscrete lo hi (oppositionsConjunctions ts code target sun) (0.001 / 86400) 12 rounds = .ok (some events) ∧
      (∀ e ∈ events, e.2 = some 0 ∨ e.2 = some 1) ∧
      (∀ t, (t, some 1) ∈ events → lo < t ∧ t ≤ hi ∧ E t t < 0 ∧ ∃ s, lo ≤ s ∧ s < t ∧ t - s ≤ 0.001 / 86400 ∧ 0 ≤ E s s) ∧
      (∀ t, (t, some 0) ∈ events → lo < t ∧ t ≤ hi ∧ 0 ≤ E t t ∧ ∃ s, lo ≤ s ∧ s < t ∧ t - s ≤ 0.001 / 86400 ∧ E s s < 0) ∧
      (∀ u, lo + 0.00004 / 86400 ≤ u → u ≤ hi - 0.00004 / 86400 → (∀ e ∈ events, u < e.1 - 0.00104 / 86400 ∨ e.1 + 0.00004 / 86400 < u) →
        (latest (if E lo lo < 0 then some 1 else some 0) events u = some 1 ↔ E u u < 0)) ∧
      ∀ x ∈ events.zip events.tail, x.1.2 ≠ x.2.2 ∧ x.1.1 < x.2.1 := by
  have hp := pi_gt_d4
  have hp4 := pi_lt_d4
  set f := oppositionsConjunctions ts code target sun with hf
  let sky : ℝ → SkyTime := fun a => ((ts.ttJd a none).sky_defined .iau2000a).choose
  have hsky : ∀ a, (ts.ttJd a none).sky = some (sky a) := fun a => ((ts.ttJd a none).sky_defined .iau2000a).choose_spec
  have hL : IsAngle ts .iau2000a lo hi (fun jd s => eclipticLon s (sun jd) - eclipticLon s (target jd)) fun t => E t t := fun jd s h1 h2 hs =>
    h.longitude jd jd s h1 le_rfl h2 hs
  have hcall : ∀ t, lo ≤ t → t ≤ hi → f.call t = if E t t < 0 then some 1 else some 0 := by
    intro t h1 h2
    rw [hf, opposition_call ts code target sun hL t h1 h2, show 2 * π / ((2 : ℕ) : ℝ) = π by push_cast; ring]
    have ha := abs_le.1 (h.apart t t h1 le_rfl h2).1
    split_ifs with hE
    · have : ⌊E t t / π⌋ = -1 := by
        rw [Int.floor_eq_iff, le_div_iff₀ pi_pos, div_lt_iff₀ pi_pos]
        push_cast
        constructor <;> linarith
      rw [this]
      rfl
    · have : ⌊E t t / π⌋ = 0 := by
        rw [Int.floor_eq_iff, le_div_iff₀ pi_pos, div_lt_iff₀ pi_pos]
        push_cast
        constructor <;> linarith
      rw [this]
      rfl
  have one : ∀ t, lo ≤ t → t ≤ hi → (f.call t = some 1 ↔ E t t < 0) := fun t h1 h2 => by
    rw [hcall t h1 h2]
    split_ifs with hE <;> simp [hE]
  have zero : ∀ t, lo ≤ t → t ≤ hi → (f.call t = some 0 ↔ 0 ≤ E t t) := fun t h1 h2 => by
    rw [hcall t h1 h2]
    split_ifs with hE
    · simp [hE]
    · simpa using hE
  have two : ∀ t, lo ≤ t → t ≤ hi → f.call t = some 0 ∨ f.call t = some 1 := fun t h1 h2 =>
    (le_or_gt 0 (E t t)).imp (zero t h1 h2).2 (one t h1 h2).2
  have hm : ∀ a b, lo ≤ a → a ≤ b → b ≤ hi → b - a < long → |E a b - E b b| ≤ 1.3e-5 * (b - a) + 2e-19 := by
    intro a b ha hab hb hl'
    obtain ⟨k, hk⟩ := h.longitude a b _ ha hab hb (hsky a)
    obtain ⟨l, hl⟩ := h.longitude b b _ (ha.trans hab) le_rfl hb (hsky b)
    obtain ⟨n0, n0'⟩ := h.somewhere b (ha.trans hab) hb
    obtain ⟨t1, t2⟩ := h.latitude a b _ ha hab hb (hsky a)
    obtain ⟨t3, t4⟩ := h.latitude b b _ (ha.trans hab) le_rfl hb (hsky b)
    obtain ⟨m, hm1⟩ := C118_fixed_direction ts (by linarith) hab (by linarith) (hsky a) (hsky b) n0 t1 t3
    obtain ⟨n, hn1⟩ := C118_fixed_direction ts (by linarith) hab (by linarith) (hsky a) (hsky b) n0' t2 t4
    have b1 := abs_le.1 (h.apart a b ha hab hb).1
    have b2 := abs_le.1 (h.apart b b (ha.trans hab) le_rfl hb).1
    rw [abs_le] at hm1 hn1
    have hN : k - l - n + m = 0 := by
      have c1 : 2 * π * ((k - l - n + m : ℤ) : ℝ) < 2 * π * 1 := by push_cast; linarith [hm1.1, hm1.2, hn1.1, hn1.2]
      have c2 : 2 * π * (-1) < 2 * π * ((k - l - n + m : ℤ) : ℝ) := by push_cast; linarith [hm1.1, hm1.2, hn1.1, hn1.2]
      have d1 : ((k - l - n + m : ℤ) : ℝ) < 1 := lt_of_mul_lt_mul_left c1 (by linarith)
      have d2 : (-1 : ℝ) < ((k - l - n + m : ℤ) : ℝ) := lt_of_mul_lt_mul_left c2 (by linarith)
      have d3 : k - l - n + m < 1 := by exact_mod_cast d1
      have d4 : -1 < k - l - n + m := by exact_mod_cast d2
      omega
    have hN' : (k : ℝ) - l - n + m = 0 := by exact_mod_cast hN
    have e : E a b - E b b = (eclipticLon (sky b) (target b) - eclipticLon (sky a) (target b) - 2 * π * m) -
        (eclipticLon (sky b) (sun b) - eclipticLon (sky a) (sun b) - 2 * π * n) + 2 * π * (k - l - n + m) := by
      rw [hk, hl]
      ring
    rw [e, hN', mul_zero, add_zero, abs_le]
    constructor <;> linarith [hm1.1, hm1.2, hn1.1, hn1.2]
  have hA : ∀ a b, lo ≤ a → a ≤ b → b ≤ hi → far ≤ A a b := fun a b ha hab hb => (h.apart a b ha hab hb).2.1
  have hz : ∀ a b, lo ≤ a → a ≤ b → b ≤ hi → E a b = A a b * sin (U a b) := fun a b ha hab hb => (h.apart a b ha hab hb).2.2
  have hbd : ∀ a b c, lo ≤ a → a ≤ b → b ≤ c → c ≤ hi → c - b < long → U a c - U a b ≤ 3.09 := fun a b c ha hab hbc hc hl =>
    (h.bounded a b c ha hab hbc hc hl).trans hreach
  have hS : Settles long 1e-10 lo hi f.call := by
    intro s u w h0 hsu huw h1 hw hsame
    rcases two s h0 (by linarith) with es | es <;> rcases two u (by linarith) (by linarith) with eu | eu
    · exact Or.inl (eu.trans es.symm)
    · right
      rw [es] at hsame
      exact crossing_returns (tilt := far) (slow := slow) (long := long) (by linarith) hslow (by norm_num) (by norm_num) (by linarith) (by linarith) (by linarith) hA hz
        h.onward hbd h.coherent hm h0 hsu huw h1 hw ((zero s h0 (by linarith)).1 es) ((one u (by linarith) (by linarith)).1 eu).le
        ((zero w (by linarith) h1).1 hsame.symm)
    · right
      rw [es] at hsame
      refine crossing_returns (z := fun a b => -E a b) (A := A) (U := fun a b => U a b + π) (tilt := far) (slow := slow) (long := long) (κ := 1.3e-5) (j := 2e-19)
        (by linarith) hslow (by norm_num) (by norm_num) (by linarith) (by linarith) (by linarith) hA ?_ ?_ ?_ ?_ ?_ h0 hsu huw h1 hw
        (neg_nonneg.2 ((one s h0 (by linarith)).1 es).le) (neg_nonpos.2 ((zero u (by linarith) (by linarith)).1 eu)) (neg_nonneg.2 ((one w (by linarith) h1).1 hsame.symm).le)
      · intro a b ha hab hb
        show -E a b = _
        rw [sin_add_pi, hz a b ha hab hb]
        ring
      · intro a b c ha hab hbc hc
        linarith [h.onward a b c ha hab hbc hc]
      · intro a b c ha hab hbc hc hl
        linarith [hbd a b c ha hab hbc hc hl]
      · intro a b ha hab hb
        rw [add_sub_add_right_eq_sub]
        exact h.coherent a b ha hab hb
      · intro a b ha hab hb hl
        rw [show -E a b - -E b b = -(E a b - E b b) by ring, abs_neg]
        exact hm a b ha hab hb hl
    · exact Or.inl (eu.trans es.symm)
  have hstep : f.stepDays = some 40 := by rw [hf]; unfold oppositionsConjunctions; rw [if_neg hcode]
  obtain ⟨samples, hsm, -⟩ := C16_sample_spacing lo hi f 12 40 (by linarith) hstep (by norm_num)
  obtain ⟨⟨rounds, hr⟩, hall⟩ := C17_terminates lo hi f (0.001 / 86400) 12 (by norm_num) (by norm_num)
    (by intro s' hs'; rw [hstep] at hs'; rw [← Option.some.inj hs']; norm_num) samples hsm
  obtain ⟨events, hev⟩ := hall rounds hr
  obtain ⟨c1, c2, c3⟩ := C117_search_values hS (by norm_num) hstep (by norm_num) (by norm_num) hspan (by norm_num) (by norm_num) (by linarith) hev
  refine ⟨rounds + 1, events, hev, ?_, ?_, ?_, ?_, fun x hx => ⟨(c3 x hx).1, (c3 x hx).2.1⟩⟩
  · intro e he
    obtain ⟨a1, a2, a3, -⟩ := c1 e he
    rw [← a3]
    exact two e.1 a1.le a2
  · intro t ht
    obtain ⟨a1, a2, a3, s, b1, b2, b3, b4⟩ := c1 _ ht
    simp only at a1 a2 a3 b2 b3 b4
    norm_num at b2
    exact ⟨a1, a2, (one t a1.le a2).1 a3, s, b1, by linarith, b3, (zero s b1 (by linarith)).1 ((two s b1 (by linarith)).resolve_right b4)⟩
  · intro t ht
    obtain ⟨a1, a2, a3, s, b1, b2, b3, b4⟩ := c1 _ ht
    simp only at a1 a2 a3 b2 b3 b4
    norm_num at b2
    exact ⟨a1, a2, (zero t a1.le a2).1 a3, s, b1, by linarith, b3, (one s b1 (by linarith)).1 ((two s b1 (by linarith)).resolve_left b4)⟩
  · intro u h0 h1 hu
    have := c2 u (by linarith) (by linarith) fun x hx => by
      rcases hu x hx with h | h
      · left; linarith
      · right; linarith
    rw [hcall lo le_rfl (by linarith)] at this
    rw [← this]
    exact one u (by linarith) (by linarith)

/-! ### A planet that does so -/

private theorem arcsin_of {x : ℝ} (hc : 0 < cos x) : ∃ n : ℤ, arcsin (sin x) = x + 2 * π * n := by
  have hp := pi_pos
  set n := ⌊(x + π) / (2 * π)⌋ with hn
  have f1 := Int.floor_le ((x + π) / (2 * π))
  have f2 := Int.lt_floor_add_one ((x + π) / (2 * π))
  rw [← hn] at f1 f2
  rw [le_div_iff₀ (by positivity)] at f1
  rw [div_lt_iff₀ (by positivity)] at f2
  have es : sin (x - 2 * π * n) = sin x := by rw [mul_comm (2 * π), sin_sub_int_mul_two_pi]
  have ec : cos (x - 2 * π * n) = cos x := by rw [mul_comm (2 * π), cos_sub_int_mul_two_pi]
  refine ⟨-n, ?_⟩
  rw [← es, arcsin_sin]
  · push_cast; ring
  · by_contra h
    push Not at h
    have := cos_nonpos_of_pi_div_two_le_of_le (x := -(x - 2 * π * n)) (by linarith) (by linarith)
    rw [cos_neg, ec] at this
    linarith
  · by_contra h
    push Not at h
    have := cos_nonpos_of_pi_div_two_le_of_le (x := x - 2 * π * n) (by linarith) (by linarith)
    rw [ec] at this
    linarith

private theorem slope_pos {s K : ℝ} (h0 : 0 < s) (h1 : s ≤ 1) (hK : 0.7 ≤ K) (hK' : K ≤ 1.5) : ∃ A, 0.15 ≤ A ∧ arcsin (sin (0.4 * s) * K) = A * s := by
  refine ⟨arcsin (sin (0.4 * s) * K) / s, ?_, by field_simp⟩
  have h2 := sin_le (x := 0.4 * s) (by linarith)
  have h3 : 0.63 * (0.4 * s) ≤ sin (0.4 * s) := by
    have hp := pi_gt_d4
    have hq := pi_lt_d4
    refine le_trans ?_ (mul_le_sin (by linarith : 0 ≤ 0.4 * s) (by linarith))
    refine mul_le_mul_of_nonneg_right ?_ (by linarith)
    rw [le_div_iff₀ pi_pos]
    linarith
  have h4 : sin (0.4 * s) * K ≤ 1 := by nlinarith
  have h5 : 0.15 * s ≤ sin (0.4 * s) * K := by nlinarith
  have h6 : sin (0.4 * s) * K ≤ arcsin (sin (0.4 * s) * K) := by
    have := sin_le (x := arcsin (sin (0.4 * s) * K)) (arcsin_nonneg.2 (by linarith))
    rwa [sin_arcsin (by linarith) h4] at this
  rw [le_div_iff₀ h0]
  linarith

private theorem slope {s K : ℝ} (h0 : -1 ≤ s) (h1 : s ≤ 1) (hK : 0.7 ≤ K) (hK' : K ≤ 1.5) : ∃ A, 0.15 ≤ A ∧ arcsin (sin (0.4 * s) * K) = A * s := by
  rcases lt_trichotomy s 0 with h | h | h
  · obtain ⟨A, a1, a2⟩ := slope_pos (s := -s) (by linarith) (by linarith) hK hK'
    refine ⟨A, a1, ?_⟩
    rw [show 0.4 * -s = -(0.4 * s) by ring, sin_neg, neg_mul, arcsin_neg] at a2
    linarith
  · exact ⟨1, by norm_num, by simp [h]⟩
  · exact slope_pos h h1 hK hK'

private theorem seen_lat_lon (σ : SkyTime) (v : Vec3) : ∃ ρ, 0 ≤ ρ ∧ ((eclipticRotation σ).mulVec v).x = ρ * cos (eclipticLon σ v) ∧
    ((eclipticRotation σ).mulVec v).y = ρ * sin (eclipticLon σ v) ∧ ρ = ((eclipticRotation σ).mulVec v).length * cos (eclipticLat σ v) := by
  obtain ⟨m1, m2, -⟩ := C36_meaning ((eclipticRotation σ).mulVec v)
  have hr := C36_range ((eclipticRotation σ).mulVec v)
  refine ⟨_, ?_, m1, m2, by rw [hr.1]; rfl⟩
  rw [hr.1]
  have := abs_le.1 hr.2.2.1
  exact mul_nonneg (Vec3.length_nonneg _) (cos_nonneg_of_mem_Icc ⟨by linarith, by linarith⟩)

private theorem mixed {px py pz qx qy qz c t : ℝ} (p1 : |px - 1| ≤ 0.001) (p2 : |py| ≤ 0.001) (p3 : |pz| ≤ 0.001) (q1 : |qx| ≤ 0.001) (q2 : |qy - 1| ≤ 0.001)
    (q3 : |qz| ≤ 0.001) (hc : 0.9 ≤ c) (hc1 : c ≤ 1) (ht : |t| ≤ 0.4) (hct : t ^ 2 + c ^ 2 = 1) :
    (0.99 ≤ px ^ 2 + py ^ 2 ∧ px ^ 2 + py ^ 2 ≤ 1.01) ∧ pz ^ 2 ≤ 0.0001 ∧
    (0.99 ≤ (c * px - t * qx) ^ 2 + (c * py - t * qy) ^ 2 ∧ (c * px - t * qx) ^ 2 + (c * py - t * qy) ^ 2 ≤ 1.01) ∧ (c * pz - t * qz) ^ 2 ≤ 0.0001 ∧
    0.99 ≤ px * qy - py * qx ∧ px * qy - py * qx ≤ 1.01 ∧ 0.5 ≤ px * (c * px - t * qx) + py * (c * py - t * qy) := by
  have m : ∀ {x y u v : ℝ}, |x| ≤ u → |y| ≤ v → |x * y| ≤ u * v := fun {x y u v} h1 h2 => by
    rw [abs_mul]
    exact mul_le_mul h1 h2 (abs_nonneg _) ((abs_nonneg _).trans h1)
  have hcc : |c| ≤ 1 := abs_le.2 ⟨by linarith, hc1⟩
  have a1 := abs_le.1 (m hcc p1)
  have a2 := abs_le.1 (m hcc p2)
  have a3 := abs_le.1 (m hcc p3)
  have a4 := abs_le.1 (m ht q1)
  have a5 := abs_le.1 (m ht q2)
  have a6 := abs_le.1 (m ht q3)
  have hx : |c * px - t * qx - c| ≤ 0.0014 := abs_le.2 ⟨by linarith [a1.1, a4.2], by linarith [a1.2, a4.1]⟩
  have hy : |c * py - t * qy + t| ≤ 0.0014 := abs_le.2 ⟨by linarith [a2.1, a5.2], by linarith [a2.2, a5.1]⟩
  have hz : |c * pz - t * qz| ≤ 0.0014 := abs_le.2 ⟨by linarith [a3.1, a6.2], by linarith [a3.2, a6.1]⟩
  generalize c * px - t * qx = X at *
  generalize c * py - t * qy = Y at *
  generalize c * pz - t * qz = Z at *
  have s1 := abs_le.1 (m hx hx)
  have s2 := abs_le.1 (m hcc hx)
  have s3 := abs_le.1 (m hy hy)
  have s4 := abs_le.1 (m ht hy)
  have s5 := abs_le.1 (m p1 p1)
  have s6 := abs_le.1 (m p2 p2)
  have s7 := abs_le.1 (m p1 q2)
  have s8 := abs_le.1 (m p2 q1)
  have s9 := abs_le.1 (m p3 p3)
  have s10 := abs_le.1 (m hz hz)
  have s11 := abs_le.1 (m p1 hx)
  have s12 := abs_le.1 (m p2 hy)
  have s13 := abs_le.1 (m p2 ht)
  have p1' := abs_le.1 p1
  have q2' := abs_le.1 q2
  have hx' := abs_le.1 hx
  refine ⟨⟨?_, ?_⟩, ?_, ⟨?_, ?_⟩, ?_, ?_, ?_, ?_⟩ <;> linarith

private theorem root_bounds {r : ℝ} (h0 : 0 ≤ r) (h1 : 0.99 ≤ r ^ 2) (h2 : r ^ 2 ≤ 1.015) : 0.99 ≤ r ∧ r ≤ 1.01 := by
  constructor <;> nlinarith

private theorem flat {x l y : ℝ} (e1 : x = l * y) (e2 : 0.99 ≤ x) (e3 : 0 ≤ l) (e4 : l ≤ 1.01) : 0.5 ≤ y := by
  by_contra hn
  push Not at hn
  nlinarith

/-- What is seen on an ecliptic of a Sun at `P` and a planet at an angle `e` from it, in the plane of `P` and `Q`, when those are nearly the first two axes. -/
private theorem seen_apart (σ : SkyTime) {P Q : Vec3} {s : ℝ} (hs0 : -1 ≤ s) (hs1 : s ≤ 1)
    (p1 : |((eclipticRotation σ).mulVec P).x - 1| ≤ 0.001) (p2 : |((eclipticRotation σ).mulVec P).y| ≤ 0.001) (p3 : |((eclipticRotation σ).mulVec P).z| ≤ 0.001)
    (q1 : |((eclipticRotation σ).mulVec Q).x| ≤ 0.001) (q2 : |((eclipticRotation σ).mulVec Q).y - 1| ≤ 0.001) (q3 : |((eclipticRotation σ).mulVec Q).z| ≤ 0.001)
    {T : Vec3} (hT : T = cos (0.4 * s) • P - sin (0.4 * s) • Q) :
    0.5 ≤ cos (eclipticLat σ T) ∧ 0.5 ≤ cos (eclipticLat σ P) ∧ ∃ E A, (∃ n : ℤ, E = eclipticLon σ P - eclipticLon σ T + 2 * π * n) ∧ |E| ≤ 3 ∧ 0.15 ≤ A ∧ E = A * s := by
  have hp := pi_lt_d4
  obtain ⟨ρ, r0, rx, ry, rl⟩ := seen_lat_lon σ P
  obtain ⟨ρ', r0', rx', ry', rl'⟩ := seen_lat_lon σ T
  have eT : (eclipticRotation σ).mulVec T = cos (0.4 * s) • (eclipticRotation σ).mulVec P - sin (0.4 * s) • (eclipticRotation σ).mulVec Q := by
    rw [hT, sub_eq_add_neg, Mat3.mulVec_add, Mat3.mulVec_smul, sub_eq_add_neg]
    congr 1
    have : -(sin (0.4 * s) • Q) = (-sin (0.4 * s)) • Q := by ext <;> simp
    rw [this, Mat3.mulVec_smul]
    ext <;> simp
  have hlT := Vec3.length_sq ((eclipticRotation σ).mulVec T)
  have hlP := Vec3.length_sq ((eclipticRotation σ).mulVec P)
  have hnT := Vec3.length_nonneg ((eclipticRotation σ).mulVec T)
  have hnP := Vec3.length_nonneg ((eclipticRotation σ).mulVec P)
  rw [eT] at rx' ry' rl' hlT hnT
  simp only [Vec3.sub_x, Vec3.sub_y, Vec3.smul_x, Vec3.smul_y] at rx' ry'
  simp only [Vec3.dot, Vec3.sub_x, Vec3.sub_y, Vec3.sub_z, Vec3.smul_x, Vec3.smul_y, Vec3.smul_z] at hlT hlP
  generalize (cos (0.4 * s) • (eclipticRotation σ).mulVec P - sin (0.4 * s) • (eclipticRotation σ).mulVec Q).length = lT at *
  generalize ((eclipticRotation σ).mulVec P).length = lP at *
  generalize ((eclipticRotation σ).mulVec P).x = px at *
  generalize ((eclipticRotation σ).mulVec P).y = py at *
  generalize ((eclipticRotation σ).mulVec P).z = pz at *
  generalize ((eclipticRotation σ).mulVec Q).x = qx at *
  generalize ((eclipticRotation σ).mulVec Q).y = qy at *
  generalize ((eclipticRotation σ).mulVec Q).z = qz at *
  have hc : 0.9 ≤ cos (0.4 * s) := by
    have := one_sub_sq_div_two_le_cos (x := 0.4 * s)
    nlinarith
  have hc1 := cos_le_one (0.4 * s)
  have ht : |sin (0.4 * s)| ≤ 0.4 := by
    refine abs_sin_le_abs.trans ?_
    rw [abs_mul, abs_of_pos (by norm_num : (0 : ℝ) < 0.4)]
    have : |s| ≤ 1 := abs_le.2 ⟨hs0, hs1⟩
    linarith
  have hct := sin_sq_add_cos_sq (0.4 * s)
  have hslope := fun {K : ℝ} => slope (K := K) hs0 hs1
  generalize cos (0.4 * s) = c at *
  generalize sin (0.4 * s) = t at *
  obtain ⟨b1, b2, b3, b4, b5, b6, b7⟩ := mixed p1 p2 p3 q1 q2 q3 hc hc1 ht hct
  have hρ : ρ ^ 2 = px ^ 2 + py ^ 2 := by
    rw [rx, ry]
    linear_combination -ρ ^ 2 * sin_sq_add_cos_sq (eclipticLon σ P)
  have hρ' : ρ' ^ 2 = (c * px - t * qx) ^ 2 + (c * py - t * qy) ^ 2 := by
    rw [rx', ry']
    linear_combination -ρ' ^ 2 * sin_sq_add_cos_sq (eclipticLon σ T)
  obtain ⟨g1, g2⟩ := root_bounds r0 (hρ ▸ b1.1) (by rw [hρ]; linarith [b1.2])
  obtain ⟨g3, g4⟩ := root_bounds r0' (hρ' ▸ b3.1) (by rw [hρ']; linarith [b3.2])
  have g5 := (root_bounds hnP (by rw [hlP]; linarith [b1.1, sq_nonneg pz]) (by rw [hlP]; linarith [b1.2])).2
  have g6 := (root_bounds hnT (by rw [hlT]; linarith [b3.1, sq_nonneg (c * pz - t * qz)]) (by rw [hlT]; linarith [b3.2])).2
  refine ⟨flat rl' g3 hnT g6, flat rl g1 hnP g5, ?_⟩
  have gg : 0.99 * 0.99 ≤ ρ * ρ' := mul_le_mul g1 g3 (by norm_num) r0
  have gg' : ρ * ρ' ≤ 1.01 * 1.01 := mul_le_mul g2 g4 r0' (by norm_num)
  have hpos : 0 < ρ * ρ' := by linarith
  have e1 : ρ * ρ' * sin (eclipticLon σ P - eclipticLon σ T) = t * (px * qy - py * qx) := by
    rw [sin_sub]
    have : t * (px * qy - py * qx) = py * (c * px - t * qx) - px * (c * py - t * qy) := by ring
    rw [this, rx', ry', rx, ry]
    ring
  have e2 : ρ * ρ' * cos (eclipticLon σ P - eclipticLon σ T) = px * (c * px - t * qx) + py * (c * py - t * qy) := by
    rw [cos_sub, rx', ry', rx, ry]
    ring
  have hcos : 0 < cos (eclipticLon σ P - eclipticLon σ T) := by
    by_contra hn
    push Not at hn
    have := mul_nonpos_of_nonneg_of_nonpos hpos.le hn
    linarith
  obtain ⟨n, hn⟩ := arcsin_of hcos
  have e3 : sin (eclipticLon σ P - eclipticLon σ T) = t * ((px * qy - py * qx) / (ρ * ρ')) := by
    rw [← mul_div_assoc, eq_div_iff hpos.ne', ← e1]
    ring
  obtain ⟨A, a1, a2⟩ := hslope (K := (px * qy - py * qx) / (ρ * ρ')) (by rw [le_div_iff₀ hpos]; linarith) (by rw [div_le_iff₀ hpos]; linarith)
  refine ⟨_, A, ⟨n, hn⟩, ?_, a1, by rw [e3]; exact a2⟩
  rw [abs_le]
  constructor <;> linarith [neg_pi_div_two_le_arcsin (sin (eclipticLon σ P - eclipticLon σ T)), arcsin_le_pi_div_two (sin (eclipticLon σ P - eclipticLon σ T))]

/-- A year of a planet that goes 0.4 radians from the Sun, once in 116 days: what `C118_inner_conjunctions` asks for. -/
example (ts : Timescale ℝ) : ∃ (target sun : ℝ → Vec3) (E A U : ℝ → ℝ → ℝ), ToAndFro ts target sun 2451545 2451910 0.15 0.054 41 3.09 E A U := by
  obtain ⟨σ, hσ⟩ := (ts.ttJd 2451545 none).sky_defined
  obtain ⟨P, h1⟩ := ecliptic_onto σ ⟨1, 0, 0⟩
  obtain ⟨Q, h2⟩ := ecliptic_onto σ ⟨0, 1, 0⟩
  have lP : ((eclipticRotation σ).mulVec P).length = 1 := by rw [h1]; simp [Vec3.length]
  have lQ : ((eclipticRotation σ).mulVec Q).length = 1 := by rw [h2]; simp [Vec3.length]
  have near : ∀ a s, 2451545 ≤ a → a ≤ 2451910 → (ts.ttJd a none).sky = some s → ∀ v : Vec3, ((eclipticRotation σ).mulVec v).length = 1 →
      ((eclipticRotation σ).mulVec v - (eclipticRotation s).mulVec v).length ≤ 0.001 := by
    intro a s ha ha' hs v hv
    have hN := near_ecliptics ts (by norm_num) ha (by linarith) hσ hs v
    have h3 : (2.04e-6 * (a - 2451545) + 1e-20) * v.length ≤ (2.04e-6 * 365 + 1e-20) * 1.1 :=
      mul_le_mul (by linarith) (unit_from σ hv).2 (Vec3.length_nonneg _) (by norm_num)
    exact hN.trans (h3.trans (by norm_num))
  have comps : ∀ {x y : Vec3} {r : ℝ}, (x - y).length ≤ r → |x.x - y.x| ≤ r ∧ |x.y - y.y| ≤ r ∧ |x.z - y.z| ≤ r := by
    intro x y r h
    have hsq := Vec3.length_sq (x - y)
    have hl := Vec3.length_nonneg (x - y)
    simp only [Vec3.dot, Vec3.sub_x, Vec3.sub_y, Vec3.sub_z] at hsq
    refine ⟨(abs_le_of_sq_le_sq ?_ hl).trans h, (abs_le_of_sq_le_sq ?_ hl).trans h, (abs_le_of_sq_le_sq ?_ hl).trans h⟩ <;>
      nlinarith [mul_self_nonneg (x.x - y.x), mul_self_nonneg (x.y - y.y), mul_self_nonneg (x.z - y.z)]
  let θ : ℝ → ℝ := fun b => 0.054 * (b - 2451545)
  let target : ℝ → Vec3 := fun b => cos (0.4 * sin (θ b)) • P - sin (0.4 * sin (θ b)) • Q
  have seen : ∀ a s, 2451545 ≤ a → a ≤ 2451910 → (ts.ttJd a none).sky = some s → ∀ b, 0.5 ≤ cos (eclipticLat s (target b)) ∧ 0.5 ≤ cos (eclipticLat s P) ∧
      ∃ E A, (∃ n : ℤ, E = eclipticLon s P - eclipticLon s (target b) + 2 * π * n) ∧ |E| ≤ 3 ∧ 0.15 ≤ A ∧ E = A * sin (θ b) := by
    intro a s ha ha' hs b
    obtain ⟨x1, x2, x3⟩ := comps (near a s ha ha' hs P lP)
    obtain ⟨y1, y2, y3⟩ := comps (near a s ha ha' hs Q lQ)
    rw [h1] at x1 x2 x3
    rw [h2] at y1 y2 y3
    simp only [zero_sub, abs_neg] at x1 x2 x3 y1 y2 y3
    exact seen_apart s (neg_one_le_sin _) (sin_le_one _) (by rw [abs_sub_comm]; exact x1) x2 x3 y1 (by rw [abs_sub_comm]; exact y2) y3 rfl
  have : ∀ a b : ℝ, ∃ E A : ℝ, 2451545 ≤ a → a ≤ 2451910 → (∀ s, (ts.ttJd a none).sky = some s → ∃ n : ℤ, E = eclipticLon s P - eclipticLon s (target b) + 2 * π * n) ∧
      |E| ≤ 3 ∧ 0.15 ≤ A ∧ E = A * sin (θ b) := by
    intro a b
    by_cases h : 2451545 ≤ a ∧ a ≤ 2451910
    · obtain ⟨s, hs⟩ := (ts.ttJd a none).sky_defined
      obtain ⟨-, -, E, A, k1, k2⟩ := seen a s h.1 h.2 hs b
      refine ⟨E, A, fun _ _ => ⟨fun s' hs' => ?_, k2⟩⟩
      rw [hs, Option.some.injEq] at hs'
      rw [← hs']
      exact k1
    · exact ⟨0, 0, fun k1 k2 => absurd ⟨k1, k2⟩ h⟩
  choose E A hEA using this
  refine ⟨target, fun _ => P, E, A, fun _ b => θ b, ?_, ?_, ?_, ?_, ?_, ?_, ?_⟩
  · intro jd _ _
    refine ⟨?_, (unit_from σ lP).1⟩
    refine (unit_from σ (v := target jd) ?_).1
    have e : (eclipticRotation σ).mulVec (target jd) = ⟨cos (0.4 * sin (θ jd)), -sin (0.4 * sin (θ jd)), 0⟩ := by
      show (eclipticRotation σ).mulVec (cos (0.4 * sin (θ jd)) • P - sin (0.4 * sin (θ jd)) • Q) = _
      have : cos (0.4 * sin (θ jd)) • P - sin (0.4 * sin (θ jd)) • Q = cos (0.4 * sin (θ jd)) • P + (-sin (0.4 * sin (θ jd))) • Q := by
        ext <;> simp <;> ring
      rw [this, Mat3.mulVec_add, Mat3.mulVec_smul, Mat3.mulVec_smul, h1, h2]
      ext <;> simp
    have hsq : ((eclipticRotation σ).mulVec (target jd)).length ^ 2 = 1 := by
      rw [Vec3.length_sq, e]
      simp only [Vec3.dot]
      linear_combination sin_sq_add_cos_sq (0.4 * sin (θ jd))
    exact (pow_eq_one_iff_of_nonneg (Vec3.length_nonneg _) (by norm_num)).1 hsq
  · intro a b s ha hab hb hs
    obtain ⟨k1, k2, -⟩ := seen a s ha (hab.trans hb) hs b
    exact ⟨k1, k2⟩
  · intro a b s ha hab hb hs
    exact (hEA a b ha (hab.trans hb)).1 s hs
  · intro a b ha hab hb
    exact (hEA a b ha (hab.trans hb)).2
  · intro a b c _ _ hbc _
    show 0.054 * (c - b) ≤ 0.054 * (c - 2451545) - 0.054 * (b - 2451545)
    linarith
  · intro a b c _ _ hbc _ hl
    show 0.054 * (c - 2451545) - 0.054 * (b - 2451545) ≤ 3.09
    linarith
  · intro a b _ _ _
    rw [sub_self, abs_zero]
    norm_num

end Skyfield
