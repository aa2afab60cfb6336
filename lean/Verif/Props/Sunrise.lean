import Verif.Model.AlmanacSearch
import Verif.Model.Horizon
import Verif.Props.SettlingSearch
import Verif.Props.Transits
import Verif.Props.Horizon

/-
C117: `find_discrete` over `sunrise_sunset` and `risings_and_settings` finds every rising and setting, on the Earth and with the clock that Skyfield itself
computes.
-/
namespace Skyfield
open _root_.Spec Real

/-! ### Up and down in turn -/

/-- Up, down and up again within less than the arcs allow. -/
private theorem up_down_up {slow fast j L j' η long lo hi s u w : ℝ} {h arc : ℝ → ℝ} (hturn : Turning slow fast j lo hi h)
    (harc : ∀ t, lo ≤ t → t ≤ hi → η ≤ arc t ∧ arc t ≤ π - η) (hdrift : ∀ a b, lo ≤ a → a ≤ b → b ≤ hi → |arc b - arc a| ≤ L * (b - a) + j')
    (hslow : 0 ≤ slow) (hfast : 0 ≤ fast) (hj : 0 ≤ j) (hlong : fast * long + 2 * j < 2 * η) (h0 : lo ≤ s) (hsu : s < u) (huw : u < w) (h1 : w ≤ hi)
    (hw : w - s < long) (hs : ∃ n : ℤ, |h s - 2 * π * n| ≤ arc s) (hu : ∃ n : ℤ, arc u ≤ h u - 2 * π * n ∧ h u - 2 * π * n ≤ 2 * π - arc u)
    (hw' : ∃ n : ℤ, |h w - 2 * π * n| ≤ arc w) : (slow - L) * (u - s) ≤ j + j' ∨ (slow - L) * (w - u) ≤ j + j' := by
  have hp := pi_pos
  obtain ⟨a, ha⟩ := hs
  obtain ⟨b, hb1, hb2⟩ := hu
  obtain ⟨c, hc⟩ := hw'
  obtain ⟨k, k1, k2⟩ := hturn s u h0 hsu.le (by linarith)
  obtain ⟨l, l1, l2⟩ := hturn u w (by linarith) huw.le h1
  have as := harc s h0 (by linarith)
  have au := harc u (by linarith) (by linarith)
  have aw := harc w (by linarith) h1
  have d1 := abs_le.1 (hdrift s u h0 hsu.le (by linarith))
  have d2 := abs_le.1 (hdrift u w (by linarith) huw.le h1)
  rw [abs_le] at ha hc
  have f1 : fast * (u - s) ≤ fast * long := mul_le_mul_of_nonneg_left (by linarith) hfast
  have f2 : fast * (w - s) ≤ fast * long := mul_le_mul_of_nonneg_left (by linarith) hfast
  have f3 : fast * (w - s) = fast * (u - s) + fast * (w - u) := by ring
  have s1 : 0 ≤ slow * (u - s) := mul_nonneg hslow (by linarith)
  have s2 : 0 ≤ slow * (w - u) := mul_nonneg hslow (by linarith)
  -- the turn of `u` counted on from that of `s`
  have hM : b - a - k ≤ -1 ∨ b - a - k = 0 ∨ 1 ≤ b - a - k := by omega
  rcases hM with hM | hM | hM
  · left
    have hM' : (b : ℝ) - a - k ≤ -1 := by exact_mod_cast hM
    have : 2 * π * ((b : ℝ) - a - k) ≤ 2 * π * (-1) := mul_le_mul_of_nonneg_left hM' (by linarith)
    rw [sub_mul]
    nlinarith
  · right
    have hM' : (b : ℝ) - a - k = 0 := by exact_mod_cast hM
    have hN : c - b - l ≤ 0 ∨ 1 ≤ c - b - l := by omega
    have e0 : (b : ℝ) = a + k := by linarith
    rcases hN with hN | hN
    · have hN' : (c : ℝ) - b - l ≤ 0 := by exact_mod_cast hN
      have : 2 * π * ((c : ℝ) - b - l) ≤ 2 * π * 0 := mul_le_mul_of_nonneg_left hN' (by linarith)
      rw [sub_mul]
      nlinarith
    · exfalso
      have hN' : (1 : ℝ) ≤ (c : ℝ) - b - l := by exact_mod_cast hN
      have : 2 * π * 1 ≤ 2 * π * ((c : ℝ) - b - l) := mul_le_mul_of_nonneg_left hN' (by linarith)
      rw [e0] at *
      nlinarith
  · exfalso
    have hM' : (1 : ℝ) ≤ (b : ℝ) - a - k := by exact_mod_cast hM
    have : 2 * π * 1 ≤ 2 * π * ((b : ℝ) - a - k) := mul_le_mul_of_nonneg_left hM' (by linarith)
    nlinarith

/-- **C117.** A body whose hour angle `h` turns at between `slow` and `fast` radians a day, and that is up while its hour angle is within `arc` of the meridian, where `arc`
keeps `η` away from nothing and from half a turn and drifts by no more than `L` a day, rises and sets in spells: within a stretch of less than `long` days it does not rise and
set, or set and rise again, except within `tiny` of the ends. -/
theorem C117_settles {slow fast j L j' η long tiny lo hi : ℝ} {h arc : ℝ → ℝ} {S : ℝ → Bool} (hturn : Turning slow fast j lo hi h)
    (harc : ∀ t, lo ≤ t → t ≤ hi → η ≤ arc t ∧ arc t ≤ π - η) (hdrift : ∀ a b, lo ≤ a → a ≤ b → b ≤ hi → |arc b - arc a| ≤ L * (b - a) + j')
    (hslow : 0 ≤ slow) (hfast : 0 ≤ fast) (hj : 0 ≤ j) (hlong : fast * long + 2 * j < 2 * η) (htiny : j + j' < (slow - L) * tiny) (hL : L < slow)
    (hup : ∀ t, lo ≤ t → t ≤ hi → S t = true → ∃ n : ℤ, |h t - 2 * π * n| ≤ arc t)
    (hdown : ∀ t, lo ≤ t → t ≤ hi → S t = false → ∃ n : ℤ, arc t ≤ h t - 2 * π * n ∧ h t - 2 * π * n ≤ 2 * π - arc t) :
    Settles long tiny lo hi S := by
  intro s u w h0 hsu huw h1 hw hsame
  have hpos : 0 < slow - L := by linarith
  have fin : ∀ x, (slow - L) * x ≤ j + j' → x ≤ tiny := fun x hx => le_of_mul_le_mul_left (hx.trans htiny.le) hpos
  cases es : S s <;> cases eu : S u
  · exact Or.inl rfl
  · right
    have ew : S w = false := hsame.symm.trans es
    have hturn' : Turning slow fast j lo hi fun t => h t - π := by
      intro a b ha hab hb
      obtain ⟨n, n1, n2⟩ := hturn a b ha hab hb
      exact ⟨n, by linarith, by linarith⟩
    have turn : ∀ t, (∃ n : ℤ, arc t ≤ h t - 2 * π * n ∧ h t - 2 * π * n ≤ 2 * π - arc t) → ∃ n : ℤ, |h t - π - 2 * π * n| ≤ π - arc t := by
      rintro t ⟨n, n1, n2⟩
      exact ⟨n, abs_le.2 ⟨by linarith, by linarith⟩⟩
    have := up_down_up (arc := fun t => π - arc t) (L := L) (j' := j') hturn' (η := η)
      (fun t a b => ⟨by linarith [(harc t a b).2], by linarith [(harc t a b).1]⟩)
      (fun a b ha hab hb => by rw [show π - arc b - (π - arc a) = -(arc b - arc a) by ring, abs_neg]; exact hdrift a b ha hab hb)
      hslow hfast hj hlong h0 hsu huw h1 hw (turn s (hdown s h0 (by linarith) es)) (by
        obtain ⟨n, hn⟩ := hup u (by linarith) (by linarith) eu
        rw [abs_le] at hn
        exact ⟨n - 1, by push_cast; linarith, by push_cast; linarith⟩) (turn w (hdown w (by linarith) h1 ew))
    exact this.imp (fin _) (fin _)
  · right
    have ew : S w = true := hsame.symm.trans es
    exact (up_down_up (L := L) hturn harc hdrift hslow hfast hj hlong h0 hsu huw h1 hw (hup s h0 (by linarith) es) (hdown u (by linarith) (by linarith) eu)
      (hup w (by linarith) h1 ew)).imp (fin _) (fin _)
  · exact Or.inl rfl

/-! ### The hour angle at which a body stands at an altitude -/

private theorem arccos_drift {x y η : ℝ} (h0 : 0 < η) (h1 : η ≤ π / 2) (hx : |x| ≤ cos η) (hy : |y| ≤ cos η) :
    |arccos x - arccos y| * sin η ≤ π / 2 * |x - y| := by
  rw [abs_le] at hx hy
  have hp := pi_pos
  have hc1 := cos_le_one η
  have hs : 0 < sin η := sin_pos_of_pos_of_lt_pi h0 (by linarith)
  have hax : η ≤ arccos x ∧ arccos x ≤ π - η := by
    constructor
    · rw [← arccos_cos h0.le (by linarith)]
      exact arccos_le_arccos hx.2
    · rw [← arccos_cos (x := π - η) (by linarith) (by linarith), cos_pi_sub]
      exact arccos_le_arccos hx.1
  have hay : η ≤ arccos y ∧ arccos y ≤ π - η := by
    constructor
    · rw [← arccos_cos h0.le (by linarith)]
      exact arccos_le_arccos hy.2
    · rw [← arccos_cos (x := π - η) (by linarith) (by linarith), cos_pi_sub]
      exact arccos_le_arccos hy.1
  have ex : cos (arccos x) = x := cos_arccos (by linarith) (by linarith)
  have ey : cos (arccos y) = y := cos_arccos (by linarith) (by linarith)
  generalize arccos x = α at *
  generalize arccos y = β at *
  have key : x - y = -2 * sin ((α + β) / 2) * sin ((α - β) / 2) := by rw [← ex, ← ey, cos_sub_cos]
  have k1 : sin η ≤ sin ((α + β) / 2) := by
    rcases le_total ((α + β) / 2) (π / 2) with hle | hle
    · exact sin_le_sin_of_le_of_le_pi_div_two (by linarith) hle (by linarith)
    · rw [← sin_pi_sub ((α + β) / 2)]
      exact sin_le_sin_of_le_of_le_pi_div_two (by linarith) (by linarith) (by linarith)
  have k2 : 2 / π * (|α - β| / 2) ≤ |sin ((α - β) / 2)| := by
    have hab : |α - β| / 2 ≤ π / 2 := by
      have : |α - β| ≤ π := abs_le.2 ⟨by linarith, by linarith⟩
      linarith
    have := mul_le_sin (x := |α - β| / 2) (by positivity) hab
    refine this.trans ?_
    rcases abs_cases (α - β) with ⟨h, -⟩ | ⟨h, -⟩
    · rw [h]; exact le_abs_self _
    · rw [h, show -(α - β) / 2 = -((α - β) / 2) by ring, sin_neg]; exact neg_le_abs _
  rw [key, abs_mul, abs_mul, abs_of_nonneg (hs.le.trans k1), show |(-2 : ℝ)| = 2 by norm_num]
  have k3 : π / 2 * (2 * sin η * (2 / π * (|α - β| / 2))) = |α - β| * sin η := by field_simp
  rw [← k3]
  have : 0 ≤ 2 / π * (|α - β| / 2) := by positivity
  have : 0 ≤ 2 * sin ((α + β) / 2) := by linarith
  gcongr

private theorem quotient_drift {a φ z z' C C' c : ℝ} (hφ : 0 < cos φ) (hc : 0 < c) (hC : c ≤ C) (hC' : c ≤ C') (e : z ^ 2 + C ^ 2 = 1) (e' : z' ^ 2 + C' ^ 2 = 1)
    (hq : |sin a - sin φ * z| ≤ cos φ * C) :
    |(sin a - sin φ * z') / (cos φ * C') - (sin a - sin φ * z) / (cos φ * C)| ≤ (1 / (cos φ * c) + 1 / c ^ 2) * |z' - z| := by
  have hC0 : 0 < C := by linarith
  have hC0' : 0 < C' := by linarith
  have key : (sin a - sin φ * z') / (cos φ * C') - (sin a - sin φ * z) / (cos φ * C) =
      -(sin φ * (z' - z)) / (cos φ * C') + (sin a - sin φ * z) / (cos φ * C) * ((C - C') / C') := by field_simp; ring
  have k1 : |-(sin φ * (z' - z)) / (cos φ * C')| ≤ 1 / (cos φ * c) * |z' - z| := by
    rw [abs_div, abs_neg, abs_mul, abs_of_pos (mul_pos hφ hC0')]
    have h1 : |sin φ| * |z' - z| ≤ 1 * |z' - z| := mul_le_mul_of_nonneg_right (abs_sin_le_one φ) (abs_nonneg _)
    have h2 : cos φ * c ≤ cos φ * C' := mul_le_mul_of_nonneg_left hC' hφ.le
    have h3 : 0 < cos φ * c := mul_pos hφ hc
    rw [div_le_iff₀ (mul_pos hφ hC0'), one_div, mul_comm (cos φ * c)⁻¹, mul_assoc]
    have h4 : 1 ≤ (cos φ * c)⁻¹ * (cos φ * C') := by
      rw [inv_mul_eq_div, le_div_iff₀ h3]; linarith
    have h5 := abs_nonneg (z' - z)
    nlinarith
  have k2 : |(C - C') / C'| ≤ 1 / c ^ 2 * |z' - z| := by
    have hz : |z| ≤ 1 := abs_le_one_iff_mul_self_le_one.2 (by nlinarith [sq_nonneg C])
    have hz' : |z'| ≤ 1 := abs_le_one_iff_mul_self_le_one.2 (by nlinarith [sq_nonneg C'])
    have h1 : (C - C') * (C + C') = (z' - z) * (z' + z) := by linear_combination e - e'
    have h2 : |C - C'| * (C + C') = |z' - z| * |z' + z| := by
      rw [← abs_mul, ← h1, abs_mul, abs_of_pos (by linarith : 0 < C + C')]
    have h3 : |z' + z| ≤ 2 := (abs_add_le _ _).trans (by linarith)
    have h4 : |C - C'| * c ≤ |z' - z| := by
      have h5 := abs_nonneg (C - C')
      have h6 := abs_nonneg (z' - z)
      nlinarith
    rw [abs_div, abs_of_pos hC0', div_le_iff₀ hC0', div_mul_eq_mul_div, one_mul, div_mul_eq_mul_div, le_div_iff₀ (by positivity)]
    have h5 := abs_nonneg (C - C')
    nlinarith [mul_nonneg h5 hc.le, abs_nonneg (z' - z)]
  have k3 : |(sin a - sin φ * z) / (cos φ * C)| ≤ 1 := by
    rw [abs_div, abs_of_pos (mul_pos hφ hC0), div_le_one (mul_pos hφ hC0)]
    exact hq
  rw [key, add_mul]
  refine (abs_add_le _ _).trans (add_le_add k1 ?_)
  rw [abs_mul]
  have := abs_nonneg ((C - C') / C')
  nlinarith

/-- Where the cosine of an hour angle is at least, or at most, that of `arc`. -/
private theorem within_arc {h arc : ℝ} (h0 : 0 ≤ arc) (h1 : arc ≤ π) (hc : cos arc ≤ cos h) : ∃ n : ℤ, |h - 2 * π * n| ≤ arc := by
  have hp := pi_pos
  obtain ⟨n, hn⟩ : ∃ n : ℤ, |h - 2 * π * n| ≤ π := by
    refine ⟨round (h / (2 * π)), ?_⟩
    have := abs_sub_round (h / (2 * π))
    have e : h - 2 * π * round (h / (2 * π)) = 2 * π * (h / (2 * π) - round (h / (2 * π))) := by field_simp
    rw [e, abs_mul, abs_of_pos (by positivity)]
    nlinarith
  refine ⟨n, ?_⟩
  by_contra hcon
  push Not at hcon
  have h2 := cos_lt_cos_of_nonneg_of_le_pi h0 hn hcon
  rw [cos_abs, mul_comm (2 * π) (n : ℝ), cos_sub_int_mul_two_pi] at h2
  linarith

private theorem beyond_arc {h arc : ℝ} (h0 : 0 ≤ arc) (h1 : arc ≤ π) (hc : cos h ≤ cos arc) :
    ∃ n : ℤ, arc ≤ h - 2 * π * n ∧ h - 2 * π * n ≤ 2 * π - arc := by
  obtain ⟨n, hn⟩ := within_arc (h := h - π) (arc := π - arc) (by linarith) (by linarith) (by rw [cos_pi_sub, cos_sub_pi]; linarith)
  rw [abs_le] at hn
  exact ⟨n, by linarith, by linarith⟩

/-! ### On the computed sky -/

/-- Specification: `degrees` is the altitude that `altaz()` gives, in degrees, from `lo` to `hi`. -/
def IsAltitude (ts : Timescale ℝ) (p : GeoPosition) (apparent : ℝ → Vec3) (lo hi : ℝ) (degrees : ℝ → ℝ) : Prop :=
  ∀ jd s, lo ≤ jd → jd ≤ hi → (ts.ttJd jd none).sky .iau2000b = some s →
    ∃ az r, p.altaz s none .standard 0 (apparent jd) = .answer (degrees jd) az r

/-- Specification: from `lo` to `hi`, the hour angle at which a body with the target's declination of date stands at the altitude `threshold` degrees, for the latitude of
the place, is at least `η` and at most `π - η` radians: every day, the target is above that altitude while the sky turns by `2 * η` or more, and below it likewise. -/
def RisesAndSets (ts : Timescale ℝ) (p : GeoPosition) (apparent : ℝ → Vec3) (lo hi threshold η : ℝ) : Prop :=
  ∀ jd s, lo ≤ jd → jd ≤ hi → (ts.ttJd jd none).sky .iau2000b = some s →
    |sin (threshold / 360 * (2 * π)) - sin p.latitude * sin (decOfDate s (apparent jd))| ≤ cos η * (cos p.latitude * cos (decOfDate s (apparent jd)))

/-- Specification: how far a target may be from the equator, and how fast it may move, for the search to be sure of its risings and settings: it moves by `μ` radians a day, the
cosine of its declination is `c` or more, and spells of `long` days above and below the altitude fit in `2 * η`. -/
structure Gentle (latitude μ c η e L long : ℝ) : Prop where
  speed : 0 ≤ μ
  off_pole : 0 < c
  place : 0 < cos latitude
  arc : 0 < η
  arc' : η ≤ π / 2
  /-- How much the motion in right ascension may add to the hour angle, a day. -/
  turn : 1.5709 * μ + 6e-6 ≤ e * c
  /-- How much the motion in declination may add to the arc, a day. -/
  drift : 1.5709 * (1 / (cos latitude * c) + 1 / c ^ 2) * (1.0002 * μ + 3e-6) ≤ L * sin η
  steep : 1 / (cos latitude * c) + 1 / c ^ 2 ≤ 500 * sin η
  slow : e + L ≤ 5
  spell : (6.300389 + e) * long + 1e-9 ≤ 2 * η

private theorem Gentle.facts {φ μ c η e L long : ℝ} (g : Gentle φ μ c η e L long) : 6e-6 ≤ c ∧ 0 ≤ e ∧ 0 ≤ L ∧ 0 < sin η := by
  have hs : 0 < sin η := sin_pos_of_pos_of_lt_pi g.arc (by linarith [g.arc', pi_pos])
  have hk : 0 < 1 / (cos φ * c) := one_div_pos.2 (mul_pos g.place g.off_pole)
  have hc2 : 0 < 1 / c ^ 2 := one_div_pos.2 (pow_pos g.off_pole 2)
  have hc : 6e-6 ≤ c := by
    by_contra hlt
    push Not at hlt
    have h1 : 1 / c ^ 2 ≤ 500 := by linarith [g.steep, sin_le_one η]
    rw [div_le_iff₀ (pow_pos g.off_pole 2)] at h1
    nlinarith [g.off_pole]
  refine ⟨hc, ?_, ?_, hs⟩
  · by_contra hneg
    push Not at hneg
    have := mul_nonpos_of_nonpos_of_nonneg hneg.le g.off_pole.le
    linarith [g.turn, g.speed]
  · by_contra hneg
    push Not at hneg
    have h1 := mul_neg_of_neg_of_pos hneg hs
    have h2 : 0 ≤ 1.5709 * (1 / (cos φ * c) + 1 / c ^ 2) * (1.0002 * μ + 3e-6) := by
      have := g.speed
      positivity
    linarith [g.drift]

/-- The arc drifts no faster than the declination lets it. -/
private theorem arc_drift {φ μ c η e L long a z z' C C' Δ d : ℝ} (g : Gentle φ μ c η e L long) (hC : c ≤ C) (hC' : c ≤ C') (hz : z ^ 2 + C ^ 2 = 1)
    (hz' : z' ^ 2 + C' ^ 2 = 1) (hq : |sin a - sin φ * z| ≤ cos η * (cos φ * C)) (hq' : |sin a - sin φ * z'| ≤ cos η * (cos φ * C'))
    (hΔ : 0 ≤ Δ) (hd : |d| ≤ (1 + 4.7e-8) * Δ) (hdz : |z' - z| ≤ 1.0001 * (μ * Δ + 1e-16) + 2.6e-6 * |d| + 1e-13) :
    |arccos ((sin a - sin φ * z') / (cos φ * C')) - arccos ((sin a - sin φ * z) / (cos φ * C))| ≤ L * Δ + 8.7e-11 := by
  obtain ⟨-, -, hL, hs⟩ := g.facts
  have hC0 : 0 < C := by linarith [g.off_pole]
  have hC0' : 0 < C' := by linarith [g.off_pole]
  have p1 := mul_pos g.place hC0
  have p2 := mul_pos g.place hC0'
  have b1 : |(sin a - sin φ * z) / (cos φ * C)| ≤ cos η := by rw [abs_div, abs_of_pos p1, div_le_iff₀ p1]; exact hq
  have b2 : |(sin a - sin φ * z') / (cos φ * C')| ≤ cos η := by rw [abs_div, abs_of_pos p2, div_le_iff₀ p2]; exact hq'
  have h1 := arccos_drift g.arc g.arc' b2 b1
  have h2 := quotient_drift (a := a) g.place g.off_pole hC hC' hz hz' (hq.trans (by
    have := mul_le_mul_of_nonneg_right (cos_le_one η) p1.le
    linarith))
  have hK : 0 ≤ 1 / (cos φ * c) + 1 / c ^ 2 := by
    have := g.place
    have := g.off_pole
    positivity
  have hdrift := g.drift
  have hsteep := g.steep
  generalize 1 / (cos φ * c) + 1 / c ^ 2 = K at *
  generalize |arccos ((sin a - sin φ * z') / (cos φ * C')) - arccos ((sin a - sin φ * z) / (cos φ * C))| = X at *
  generalize |(sin a - sin φ * z') / (cos φ * C') - (sin a - sin φ * z) / (cos φ * C)| = Y at *
  have h3 : |z' - z| ≤ (1.0002 * μ + 3e-6) * Δ + 1.002e-13 := by
    have := mul_nonneg g.speed hΔ
    have e : (1.0002 * μ + 3e-6) * Δ = 1.0002 * (μ * Δ) + 3e-6 * Δ := by ring
    rw [e]
    linarith
  have h4 : Y ≤ K * ((1.0002 * μ + 3e-6) * Δ + 1.002e-13) := h2.trans (mul_le_mul_of_nonneg_left h3 hK)
  have hY : 0 ≤ K * ((1.0002 * μ + 3e-6) * Δ + 1.002e-13) := by
    have := g.speed
    positivity
  have h5 : X * sin η ≤ 1.5709 * (K * ((1.0002 * μ + 3e-6) * Δ + 1.002e-13)) := by
    have hp : π / 2 ≤ 1.5709 := by linarith [pi_lt_d4]
    refine h1.trans ((mul_le_mul_of_nonneg_left h4 (by linarith [pi_pos])).trans ?_)
    exact mul_le_mul_of_nonneg_right hp hY
  have h6 : 1.5709 * K * (1.0002 * μ + 3e-6) * Δ ≤ L * sin η * Δ := mul_le_mul_of_nonneg_right hdrift hΔ
  have h7 : X * sin η ≤ (L * Δ + 8.7e-11) * sin η := by
    have e : (L * Δ + 8.7e-11) * sin η = L * sin η * Δ + 8.7e-11 * sin η := by ring
    rw [e]
    have e2 : 1.5709 * (K * ((1.0002 * μ + 3e-6) * Δ + 1.002e-13)) = 1.5709 * K * (1.0002 * μ + 3e-6) * Δ + 1.5709 * K * 1.002e-13 := by ring
    rw [e2] at h5
    linarith
  exact le_of_mul_le_mul_right h7 hs

private theorem seen_itrs {s : SkyTime} {v : Vec3} (hv : v ≠ 0) : frameXyz itrsFrame s v ≠ 0 := by
  intro h0
  have hm := (itrs_up_to s).dot v v
  have e : frameXyz itrsFrame s v = (itrsRotation s).mulVec v := rfl
  rw [← e, h0, ← Vec3.length_sq v, abs_le] at hm
  have := Vec3.length_pos hv
  simp [Vec3.dot] at hm
  nlinarith [hm.1]

/-- **C117.** On the Earth and with the clock that Skyfield computes, a target that `RisesAndSets` and `Gentle` describe is above the altitude `threshold` for `long` days or
more, and then below it for `long` days or more, and so on.  `S` may count the moment of standing at `threshold` either way. -/
theorem C117_sky_settles {ts : Timescale ℝ} (hts : ts.IsBuiltin) (p : GeoPosition) {apparent : ℝ → Vec3} {lo hi μ c e L η long threshold : ℝ}
    (hlo : InDailyTable lo) (hhi : InDailyTable hi) (hm : MovesSlowly ts apparent lo hi μ c) (g : Gentle p.latitude μ c η e L long)
    (hthreshold : |threshold| ≤ 90) (hcross : RisesAndSets ts p apparent lo hi threshold η) {degrees : ℝ → ℝ} (hdeg : IsAltitude ts p apparent lo hi degrees) {S : ℝ → Bool}
    (hup : ∀ t, lo ≤ t → t ≤ hi → S t = true → threshold ≤ degrees t) (hdown : ∀ t, lo ≤ t → t ≤ hi → S t = false → degrees t ≤ threshold) :
    Settles long 1e-10 lo hi S := by
  obtain ⟨hc6, he0, hL0, hsη⟩ := g.facts
  have hp := pi_pos
  set φ := p.latitude with hφ
  set a := threshold / 360 * (2 * π) with ha
  have ha2 : -(π / 2) ≤ a ∧ a ≤ π / 2 := by
    rw [abs_le] at hthreshold
    constructor <;> rw [ha] <;> nlinarith
  -- the sky at each moment, its hour angle and the cosine of its arc
  let sky : ℝ → SkyTime := fun jd => ((ts.ttJd jd none).sky_defined .iau2000b).choose
  have hsky : ∀ jd, (ts.ttJd jd none).sky .iau2000b = some (sky jd) := fun jd => ((ts.ttJd jd none).sky_defined .iau2000b).choose_spec
  let h : ℝ → ℝ := fun jd => (hadec (sky jd) p.longitude (apparent jd)).1
  let δ : ℝ → ℝ := fun jd => decOfDate (sky jd) (apparent jd)
  let arc : ℝ → ℝ := fun jd => arccos ((sin a - sin φ * sin (δ jd)) / (cos φ * cos (δ jd)))
  have hδ : ∀ jd, (hadec (sky jd) p.longitude (apparent jd)).2.1 = δ jd := fun jd => by
    obtain ⟨-, -, -, hn⟩ := Time.sky_eq (hsky jd)
    exact date_dec hn _ _
  have hC : ∀ jd, lo ≤ jd → jd ≤ hi → c ≤ cos (δ jd) := fun jd h0 h1 => hm.dec jd _ h0 h1 (hsky jd)
  have hQ : ∀ jd, lo ≤ jd → jd ≤ hi → |sin a - sin φ * sin (δ jd)| ≤ cos η * (cos φ * cos (δ jd)) := fun jd h0 h1 => hcross jd _ h0 h1 (hsky jd)
  have hx : ∀ jd, lo ≤ jd → jd ≤ hi → |(sin a - sin φ * sin (δ jd)) / (cos φ * cos (δ jd))| ≤ cos η := fun jd h0 h1 => by
    have := mul_pos g.place (show 0 < cos (δ jd) by linarith [hC jd h0 h1, g.off_pole])
    rw [abs_div, abs_of_pos this, div_le_iff₀ this]
    exact hQ jd h0 h1
  have hcosarc : ∀ jd, lo ≤ jd → jd ≤ hi → cos (arc jd) = (sin a - sin φ * sin (δ jd)) / (cos φ * cos (δ jd)) := fun jd h0 h1 => by
    have := abs_le.1 (hx jd h0 h1)
    have := cos_le_one η
    exact cos_arccos (by linarith) (by linarith)
  -- the altitude
  have hsin : ∀ jd, lo ≤ jd → jd ≤ hi → ∃ alt, -(π / 2) ≤ alt ∧ alt ≤ π / 2 ∧ degrees jd = alt * 360 / (2 * π) ∧
      sin alt = sin φ * sin (δ jd) + cos φ * cos (δ jd) * cos (h jd) := fun jd h0 h1 => by
    have hk := C100_hadec φ p.longitude (sky jd) (apparent jd) (seen_itrs (hm.somewhere jd h0 h1))
    simp only at hk
    obtain ⟨-, hk, -⟩ := hk
    rw [hδ jd] at hk
    obtain ⟨az, r, hans⟩ := hdeg jd _ h0 h1 (hsky jd)
    simp only [GeoPosition.altaz, toAltaz, AltazOutcome.answer.injEq] at hans
    have hr := abs_le.1 (C36_range ((horizonRotation p.latitude p.longitude (sky jd)).mulVec (apparent jd))).2.2.1
    refine ⟨_, hr.1, hr.2, hans.1.symm, hk⟩
  have habove : ∀ jd, lo ≤ jd → jd ≤ hi → threshold ≤ degrees jd → cos (arc jd) ≤ cos (h jd) := fun jd h0 h1 hd => by
    obtain ⟨alt, l0, l1, l2, l3⟩ := hsin jd h0 h1
    rw [hcosarc jd h0 h1, div_le_iff₀ (mul_pos g.place (show 0 < cos (δ jd) by linarith [hC jd h0 h1, g.off_pole]))]
    have : a ≤ alt := by
      rw [l2, le_div_iff₀ (by linarith)] at hd
      rw [ha]; linarith
    have := sin_le_sin_of_le_of_le_pi_div_two ha2.1 l1 this
    linarith
  have hbelow : ∀ jd, lo ≤ jd → jd ≤ hi → degrees jd ≤ threshold → cos (h jd) ≤ cos (arc jd) := fun jd h0 h1 hd => by
    obtain ⟨alt, l0, l1, l2, l3⟩ := hsin jd h0 h1
    rw [hcosarc jd h0 h1, le_div_iff₀ (mul_pos g.place (show 0 < cos (δ jd) by linarith [hC jd h0 h1, g.off_pole]))]
    have : alt ≤ a := by
      rw [l2, div_le_iff₀ (by linarith)] at hd
      rw [ha]; linarith
    have := sin_le_sin_of_le_of_le_pi_div_two l0 ha2.2 this
    linarith
  -- turning, and the drift of the arc
  have both : ∀ x y, lo ≤ x → x < y → y ≤ hi →
      (∃ n : ℤ, (6.300387 - e) * (y - x) - 3e-11 ≤ h y - h x - 2 * π * n ∧ h y - h x - 2 * π * n ≤ (6.300389 + e) * (y - x) + 3e-11) ∧
      |arc y - arc x| ≤ L * (y - x) + 8.7e-11 := by
    intro x y hx0 hxy hy1
    have ta : (ts.ttJd x none).tt = x := (C11_jd_reads_back ts x 0).1
    have tb : (ts.ttJd y none).tt = y := (C11_jd_reads_back ts y 0).1
    have ia : InDailyTable (ts.ttJd x none).tt := by rw [ta]; exact ⟨hlo.1.trans hx0, hxy.le.trans (hy1.trans hhi.2)⟩
    have ib : InDailyTable (ts.ttJd y none).tt := by rw [tb]; exact ⟨hlo.1.trans (hx0.trans hxy.le), hy1.trans hhi.2⟩
    have hda := C113_days_apart hts (t := ts.ttJd x none) (u := ts.ttJd y none) rfl rfl ⟨rfl, rfl⟩ ⟨rfl, rfl⟩ ia ib
    have hut := (C113_ut1_runs_on hts (t := ts.ttJd x none) (u := ts.ttJd y none) rfl rfl rfl rfl ia ib (by rw [ta, tb]; exact hxy)).1
    rw [ta, tb] at hut
    generalize (ts.ttJd y none).ut1 - (ts.ttJd x none).ut1 = d at hda hut
    have hd : |d| ≤ (1 + 4.7e-8) * (y - x) := by
      have := abs_add_le (d - (y - x)) (y - x)
      rw [sub_add_cancel, abs_of_pos (by linarith : 0 < y - x)] at this
      linarith
    obtain ⟨⟨n, hX⟩, hZ⟩ := C112_hour_angle_rate hda (hsky x) (hsky y) p.longitude (hm.somewhere x hx0 (hxy.le.trans hy1))
      (hm.somewhere y (hx0.trans hxy.le) hy1) (hm.speed x y hx0 hxy.le hy1)
    rw [hδ x, hδ y] at hX hZ
    have cx := hC x hx0 (hxy.le.trans hy1)
    have cy := hC y (hx0.trans hxy.le) hy1
    refine ⟨⟨n, ?_⟩, ?_⟩
    · have hX' : |h y - h x - 2 * π * (1.00273790935 * d) - 2 * π * n| * c ≤ 1.5709 * (μ * (y - x) + 1e-16) + 5.5e-6 * |d| + 2e-19 :=
        (mul_le_mul_of_nonneg_left (le_min cx cy) (abs_nonneg _)).trans hX
      have hX2 := angle_error hc6 (by linarith) hd g.turn hX'
      obtain ⟨w1, w2⟩ := sidereal_step (by linarith : 0 ≤ y - x) hut
      rw [abs_le] at hX2
      constructor <;> linarith [hX2.1, hX2.2]
    · exact arc_drift g cx cy (sin_sq_add_cos_sq _) (sin_sq_add_cos_sq _) (hQ x hx0 (hxy.le.trans hy1)) (hQ y (hx0.trans hxy.le) hy1) (by linarith) hd hZ
  have hrange : ∀ t, lo ≤ t → t ≤ hi → η ≤ arc t ∧ arc t ≤ π - η := by
    intro t h0 h1
    have hq := abs_le.1 (hx t h0 h1)
    have l1 := g.arc
    have l2 := g.arc'
    constructor
    · rw [← arccos_cos g.arc.le (by linarith)]
      exact arccos_le_arccos hq.2
    · rw [← arccos_cos (x := π - η) (by linarith) (by linarith), cos_pi_sub]
      exact arccos_le_arccos hq.1
  refine C117_settles (slow := 6.300387 - e) (fast := 6.300389 + e) (j := 3e-11) (L := L) (j' := 8.7e-11) (η := η) (h := h) (arc := arc) ?_ hrange ?_
    (by linarith [g.slow]) (by linarith) (by norm_num) (by linarith [g.spell]) (by nlinarith [g.slow]) (by linarith [g.slow]) ?_ ?_
  · intro x y h0 hxy h1
    rcases eq_or_lt_of_le hxy with rfl | hlt
    · refine ⟨0, ?_, ?_⟩ <;> push_cast <;> norm_num
    · exact (both x y h0 hlt h1).1
  · intro x y h0 hxy h1
    rcases eq_or_lt_of_le hxy with rfl | hlt
    · norm_num
    · exact (both x y h0 hlt h1).2
  · intro t h0 h1 hS
    exact within_arc (arccos_nonneg _) (arccos_le_pi _) (habove t h0 h1 (hup t h0 h1 hS))
  · intro t h0 h1 hS
    exact beyond_arc (arccos_nonneg _) (arccos_le_pi _) (hbelow t h0 h1 (hdown t h0 h1 hS))

/-- The search stops, with the events of `C117_search`. -/
private theorem runs {f : Searchable ℝ Bool} {lo hi step long : ℝ} (hS : Settles long 1e-10 lo hi f.call) (hstep : f.stepDays = some step) (hs : 0.01 ≤ step)
    (hspan : lo + 0.001 / 86400 ≤ hi) (hlong : step + 4e-10 ≤ long) :
    ∃ rounds events, findDiscrete lo hi f (0.001 / 86400) 12 rounds = .ok (some events) ∧
      (∀ e ∈ events, lo < e.1 ∧ e.1 ≤ hi ∧ f.call e.1 = e.2 ∧ ∃ s, lo ≤ s ∧ s < e.1 ∧ e.1 - s ≤ 0.001 / 86400 ∧ f.call s = !e.2) ∧
      Tells (0.00104 / 86400) (0.00004 / 86400) lo hi f.call events ∧
      ∀ x ∈ events.zip events.tail, x.1.2 ≠ x.2.2 ∧ long - 0.001 / 86400 ≤ x.2.1 - x.1.1 := by
  obtain ⟨samples, hsm, -⟩ := C16_sample_spacing lo hi f 12 step (by linarith) hstep (by linarith)
  obtain ⟨⟨rounds, hr⟩, hall⟩ := C17_terminates lo hi f (0.001 / 86400) 12 (by norm_num) (by norm_num)
    (by intro s' hs'; rw [hstep] at hs'; rw [← Option.some.inj hs']; linarith) samples hsm
  obtain ⟨events, hev⟩ := hall rounds hr
  obtain ⟨c1, c2, c3⟩ := C117_search hS (by norm_num) hstep (by norm_num) (by linarith) hspan (by norm_num) (by norm_num) (by linarith) hev
  refine ⟨rounds + 1, events, hev, c1, ?_, c3⟩
  intro u h0 h1 hu
  refine c2 u (by linarith) (by linarith) fun x hx => ?_
  rcases hu x hx with h | h
  · left; linarith
  · right; linarith

/-- **C117.** `find_discrete(t0, t1, sunrise_sunset(ephemeris, topos))`, with its default settings, where the Sun `RisesAndSets` and is `Gentle`, with days and nights longer
than an hour: it stops, and what it returns are the risings and settings.  At each time it reports as a rising (`True`) the Sun is up, and it was not, at some moment
within the millisecond before; likewise for settings.  Nothing is missed: at every moment of the span the Sun is up or not as the latest event says, but for 1.04 ms before
events and 0.04 ms after.  And the risings and settings alternate. -/
theorem C117_sunrise {ts : Timescale ℝ} (hts : ts.IsBuiltin) (p : GeoPosition) {apparent : ℝ → Vec3} {lo hi μ c e L η long : ℝ}
    (hlo : InDailyTable lo) (hhi : InDailyTable hi) (hm : MovesSlowly ts apparent lo hi μ c) (g : Gentle p.latitude μ c η e L long)
    (hcross : RisesAndSets ts p apparent lo hi (-0.8333) η) {degrees : ℝ → ℝ} (hdeg : IsAltitude ts p apparent lo hi degrees)
    (hspan : lo + 0.001 / 86400 ≤ hi) (hlong : 0.04 + 4e-10 ≤ long) :
    ∃ rounds events, findDiscrete lo hi (sunriseSunset degrees) (0.001 / 86400) 12 rounds = .ok (some events) ∧
      (∀ t, (t, true) ∈ events → lo < t ∧ t ≤ hi ∧ -0.8333 ≤ degrees t ∧ ∃ s, lo ≤ s ∧ s < t ∧ t - s ≤ 0.001 / 86400 ∧ degrees s < -0.8333) ∧
      (∀ t, (t, false) ∈ events → lo < t ∧ t ≤ hi ∧ degrees t < -0.8333 ∧ ∃ s, lo ≤ s ∧ s < t ∧ t - s ≤ 0.001 / 86400 ∧ -0.8333 ≤ degrees s) ∧
      (∀ S : ℝ → Bool, (∀ t, S t = true ↔ -0.8333 ≤ degrees t) → Tells (0.00104 / 86400) (0.00004 / 86400) lo hi S events) ∧
      ∀ x ∈ events.zip events.tail, x.1.2 ≠ x.2.2 ∧ long - 0.001 / 86400 ≤ x.2.1 - x.1.1 := by
  have hcall : ∀ t, (sunriseSunset degrees).call t = true ↔ -0.8333 ≤ degrees t := fun t => by
    simp [sunriseSunset, isSunUpAt]
  have hcall' : ∀ t, (sunriseSunset degrees).call t = false ↔ degrees t < -0.8333 := fun t => by
    rw [← Bool.not_eq_true, hcall, not_le]
  have hS := C117_sky_settles hts p hlo hhi hm g (threshold := -0.8333) (by norm_num) hcross hdeg (S := (sunriseSunset degrees).call)
    (fun t _ _ h => (hcall t).1 h) (fun t _ _ h => ((hcall' t).1 h).le)
  obtain ⟨rounds, events, hev, h1, h2, h3⟩ := runs hS (step := 0.04) rfl (by norm_num) hspan hlong
  refine ⟨rounds, events, hev, ?_, ?_, ?_, h3⟩
  · intro t ht
    obtain ⟨a1, a2, a3, s, b1, b2, b3, b4⟩ := h1 _ ht
    exact ⟨a1, a2, (hcall t).1 a3, s, b1, b2, b3, (hcall' s).1 b4⟩
  · intro t ht
    obtain ⟨a1, a2, a3, s, b1, b2, b3, b4⟩ := h1 _ ht
    exact ⟨a1, a2, (hcall' t).1 a3, s, b1, b2, b3, (hcall s).1 b4⟩
  · intro S hSS
    have : S = (sunriseSunset degrees).call := by
      funext t
      rw [Bool.eq_iff_iff, hSS, hcall]
    rw [this]
    exact h2

/-- **C117.** The same of `risings_and_settings(ephemeris, target, topos, horizon_degrees, radius_degrees)`, whose step is a quarter of a day: for a target
that is up for six hours or more at a time, and down for six hours or more. -/
theorem C117_risings {ts : Timescale ℝ} (hts : ts.IsBuiltin) (p : GeoPosition) {apparent : ℝ → Vec3} {lo hi μ c e L η long horizon radius : ℝ}
    (hlo : InDailyTable lo) (hhi : InDailyTable hi) (hm : MovesSlowly ts apparent lo hi μ c) (g : Gentle p.latitude μ c η e L long)
    (hhorizon : |horizon - radius| ≤ 90) (hcross : RisesAndSets ts p apparent lo hi (horizon - radius) η) {degrees : ℝ → ℝ}
    (hdeg : IsAltitude ts p apparent lo hi degrees) (hspan : lo + 0.001 / 86400 ≤ hi) (hlong : 0.25 + 4e-10 ≤ long) :
    ∃ rounds events, findDiscrete lo hi (risingsAndSettings horizon radius degrees) (0.001 / 86400) 12 rounds = .ok (some events) ∧
      (∀ t, (t, true) ∈ events → lo < t ∧ t ≤ hi ∧ horizon < degrees t + radius ∧
        ∃ s, lo ≤ s ∧ s < t ∧ t - s ≤ 0.001 / 86400 ∧ degrees s + radius ≤ horizon) ∧
      (∀ t, (t, false) ∈ events → lo < t ∧ t ≤ hi ∧ degrees t + radius ≤ horizon ∧
        ∃ s, lo ≤ s ∧ s < t ∧ t - s ≤ 0.001 / 86400 ∧ horizon < degrees s + radius) ∧
      (∀ S : ℝ → Bool, (∀ t, S t = true ↔ horizon < degrees t + radius) → Tells (0.00104 / 86400) (0.00004 / 86400) lo hi S events) ∧
      ∀ x ∈ events.zip events.tail, x.1.2 ≠ x.2.2 ∧ long - 0.001 / 86400 ≤ x.2.1 - x.1.1 := by
  have hcall : ∀ t, (risingsAndSettings horizon radius degrees).call t = true ↔ horizon < degrees t + radius := fun t => by
    simp [risingsAndSettings, isBodyUpAt, sub_lt_iff_lt_add]
  have hcall' : ∀ t, (risingsAndSettings horizon radius degrees).call t = false ↔ degrees t + radius ≤ horizon := fun t => by
    rw [← Bool.not_eq_true, hcall, not_lt]
  have hS := C117_sky_settles hts p hlo hhi hm g hhorizon hcross hdeg (S := (risingsAndSettings horizon radius degrees).call)
    (fun t _ _ h => by linarith [(hcall t).1 h]) (fun t _ _ h => by linarith [(hcall' t).1 h])
  obtain ⟨rounds, events, hev, h1, h2, h3⟩ := runs hS (step := 0.25) rfl (by norm_num) hspan hlong
  refine ⟨rounds, events, hev, ?_, ?_, ?_, h3⟩
  · intro t ht
    obtain ⟨a1, a2, a3, s, b1, b2, b3, b4⟩ := h1 _ ht
    exact ⟨a1, a2, (hcall t).1 a3, s, b1, b2, b3, (hcall' s).1 b4⟩
  · intro t ht
    obtain ⟨a1, a2, a3, s, b1, b2, b3, b4⟩ := h1 _ ht
    exact ⟨a1, a2, (hcall' t).1 a3, s, b1, b2, b3, (hcall s).1 b4⟩
  · intro S hSS
    have : S = (risingsAndSettings horizon radius degrees).call := by
      funext t
      rw [Bool.eq_iff_iff, hSS, hcall]
    rw [this]
    exact h2

/-! ### Twilight -/

/-- Specification: the kind of light when the Sun stands at the altitude `d`: night, astronomical, nautical or civil twilight, or day. -/
def KindOfLight (d : ℝ) (n : ℕ) : Prop :=
  n = 0 ∧ d < -18 ∨ n = 1 ∧ -18 ≤ d ∧ d < -12 ∨ n = 2 ∧ -12 ≤ d ∧ d < -6 ∨ n = 3 ∧ -6 ≤ d ∧ d < -0.8333 ∨ n = 4 ∧ -0.8333 ≤ d

/-- Specification: from `lo` to `hi` the Sun passes the altitude `threshold` every day, with spells of `long` days above and below, or it stays above, or it stays below. -/
def PassesOrNot (ts : Timescale ℝ) (p : GeoPosition) (apparent : ℝ → Vec3) (degrees : ℝ → ℝ) (lo hi μ c long threshold : ℝ) : Prop :=
  (∃ η e L, Gentle p.latitude μ c η e L long ∧ RisesAndSets ts p apparent lo hi threshold η) ∨ (∀ t, lo ≤ t → t ≤ hi → threshold ≤ degrees t) ∨
    ∀ t, lo ≤ t → t ≤ hi → degrees t < threshold

open Classical in
private theorem level_settles {ts : Timescale ℝ} (hts : ts.IsBuiltin) (p : GeoPosition) {apparent : ℝ → Vec3} {lo hi μ c long threshold : ℝ}
    (hlo : InDailyTable lo) (hhi : InDailyTable hi) (hm : MovesSlowly ts apparent lo hi μ c) (hthreshold : |threshold| ≤ 90) {degrees : ℝ → ℝ}
    (hdeg : IsAltitude ts p apparent lo hi degrees) (h : PassesOrNot ts p apparent degrees lo hi μ c long threshold) :
    Settles long 1e-10 lo hi fun t => decide (threshold ≤ degrees t) := by
  rcases h with ⟨η, e, L, g, hcross⟩ | h | h
  · refine C117_sky_settles hts p hlo hhi hm g hthreshold hcross hdeg (fun t _ _ h => by simpa using h) (fun t _ _ h => ?_)
    simp only [decide_eq_false_iff_not, not_le] at h
    exact h.le
  · intro s u w h0 h1 h2 h3 _ _
    left
    have a1 := h s h0 (by linarith)
    have a2 := h u (by linarith) (by linarith)
    simp [a1, a2]
  · intro s u w h0 h1 h2 h3 _ _
    left
    have a1 := h s h0 (by linarith)
    have a2 := h u (by linarith) (by linarith)
    simp [not_le.2 a1, not_le.2 a2]

/-- **C117.** `find_discrete(t0, t1, dark_twilight_day(ephemeris, topos))`, with its default settings: it stops, and what it returns are the changes of light.  For the Sun's
passing of each of the four altitudes the same is asked as for sunrise, or that it does not happen.  At each event the light is of the reported kind, and was not, at some moment within the
millisecond before; at every moment of the span the light is of the kind that the latest event says, but for 1.04 ms before events and 0.04 ms after. -/
theorem C117_twilight {ts : Timescale ℝ} (hts : ts.IsBuiltin) (p : GeoPosition) {apparent : ℝ → Vec3} {lo hi μ c long : ℝ}
    (hlo : InDailyTable lo) (hhi : InDailyTable hi) (hm : MovesSlowly ts apparent lo hi μ c) {degrees : ℝ → ℝ} (hdeg : IsAltitude ts p apparent lo hi degrees)
    (hpass : ∀ threshold ∈ [(-18 : ℝ), -12, -6, -0.8333], PassesOrNot ts p apparent degrees lo hi μ c long threshold)
    (hspan : lo + 0.001 / 86400 ≤ hi) (hlong : 0.04 + 4e-10 ≤ long) :
    ∃ rounds events, findDiscrete lo hi (darkTwilightDay degrees) (0.001 / 86400) 12 rounds = .ok (some events) ∧
      (∀ e ∈ events, lo < e.1 ∧ e.1 ≤ hi ∧ KindOfLight (degrees e.1) e.2 ∧ ∃ s, lo ≤ s ∧ s < e.1 ∧ e.1 - s ≤ 0.001 / 86400 ∧ ¬ KindOfLight (degrees s) e.2) ∧
      (∀ S : ℝ → ℕ, (∀ t, KindOfLight (degrees t) (S t)) → Tells (0.00104 / 86400) (0.00004 / 86400) lo hi S events) ∧
      ∀ x ∈ events.zip events.tail, x.1.2 ≠ x.2.2 ∧ x.1.1 < x.2.1 := by
  classical
  have hkind : ∀ d n, darkTwilightDayAt d = n ↔ KindOfLight d n := by
    intro d n
    obtain ⟨k0, k1, k2, k3, k4, k5⟩ := C47_twilight d
    unfold KindOfLight
    constructor
    · intro h
      rw [h] at k0 k1 k2 k3 k4 k5
      interval_cases n
      · exact Or.inl ⟨rfl, k0.1 rfl⟩
      · exact Or.inr (Or.inl ⟨rfl, k1.1 rfl⟩)
      · exact Or.inr (Or.inr (Or.inl ⟨rfl, k2.1 rfl⟩))
      · exact Or.inr (Or.inr (Or.inr (Or.inl ⟨rfl, k3.1 rfl⟩)))
      · exact Or.inr (Or.inr (Or.inr (Or.inr ⟨rfl, k4.1 rfl⟩)))
    · rintro (⟨rfl, h⟩ | ⟨rfl, h⟩ | ⟨rfl, h⟩ | ⟨rfl, h⟩ | ⟨rfl, h⟩)
      · exact k0.2 h
      · exact k1.2 h
      · exact k2.2 h
      · exact k3.2 h
      · exact k4.2 h
  -- equal kinds pass the same altitudes
  have same : ∀ d d', darkTwilightDayAt d = darkTwilightDayAt d' ↔ ∀ θ ∈ [(-18 : ℝ), -12, -6, -0.8333], (θ ≤ d ↔ θ ≤ d') := by
    intro d d'
    constructor
    · intro h
      have k := (hkind d _).1 h
      have k' := (hkind d' _).1 rfl
      generalize darkTwilightDayAt d' = n at k k'
      unfold KindOfLight at k k'
      intro θ hθ
      simp only [List.mem_cons, List.not_mem_nil, or_false] at hθ
      rcases k with ⟨e, k⟩ | ⟨e, k⟩ | ⟨e, k⟩ | ⟨e, k⟩ | ⟨e, k⟩ <;> rcases k' with ⟨e', k'⟩ | ⟨e', k'⟩ | ⟨e', k'⟩ | ⟨e', k'⟩ | ⟨e', k'⟩ <;>
        first
        | (exfalso; omega)
        | (rcases hθ with rfl | rfl | rfl | rfl <;> constructor <;> intro _ <;> linarith)
    · intro h
      unfold darkTwilightDayAt
      have h1 := h (-18) (by simp)
      have h2 := h (-12) (by simp)
      have h3 := h (-6) (by simp)
      have h4 := h (-0.8333) (by simp)
      simp only [ge_iff_le, h1, h2, h3, h4]
  have hS : Settles long 1e-10 lo hi (darkTwilightDay degrees).call := by
    intro s u w h0 h1 h2 h3 h4 h5
    have h5' := (same _ _).1 h5
    by_contra hcon
    push Not at hcon
    obtain ⟨hne, hs, hw⟩ := hcon
    refine hne ((same _ _).2 fun θ hθ => ?_)
    have hθ90 : |θ| ≤ 90 := by
      simp only [List.mem_cons, List.not_mem_nil, or_false] at hθ
      rcases hθ with rfl | rfl | rfl | rfl <;> norm_num
    have key := level_settles hts p hlo hhi hm hθ90 hdeg (hpass θ hθ) s u w h0 h1 h2 h3 h4 (by simp only [h5' θ hθ])
    rcases key with k | k | k
    · simpa using k
    · linarith
    · linarith
  obtain ⟨samples, hsm, -⟩ := C16_sample_spacing lo hi (darkTwilightDay degrees) 12 0.04 (by linarith) rfl (by norm_num)
  obtain ⟨⟨rounds, hr⟩, hall⟩ := C17_terminates lo hi (darkTwilightDay degrees) (0.001 / 86400) 12 (by norm_num) (by norm_num)
    (by intro s' hs'; have : (0.04 : ℝ) = s' := Option.some.inj hs'; rw [← this]; norm_num) samples hsm
  obtain ⟨events, hev⟩ := hall rounds hr
  obtain ⟨c1, c2, c3⟩ := C117_search_values hS (by norm_num) (step := 0.04) rfl (by norm_num) (by norm_num) hspan (by norm_num) (by norm_num) (by linarith) hev
  refine ⟨rounds + 1, events, hev, ?_, ?_, fun x hx => ⟨(c3 x hx).1, (c3 x hx).2.1⟩⟩
  · intro e he
    obtain ⟨a1, a2, a3, s, b1, b2, b3, b4⟩ := c1 e he
    norm_num at b2
    exact ⟨a1, a2, (hkind _ _).1 a3, s, b1, by linarith, b3, fun h => b4 ((hkind _ _).2 h)⟩
  · intro S hSS
    have : S = (darkTwilightDay degrees).call := by
      funext t
      exact ((hkind _ _).2 (hSS t)).symm
    rw [this]
    intro u h0 h1 hu
    refine c2 u (by linarith) (by linarith) fun x hx => ?_
    rcases hu x hx with h | h
    · left; linarith
    · right; linarith

private theorem half_root : (0.7 : ℝ) ≤ cos (π / 4) := by
  rw [cos_pi_div_four]
  have : (1.4 : ℝ) ≤ √2 := Real.le_sqrt_of_sq_le (by norm_num)
  linarith

private theorem root_three : (0.8 : ℝ) ≤ sin (π / 3) := by
  rw [sin_pi_div_three]
  have : (1.6 : ℝ) ≤ √3 := Real.le_sqrt_of_sq_le (by norm_num)
  linarith

/-- What bounds `1 / (cos latitude * c) + 1 / c ^ 2`. -/
private theorem steepness {x c K : ℝ} (hx : 0.7 ≤ x) (hc : 0 < c) (hK : 1 / (0.7 * c) + 1 / c ^ 2 ≤ K) : 1 / (x * c) + 1 / c ^ 2 ≤ K := by
  refine le_trans ?_ hK
  gcongr

/-- Speeds, arcs and spells for the Sun at latitude 45°: at most 0.02 radians a day, declinations within 25°, arcs from 60° to 120°, and days and nights
of more than seven hours. -/
theorem sun_gentle : Gentle (π / 4) 0.02 0.9 (π / 3) 0.04 0.13 0.3 := by
  have h1 := half_root
  have h2 := root_three
  have h3 := pi_gt_d4
  have hK : 1 / (cos (π / 4) * 0.9) + 1 / 0.9 ^ 2 ≤ (2.83 : ℝ) := steepness h1 (by norm_num) (by norm_num)
  refine ⟨by norm_num, by norm_num, by linarith, by linarith, by linarith, by norm_num, ?_, by linarith, by norm_num, by linarith⟩
  refine (mul_le_mul_of_nonneg_right (mul_le_mul_of_nonneg_left hK (by norm_num)) (by norm_num)).trans ?_
  linarith

/-- The same with arcs from 45° to 135°, for twilight. -/
theorem sun_gentle_twilight : Gentle (π / 4) 0.02 0.9 (π / 4) 0.04 0.14 0.2 := by
  have h1 := half_root
  have h2 : (0.7 : ℝ) ≤ sin (π / 4) := by rw [sin_pi_div_four, ← cos_pi_div_four]; exact h1
  have h3 := pi_gt_d4
  have hK : 1 / (cos (π / 4) * 0.9) + 1 / 0.9 ^ 2 ≤ (2.83 : ℝ) := steepness h1 (by norm_num) (by norm_num)
  refine ⟨by norm_num, by norm_num, by linarith, by linarith, by linarith, by norm_num, ?_, by linarith, by norm_num, by linarith⟩
  refine (mul_le_mul_of_nonneg_right (mul_le_mul_of_nonneg_left hK (by norm_num)) (by norm_num)).trans ?_
  linarith

/-- And for the Moon: 0.36 radians a day, declinations within 29.5°, and arcs from 54.5°. -/
example : Gentle (π / 4) 0.36 0.87 0.95 0.67 2.4 0.26 := by
  have h1 := half_root
  have h2 : (0.73 : ℝ) ≤ sin 0.95 := by
    have := sin_gt_sub_cube (x := 0.95) (by norm_num)
    norm_num at this ⊢
    linarith
  have h3 := pi_gt_d4
  have hK : 1 / (cos (π / 4) * 0.87) + 1 / 0.87 ^ 2 ≤ (2.98 : ℝ) := steepness h1 (by norm_num) (by norm_num)
  refine ⟨by norm_num, by norm_num, by linarith, by norm_num, by linarith, by norm_num, ?_, by linarith, by norm_num, by linarith⟩
  refine (mul_le_mul_of_nonneg_right (mul_le_mul_of_nonneg_left hK (by norm_num)) (by norm_num)).trans ?_
  linarith

/-- A star at the equinox, seen for ten days from a place at latitude 45°: its risings and settings by the two routines. -/
example : ∃ (ts : Timescale ℝ) (p : GeoPosition) (apparent : ℝ → Vec3) (degrees : ℝ → ℝ), ts.IsBuiltin ∧ p = wgs84Au.place 45 10 500 ∧
    InDailyTable 2451545 ∧ InDailyTable 2451555 ∧ MovesSlowly ts apparent 2451545 2451555 0.02 0.9 ∧ Gentle p.latitude 0.02 0.9 (π / 3) 0.04 0.13 0.3 ∧
    RisesAndSets ts p apparent 2451545 2451555 (-0.8333) (π / 3) ∧ RisesAndSets ts p apparent 2451545 2451555 (-34 / 60 - 0) (π / 3) ∧
    IsAltitude ts p apparent 2451545 2451555 degrees ∧
    ∀ threshold ∈ [(-18 : ℝ), -12, -6, -0.8333], PassesOrNot ts p apparent degrees 2451545 2451555 0.02 0.9 0.2 threshold := by
  obtain ⟨ts, hts, -⟩ := builtin_exists none
  obtain ⟨v, hv, hsmall⟩ := equinox_star hts
  have i0 : InDailyTable 2451545 := by unfold InDailyTable; norm_num
  have i1 : InDailyTable 2451555 := by unfold InDailyTable; norm_num
  have hlat : (wgs84Au.place 45 10 500).latitude = π / 4 := by
    show (45 : ℝ) / 360 * tau = π / 4
    unfold tau; ring
  have cross : ∀ threshold η b : ℝ, |sin (threshold / 360 * (2 * π))| ≤ b → b + 0.01 ≤ cos η * 0.63 → 0 ≤ cos η →
      RisesAndSets ts (wgs84Au.place 45 10 500) (fun _ => v) 2451545 2451555 threshold η := by
    intro threshold η b h4 hb hη jd s h0 h1 hs
    have hz := hsmall jd s h0 h1 hs
    have hc := hv.dec jd s h0 h1 hs
    rw [hlat]
    have h2 := half_root
    have h3 : 0.7 * 0.9 ≤ cos (π / 4) * cos (decOfDate s v) := mul_le_mul h2 hc (by norm_num) (by linarith)
    have h3' : cos η * 0.63 ≤ cos η * (cos (π / 4) * cos (decOfDate s v)) := mul_le_mul_of_nonneg_left (by linarith) hη
    have h5 : |sin (π / 4) * sin (decOfDate s v)| ≤ 0.01 := by
      rw [abs_mul]
      calc _ ≤ 1 * 0.01 := mul_le_mul (abs_sin_le_one _) hz (abs_nonneg _) (by norm_num)
        _ = _ := one_mul _
    rw [abs_le] at h4 h5 ⊢
    constructor <;> linarith [h4.1, h4.2, h5.1, h5.2]
  have low : ∀ threshold b : ℝ, |threshold| ≤ b → |sin (threshold / 360 * (2 * π))| ≤ b * 0.01746 := by
    intro threshold b hb
    refine abs_sin_le_abs.trans ?_
    rw [abs_mul, abs_div, abs_of_pos (by linarith [pi_pos] : 0 < 2 * π), abs_of_pos (by norm_num : (0 : ℝ) < 360)]
    have := pi_lt_d4
    have := pi_pos
    nlinarith [abs_nonneg threshold]
  have c3 : cos (π / 3) = 1 / 2 := cos_pi_div_three
  have c4 := half_root
  refine ⟨ts, wgs84Au.place 45 10 500, fun _ => v, fun jd => ((ts.ttJd jd none).sky .iau2000b).elim 0 fun s =>
    (toSpherical ((horizonRotation (wgs84Au.place 45 10 500).latitude (wgs84Au.place 45 10 500).longitude s).mulVec v)).2.1 * 360 / tau, hts, rfl, i0, i1,
    ⟨hv.somewhere, fun a b h0 h1 h2 => (hv.speed a b h0 h1 h2).trans (by linarith), hv.dec⟩, by rw [hlat]; exact sun_gentle,
    cross _ _ _ (low _ 1 (by norm_num)) (by rw [c3]; norm_num) (by rw [c3]; norm_num),
    cross _ _ _ (low _ 1 (by norm_num)) (by rw [c3]; norm_num) (by rw [c3]; norm_num), ?_, ?_⟩
  · intro jd s' h0 h1 hs'
    refine ⟨(toSpherical ((horizonRotation (wgs84Au.place 45 10 500).latitude (wgs84Au.place 45 10 500).longitude s').mulVec v)).2.2,
      (toSpherical ((horizonRotation (wgs84Au.place 45 10 500).latitude (wgs84Au.place 45 10 500).longitude s').mulVec v)).1, ?_⟩
    simp only [hs', Option.elim_some]
    rfl
  · intro θ hθ
    refine Or.inl ⟨π / 4, 0.04, 0.14, by rw [hlat]; exact sun_gentle_twilight, cross _ _ (18 * 0.01746) (low _ 18 ?_) (by linarith) (by linarith)⟩
    simp only [List.mem_cons, List.not_mem_nil, or_false] at hθ
    rcases hθ with rfl | rfl | rfl | rfl <;> norm_num

end Skyfield
