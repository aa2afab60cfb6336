import Verif.Model.SkyCoordinates
import Verif.Spec.FixedFrames
import Verif.Lemmas.TrigNumerics
import Verif.Props.Rotations

/-
C89: the fixed frames are those that astronomy defines.
-/
namespace Skyfield
open Spec Real

theorem within_mul {ε δ : ℝ} {a a' b b' : Mat3} (ha : EntriesWithin ε a a') (hb : EntriesWithin δ b b') (hε : 0 ≤ ε) (hδ : 0 ≤ δ)
    (ba : EntriesWithin 1 a' ⟨0, 0, 0⟩) (bb : EntriesWithin 1 b' ⟨0, 0, 0⟩) (h1 : ε ≤ 1) :
    EntriesWithin (3 * (ε + 2 * δ)) (a.mul b) (a'.mul b') := by
  have key : ∀ x x' y y' : ℝ, |x - x'| ≤ ε → |y - y'| ≤ δ → |x' - 0| ≤ 1 → |y' - 0| ≤ 1 → |x * y - x' * y'| ≤ ε + 2 * δ := by
    intro x x' y y' hx hy hx' hy'
    rw [sub_zero] at hx' hy'
    have hx2 : |x| ≤ 2 := by
      have := abs_add_le (x - x') x'
      rw [sub_add_cancel] at this
      linarith
    have e : x * y - x' * y' = x * (y - y') + (x - x') * y' := by ring
    rw [e]
    refine (abs_add_le _ _).trans ?_
    rw [abs_mul, abs_mul]
    have p1 : |x| * |y - y'| ≤ 2 * δ := mul_le_mul hx2 hy (abs_nonneg _) (by norm_num)
    have p2 : |x - x'| * |y'| ≤ ε * 1 := mul_le_mul hx hy' (abs_nonneg _) hε
    linarith
  have key3 : ∀ x x' y y' z z' p p' q q' r r' : ℝ, |x - x'| ≤ ε → |y - y'| ≤ ε → |z - z'| ≤ ε → |p - p'| ≤ δ → |q - q'| ≤ δ →
      |r - r'| ≤ δ → |x' - 0| ≤ 1 → |y' - 0| ≤ 1 → |z' - 0| ≤ 1 → |p' - 0| ≤ 1 → |q' - 0| ≤ 1 → |r' - 0| ≤ 1 →
      |x * p + y * q + z * r - (x' * p' + y' * q' + z' * r')| ≤ 3 * (ε + 2 * δ) := by
    intro x x' y y' z z' p p' q q' r r' hx hy hz hp hq hr hx' hy' hz' hp' hq' hr'
    have e : x * p + y * q + z * r - (x' * p' + y' * q' + z' * r') = (x * p - x' * p') + (y * q - y' * q') + (z * r - z' * r') := by
      ring
    rw [e]
    have := abs_add_three (x * p - x' * p') (y * q - y' * q') (z * r - z' * r')
    linarith [key _ _ _ _ hx hp hx' hp', key _ _ _ _ hy hq hy' hq', key _ _ _ _ hz hr hz' hr']
  obtain ⟨⟨a1, a2, a3⟩, ⟨a4, a5, a6⟩, ⟨a7, a8, a9⟩⟩ := ha
  obtain ⟨⟨b1, b2, b3⟩, ⟨b4, b5, b6⟩, ⟨b7, b8, b9⟩⟩ := hb
  obtain ⟨⟨c1, c2, c3⟩, ⟨c4, c5, c6⟩, ⟨c7, c8, c9⟩⟩ := ba
  obtain ⟨⟨d1, d2, d3⟩, ⟨d4, d5, d6⟩, ⟨d7, d8, d9⟩⟩ := bb
  simp only [Vec3.zero_x, Vec3.zero_y, Vec3.zero_z] at *
  refine ⟨⟨?_, ?_, ?_⟩, ⟨?_, ?_, ?_⟩, ⟨?_, ?_, ?_⟩⟩ <;> simp only [Mat3.mul, Mat3.transpose, Vec3.dot] <;>
    apply key3 <;> assumption

theorem within_trans {ε δ : ℝ} {a b c : Mat3} (h : EntriesWithin ε a b) (h' : EntriesWithin δ b c) : EntriesWithin (ε + δ) a c := by
  obtain ⟨⟨a1, a2, a3⟩, ⟨a4, a5, a6⟩, ⟨a7, a8, a9⟩⟩ := h
  obtain ⟨⟨b1, b2, b3⟩, ⟨b4, b5, b6⟩, ⟨b7, b8, b9⟩⟩ := h'
  refine ⟨⟨?_, ?_, ?_⟩, ⟨?_, ?_, ?_⟩, ⟨?_, ?_, ?_⟩⟩ <;>
    exact (abs_sub_le _ _ _).trans (add_le_add (by assumption) (by assumption))

theorem within_symm {ε : ℝ} {a b : Mat3} (h : EntriesWithin ε a b) : EntriesWithin ε b a := by
  obtain ⟨⟨a1, a2, a3⟩, ⟨a4, a5, a6⟩, ⟨a7, a8, a9⟩⟩ := h
  refine ⟨⟨?_, ?_, ?_⟩, ⟨?_, ?_, ?_⟩, ⟨?_, ?_, ?_⟩⟩ <;> rw [abs_sub_comm] <;> assumption

theorem within_le {ε δ : ℝ} {a b : Mat3} (h : EntriesWithin ε a b) (hle : ε ≤ δ) : EntriesWithin δ a b := by
  obtain ⟨⟨a1, a2, a3⟩, ⟨a4, a5, a6⟩, ⟨a7, a8, a9⟩⟩ := h
  refine ⟨⟨?_, ?_, ?_⟩, ⟨?_, ?_, ?_⟩, ⟨?_, ?_, ?_⟩⟩ <;> refine le_trans ?_ hle <;> assumption

/-- An angle that is a rational multiple of π, given to 17 digits, with its cosine and sine. -/
theorem angle_near (k y c s : ℝ) (hk : |k| ≤ 1) (hy : |y| ≤ 1) (hky : |k * 3.14159265358979323846 - y| ≤ 1e-17)
    (hc : |cosPoly y - c| ≤ 1e-15) (hs : |sinPoly y - s| ≤ 1e-15) :
    |cos (k * π) - c| ≤ 2e-13 ∧ |sin (k * π) - s| ≤ 2e-13 := by
  refine trig_near (δ := 2e-17) hy ?_ hc hs (by norm_num)
  have h1 := pi_gt_d20
  have h2 := pi_lt_d20
  have h3 : |k * π - k * 3.14159265358979323846| ≤ 1e-20 := by
    rw [← mul_sub, abs_mul]
    have : |π - 3.14159265358979323846| ≤ 1e-20 := by rw [abs_le]; constructor <;> linarith
    calc |k| * |π - 3.14159265358979323846| ≤ 1 * 1e-20 := mul_le_mul hk this (abs_nonneg _) (by norm_num)
      _ = 1e-20 := by ring
  calc |k * π - y| = |(k * π - k * 3.14159265358979323846) + (k * 3.14159265358979323846 - y)| := by congr 1; ring
    _ ≤ 1e-20 + 1e-17 := (abs_add_le _ _).trans (add_le_add h3 hky)
    _ ≤ 2e-17 := by norm_num

theorem near_ob : |cos (arcseconds 84381.448) - 0.917482062069181826| ≤ 2e-13 ∧ |sin (arcseconds 84381.448) - 0.397777155931913702| ≤ 2e-13 := by
  have := angle_near (84381.448 / 648000) 0.409092804222328937 0.917482062069181826 0.397777155931913702
    (by norm_num [abs_le]) (by norm_num [abs_le]) (by norm_num [abs_le]) (by norm_num [cosPoly, abs_le]) (by norm_num [sinPoly, abs_le])
  rwa [show (84381.448 : ℝ) / 648000 * π = arcseconds 84381.448 by unfold arcseconds; ring] at this

theorem near_z : |cos (arcseconds 1152.84248596724) - 0.999984380808345292| ≤ 2e-13 ∧ |sin (arcseconds 1152.84248596724) - 0.005589108994309139| ≤ 2e-13 := by
  have := angle_near (1152.84248596724 / 648000) 0.005589138093612462 0.999984380808345292 0.005589108994309139
    (by norm_num [abs_le]) (by norm_num [abs_le]) (by norm_num [abs_le]) (by norm_num [cosPoly, abs_le]) (by norm_num [sinPoly, abs_le])
  rwa [show (1152.84248596724 : ℝ) / 648000 * π = arcseconds 1152.84248596724 by unfold arcseconds; ring] at this

theorem near_theta : |cos (arcseconds 1002.26108439117) - 0.999988194602374180| ≤ 2e-13 ∧ |sin (arcseconds 1002.26108439117) - 0.004859079736352097| ≤ 2e-13 := by
  have := angle_near (1002.26108439117 / 648000) 0.004859098857565184 0.999988194602374180 0.004859079736352097
    (by norm_num [abs_le]) (by norm_num [abs_le]) (by norm_num [abs_le]) (by norm_num [cosPoly, abs_le]) (by norm_num [sinPoly, abs_le])
  rwa [show (1002.26108439117 : ℝ) / 648000 * π = arcseconds 1002.26108439117 by unfold arcseconds; ring] at this

theorem near_zeta : |cos (arcseconds 1153.04066200330) - 0.999984375437954257| ≤ 2e-13 ∧ |sin (arcseconds 1153.04066200330) - 0.005590069763835380| ≤ 2e-13 := by
  have := angle_near (1153.04066200330 / 648000) 0.005590098878147962 0.999984375437954257 0.005590069763835380
    (by norm_num [abs_le]) (by norm_num [abs_le]) (by norm_num [abs_le]) (by norm_num [cosPoly, abs_le]) (by norm_num [sinPoly, abs_le])
  rwa [show (1153.04066200330 : ℝ) / 648000 * π = arcseconds 1153.04066200330 by unfold arcseconds; ring] at this

theorem near_eta : |cos (arcseconds 0.0068192) - 0.999999999999999454| ≤ 2e-13 ∧ |sin (arcseconds 0.0068192) - 3.3060414542e-8| ≤ 2e-13 := by
  have := angle_near (0.0068192 / 648000) 3.3060414542e-8 0.999999999999999454 3.3060414542e-8
    (by norm_num [abs_le]) (by norm_num [abs_le]) (by norm_num [abs_le]) (by norm_num [cosPoly, abs_le]) (by norm_num [sinPoly, abs_le])
  rwa [show (0.0068192 : ℝ) / 648000 * π = arcseconds 0.0068192 by unfold arcseconds; ring] at this

theorem near_xi : |cos (arcseconds 0.0166170) - 0.999999999999996755| ≤ 2e-13 ∧ |sin (arcseconds 0.0166170) - 8.0561489390e-8| ≤ 2e-13 := by
  have := angle_near (0.0166170 / 648000) 8.0561489390e-8 0.999999999999996755 8.0561489390e-8
    (by norm_num [abs_le]) (by norm_num [abs_le]) (by norm_num [abs_le]) (by norm_num [cosPoly, abs_le]) (by norm_num [sinPoly, abs_le])
  rwa [show (0.0166170 : ℝ) / 648000 * π = arcseconds 0.0166170 by unfold arcseconds; ring] at this

theorem near_da : |cos (arcseconds 0.01460) - 0.999999999999997495| ≤ 2e-13 ∧ |sin (arcseconds 0.01460) - 7.0782797442e-8| ≤ 2e-13 := by
  have := angle_near (0.01460 / 648000) 7.0782797442e-8 0.999999999999997495 7.0782797442e-8
    (by norm_num [abs_le]) (by norm_num [abs_le]) (by norm_num [abs_le]) (by norm_num [cosPoly, abs_le]) (by norm_num [sinPoly, abs_le])
  rwa [show (0.01460 : ℝ) / 648000 * π = arcseconds 0.01460 by unfold arcseconds; ring] at this

theorem near_node : |cos (degreesOf 33) - 0.838670567945424030| ≤ 2e-13 ∧ |sin (degreesOf 33) - 0.544639035015027082| ≤ 2e-13 := by
  have := angle_near (33 / 180) 0.575958653158128760 0.838670567945424030 0.544639035015027082
    (by norm_num [abs_le]) (by norm_num [abs_le]) (by norm_num [abs_le]) (by norm_num [cosPoly, abs_le]) (by norm_num [sinPoly, abs_le])
  rwa [show (33 / 180 : ℝ) * π = degreesOf 33 by simp only [degreesOf, arcseconds]; ring] at this

theorem near_pole : |cos (degreesOf 27.4) - 0.887815385136401332| ≤ 2e-13 ∧ |sin (degreesOf 27.4) - 0.460199784783851646| ≤ 2e-13 := by
  have := angle_near (27.4 / 180) 0.478220215046446304 0.887815385136401332 0.460199784783851646
    (by norm_num [abs_le]) (by norm_num [abs_le]) (by norm_num [abs_le]) (by norm_num [cosPoly, abs_le]) (by norm_num [sinPoly, abs_le])
  rwa [show (27.4 / 180 : ℝ) * π = degreesOf 27.4 by simp only [degreesOf, arcseconds]; ring] at this

theorem near_equinox : |cos (degreesOf 12.25 + arcseconds 0.525) - 0.977230566409662410| ≤ 2e-13 ∧ |sin (degreesOf 12.25 + arcseconds 0.525) - 0.212180159474561583| ≤ 2e-13 := by
  have := angle_near (12.25 / 180 + 0.525 / 648000) 0.213805378641131198 0.977230566409662410 0.212180159474561583
    (by norm_num [abs_le]) (by norm_num [abs_le]) (by norm_num [abs_le]) (by norm_num [cosPoly, abs_le]) (by norm_num [sinPoly, abs_le])
  rwa [show (12.25 / 180 + 0.525 / 648000 : ℝ) * π = degreesOf 12.25 + arcseconds 0.525 by simp only [degreesOf, arcseconds]; ring] at this

theorem arcseconds_neg (x : ℝ) : arcseconds (-x) = -arcseconds x := by unfold arcseconds; ring

theorem abs_neg_sub_neg (a b : ℝ) : |-a - -b| = |a - b| := by rw [← abs_neg]; congr 1; ring

/-- **C89.** `ecliptic_J2000_frame` is the frame of the ecliptic and equinox of J2000, with the obliquity of 1976. -/
theorem C89_ecliptic : EntriesWithin 1e-12 eclipJ2000Matrix eclipticOfJ2000 := by
  obtain ⟨hc, hs⟩ := near_ob
  rw [abs_le] at hc hs
  refine ⟨⟨?_, ?_, ?_⟩, ⟨?_, ?_, ?_⟩, ⟨?_, ?_, ?_⟩⟩ <;> simp only [eclipJ2000Matrix, eclipticOfJ2000, turnedX] <;> rw [abs_le] <;>
    constructor <;> linarith [hc.1, hc.2, hs.1, hs.2]

theorem neg_near {θ c s ε : ℝ} (h : |cos θ - c| ≤ ε ∧ |sin θ - s| ≤ ε) : |cos (-θ) - c| ≤ ε ∧ |sin (-θ) - -s| ≤ ε := by
  rw [cos_neg, sin_neg, abs_neg_sub_neg]
  exact h

theorem turnedX_near {θ c s ε : ℝ} (h : |cos θ - c| ≤ ε ∧ |sin θ - s| ≤ ε) :
    EntriesWithin ε (turnedX θ) ⟨⟨1, 0, 0⟩, ⟨0, c, s⟩, ⟨0, -s, c⟩⟩ := by
  have h0 : 0 ≤ ε := (abs_nonneg _).trans h.1
  simp only [EntriesWithin, turnedX, abs_neg_sub_neg, sub_self, abs_zero]
  exact ⟨⟨h0, h0, h0⟩, ⟨h0, h.1, h.2⟩, ⟨h0, h.2, h.1⟩⟩

theorem turnedY_near {θ c s ε : ℝ} (h : |cos θ - c| ≤ ε ∧ |sin θ - s| ≤ ε) :
    EntriesWithin ε (turnedY θ) ⟨⟨c, 0, -s⟩, ⟨0, 1, 0⟩, ⟨s, 0, c⟩⟩ := by
  have h0 : 0 ≤ ε := (abs_nonneg _).trans h.1
  simp only [EntriesWithin, turnedY, abs_neg_sub_neg, sub_self, abs_zero]
  exact ⟨⟨h.1, h0, h.2⟩, ⟨h0, h0, h0⟩, ⟨h.2, h0, h.1⟩⟩

theorem turnedZ_near {θ c s ε : ℝ} (h : |cos θ - c| ≤ ε ∧ |sin θ - s| ≤ ε) :
    EntriesWithin ε (turnedZ θ) ⟨⟨c, s, 0⟩, ⟨-s, c, 0⟩, ⟨0, 0, 1⟩⟩ := by
  have h0 : 0 ≤ ε := (abs_nonneg _).trans h.1
  simp only [EntriesWithin, turnedZ, abs_neg_sub_neg, sub_self, abs_zero]
  exact ⟨⟨h.1, h.2, h0⟩, ⟨h.2, h.1, h0⟩, ⟨h0, h0, h0⟩⟩

/-- **C89.** `equatorial_B1950_frame` is the frame of the mean equator and equinox of B1950. -/
theorem C89_b1950 : EntriesWithin 2e-11 b1950Matrix equatorOfB1950 := by
  have A := turnedZ_near near_z
  have B := turnedY_near (neg_near near_theta)
  have C := turnedZ_near near_zeta
  rw [← arcseconds_neg] at B
  have BC : EntriesWithin (3 * (2e-13 + 2 * 2e-13)) _ _ := within_mul B C (by norm_num) (by norm_num)
    (by norm_num [EntriesWithin, abs_le]) (by norm_num [EntriesWithin, abs_le]) (by norm_num)
  have ABC := within_mul A BC (by norm_num) (by norm_num) (by norm_num [EntriesWithin, abs_le])
    (by norm_num [EntriesWithin, abs_le, Mat3.mul, Mat3.transpose, Vec3.dot]) (by norm_num)
  refine within_le (within_trans (δ := 3 * (2e-13 + 2 * (3 * (2e-13 + 2 * 2e-13)))) (ε := 1e-15) ?_ (within_symm ABC)) (by norm_num)
  norm_num [EntriesWithin, abs_le, Mat3.mul, Mat3.transpose, Vec3.dot, b1950Matrix]

/-- **C89.** The matrix from the ICRF to J2000 is the turn by the three published bias angles. -/
theorem C89_bias : EntriesWithin 2e-11 icrsToJ2000 frameBias := by
  have A := turnedX_near near_eta
  have B := turnedY_near (neg_near near_xi)
  have C := turnedZ_near (neg_near near_da)
  rw [← arcseconds_neg] at B C
  have BC : EntriesWithin (3 * (2e-13 + 2 * 2e-13)) _ _ := within_mul B C (by norm_num) (by norm_num)
    (by norm_num [EntriesWithin, abs_le]) (by norm_num [EntriesWithin, abs_le]) (by norm_num)
  have ABC := within_mul A BC (by norm_num) (by norm_num) (by norm_num [EntriesWithin, abs_le])
    (by norm_num [EntriesWithin, abs_le, Mat3.mul, Mat3.transpose, Vec3.dot]) (by norm_num)
  refine within_le (within_trans (δ := 3 * (2e-13 + 2 * (3 * (2e-13 + 2 * 2e-13)))) (ε := 1e-14) ?_ (within_symm ABC)) (by norm_num)
  norm_num [EntriesWithin, abs_le, Mat3.mul, Mat3.transpose, Vec3.dot, icrsToJ2000, asec2rad]

/-- The turns from the equator of B1950 to the galactic system. -/
private noncomputable def galacticTurns : Mat3 :=
  (turnedZ (-degreesOf 33)).mul ((turnedX (π / 2 - galacticPoleDec)).mul (turnedZ (π / 2 + galacticPoleRa)))

private theorem turns_pole : galacticTurns.mulVec (skyPoint galacticPoleRa galacticPoleDec) = ⟨0, 0, 1⟩ := by
  have h1 := sin_sq_add_cos_sq galacticPoleRa
  have h2 := sin_sq_add_cos_sq galacticPoleDec
  ext <;> simp [galacticTurns, turnedZ, turnedX, Mat3.mul, Mat3.transpose, Mat3.mulVec, Vec3.dot, skyPoint, cos_pi_div_two_sub,
    sin_pi_div_two_sub, add_comm (π / 2), cos_add_pi_div_two, sin_add_pi_div_two]
  · linear_combination (-sin (degreesOf 33) * sin galacticPoleDec * cos galacticPoleDec * (-1)) * h1
  · linear_combination (cos (degreesOf 33) * sin galacticPoleDec * cos galacticPoleDec * (-1)) * h1
  · linear_combination (cos galacticPoleDec ^ 2) * h1 + h2

private theorem turns_zero : galacticTurns.mulVec (quarterCircleFrom galacticPoleRa galacticPoleDec galacticZero) = ⟨1, 0, 0⟩ := by
  have h1 := sin_sq_add_cos_sq galacticPoleRa
  have h2 := sin_sq_add_cos_sq galacticPoleDec
  have h3 := sin_sq_add_cos_sq (degreesOf 33)
  have e : galacticZero = degreesOf 33 + π / 2 := by unfold galacticZero degreesOf; ring
  ext <;> simp [e, galacticTurns, turnedZ, turnedX, Mat3.mul, Mat3.transpose, Mat3.mulVec, Vec3.dot, quarterCircleFrom, cos_pi_div_two_sub,
    sin_pi_div_two_sub, add_comm (π / 2), cos_add_pi_div_two, sin_add_pi_div_two]
  · linear_combination (sin (degreesOf 33) ^ 2 * sin galacticPoleDec ^ 2 + cos (degreesOf 33) ^ 2) * h1 + sin (degreesOf 33) ^ 2 * h2 + h3
  · linear_combination (cos (degreesOf 33) * sin (degreesOf 33) - cos (degreesOf 33) * sin (degreesOf 33) * sin galacticPoleDec ^ 2) * h1
      - cos (degreesOf 33) * sin (degreesOf 33) * h2
  · linear_combination (sin (degreesOf 33) * sin galacticPoleDec * cos galacticPoleDec) * h1

private theorem turns_near : EntriesWithin 2e-11 galacticTurns
    ⟨⟨-0.066986518014272091, -0.872755936353716727, -0.483538914632184240⟩,
     ⟨0.492729612329151631, -0.450345703890620095, 0.744584633283031077⟩,
     ⟨-0.867600331684058052, -0.188376810002210946, 0.460199784783851646⟩⟩ := by
  have hx : |cos (π / 2 - galacticPoleDec) - 0.460199784783851646| ≤ 2e-13 ∧
      |sin (π / 2 - galacticPoleDec) - 0.887815385136401332| ≤ 2e-13 := by
    rw [cos_pi_div_two_sub, sin_pi_div_two_sub]
    exact ⟨near_pole.2, near_pole.1⟩
  have hz : |cos (π / 2 + galacticPoleRa) - 0.212180159474561583| ≤ 2e-13 ∧
      |sin (π / 2 + galacticPoleRa) - -0.977230566409662410| ≤ 2e-13 := by
    have e : π / 2 + galacticPoleRa = (degreesOf 12.25 + arcseconds 0.525) + π / 2 + π := by
      unfold galacticPoleRa degreesOf; ring
    rw [e, cos_add_pi, sin_add_pi, cos_add_pi_div_two, sin_add_pi_div_two, neg_neg, abs_neg_sub_neg]
    exact ⟨near_equinox.2, near_equinox.1⟩
  have A := turnedZ_near (neg_near near_node)
  have B := turnedX_near hx
  have C := turnedZ_near hz
  have BC : EntriesWithin (3 * (2e-13 + 2 * 2e-13)) _ _ := within_mul B C (by norm_num) (by norm_num)
    (by norm_num [EntriesWithin, abs_le]) (by norm_num [EntriesWithin, abs_le]) (by norm_num)
  have ABC := within_mul A BC (by norm_num) (by norm_num) (by norm_num [EntriesWithin, abs_le])
    (by norm_num [EntriesWithin, abs_le, Mat3.mul, Mat3.transpose, Vec3.dot]) (by norm_num)
  refine within_le (within_trans (ε := 3 * (2e-13 + 2 * (3 * (2e-13 + 2 * 2e-13)))) (δ := 1e-15) ABC ?_) (by norm_num)
  norm_num [EntriesWithin, abs_le, Mat3.mul, Mat3.transpose, Vec3.dot]

private theorem product_near : EntriesWithin 1e-15 galacticMatrix
    (Mat3.mul ⟨⟨-0.066986518014272091, -0.872755936353716727, -0.483538914632184240⟩,
     ⟨0.492729612329151631, -0.450345703890620095, 0.744584633283031077⟩,
     ⟨-0.867600331684058052, -0.188376810002210946, 0.460199784783851646⟩⟩ b1950Matrix) := by
  norm_num [EntriesWithin, abs_le, Mat3.mul, Mat3.transpose, Vec3.dot, galacticMatrix, b1950Matrix]

private theorem row_near {ε : ℝ} {a b u v w p q r : ℝ} (hε : 0 ≤ ε) (h1 : |a - u| ≤ ε) (h2 : |b - v| ≤ ε) {c : ℝ} (h3 : |c - w| ≤ ε)
    (hp : |p| ≤ 2) (hq : |q| ≤ 2) (hr : |r| ≤ 2) : |(a * p + b * q + c * r) - (u * p + v * q + w * r)| ≤ 6 * ε := by
  have e : (a * p + b * q + c * r) - (u * p + v * q + w * r) = (a - u) * p + (b - v) * q + (c - w) * r := by ring
  rw [e]
  refine (abs_add_three _ _ _).trans ?_
  rw [abs_mul, abs_mul, abs_mul]
  have p1 : |a - u| * |p| ≤ ε * 2 := mul_le_mul h1 hp (abs_nonneg _) hε
  have p2 : |b - v| * |q| ≤ ε * 2 := mul_le_mul h2 hq (abs_nonneg _) hε
  have p3 : |c - w| * |r| ≤ ε * 2 := mul_le_mul h3 hr (abs_nonneg _) hε
  linarith

private theorem within_mulVec {ε : ℝ} (hε : 0 ≤ ε) {a b : Mat3} (h : EntriesWithin ε a b) {r : Vec3} (hx : |r.x| ≤ 2) (hy : |r.y| ≤ 2)
    (hz : |r.z| ≤ 2) : |(a.mulVec r).x - (b.mulVec r).x| ≤ 6 * ε ∧ |(a.mulVec r).y - (b.mulVec r).y| ≤ 6 * ε ∧
      |(a.mulVec r).z - (b.mulVec r).z| ≤ 6 * ε := by
  obtain ⟨⟨a1, a2, a3⟩, ⟨a4, a5, a6⟩, ⟨a7, a8, a9⟩⟩ := h
  exact ⟨row_near hε a1 a2 a3 hx hy hz, row_near hε a4 a5 a6 hx hy hz, row_near hε a7 a8 a9 hx hy hz⟩

private theorem coordinate_le (r : Vec3) : |r.x| ≤ r.length ∧ |r.y| ≤ r.length ∧ |r.z| ≤ r.length := by
  refine ⟨?_, ?_, ?_⟩ <;> refine abs_le_sqrt ?_ <;> nlinarith [mul_self_nonneg r.x, mul_self_nonneg r.y, mul_self_nonneg r.z]

private theorem galactic_near (r p q : Vec3) (hr : b1950Matrix.mulVec r = p) (hp : p.dot p = 1) (hq : galacticTurns.mulVec p = q) :
    |(galacticMatrix.mulVec r).x - q.x| ≤ 1e-9 ∧ |(galacticMatrix.mulVec r).y - q.y| ≤ 1e-9 ∧
      |(galacticMatrix.mulVec r).z - q.z| ≤ 1e-9 := by
  have hl : r.length ≤ 2 := by
    have h := C35_fixed_frames.1.dot r r
    rw [hr, hp, Vec3.length_mul_self] at h
    have h' := (abs_le.mp h).2
    have h'' := (abs_le.mp h).1
    have hd : r.dot r ≤ 4 := by nlinarith
    rw [Vec3.length_eq]
    exact (sqrt_le_sqrt hd).trans (by rw [show (4 : ℝ) = 2 ^ 2 by norm_num, sqrt_sq (by norm_num)])
  have hpl : p.length ≤ 2 := by rw [Vec3.length_eq, hp, sqrt_one]; norm_num
  obtain ⟨x1, x2, x3⟩ := coordinate_le r
  obtain ⟨y1, y2, y3⟩ := coordinate_le p
  obtain ⟨a1, a2, a3⟩ := within_mulVec (by norm_num) product_near (x1.trans hl) (x2.trans hl) (x3.trans hl)
  obtain ⟨b1, b2, b3⟩ := within_mulVec (by norm_num) (within_symm turns_near) (y1.trans hpl) (y2.trans hpl) (y3.trans hpl)
  rw [Mat3.mul_mulVec, hr] at a1 a2 a3
  rw [hq] at b1 b2 b3
  refine ⟨(abs_sub_le _ _ _).trans ((add_le_add a1 b1).trans (by norm_num)),
    (abs_sub_le _ _ _).trans ((add_le_add a2 b2).trans (by norm_num)),
    (abs_sub_le _ _ _).trans ((add_le_add a3 b3).trans (by norm_num))⟩

/-- **C89.** `galactic_frame` is the galactic system: the position that `equatorial_B1950_frame` places at the galactic pole has the
galactic coordinates of the pole, and the position that it places where galactic longitude begins has longitude and latitude zero. -/
theorem C89_galactic (t : SkyTime) (r : Vec3) :
    (frameXyz (inertialFrame b1950Matrix) t r = skyPoint galacticPoleRa galacticPoleDec →
      |(galacticXyz t r).x| ≤ 1e-9 ∧ |(galacticXyz t r).y| ≤ 1e-9 ∧ |(galacticXyz t r).z - 1| ≤ 1e-9) ∧
    (frameXyz (inertialFrame b1950Matrix) t r = quarterCircleFrom galacticPoleRa galacticPoleDec galacticZero →
      |(galacticXyz t r).x - 1| ≤ 1e-9 ∧ |(galacticXyz t r).y| ≤ 1e-9 ∧ |(galacticXyz t r).z| ≤ 1e-9) := by
  have h1 := sin_sq_add_cos_sq galacticPoleRa
  have h2 := sin_sq_add_cos_sq galacticPoleDec
  have h3 := sin_sq_add_cos_sq galacticZero
  constructor
  · intro h
    have := galactic_near r _ _ h (by
      simp only [skyPoint, Vec3.dot]
      linear_combination (cos galacticPoleDec ^ 2) * h1 + h2) turns_pole
    simpa [galacticXyz, galacticFrame, frameXyz, inertialFrame] using this
  · intro h
    have := galactic_near r _ _ h (by
      simp only [quarterCircleFrom, Vec3.dot, Vec3.add_x, Vec3.add_y, Vec3.add_z, Vec3.smul_x, Vec3.smul_y, Vec3.smul_z]
      linear_combination (cos galacticZero ^ 2 * sin galacticPoleDec ^ 2 + sin galacticZero ^ 2) * h1 + cos galacticZero ^ 2 * h2 + h3)
      turns_zero
    simpa [galacticXyz, galacticFrame, frameXyz, inertialFrame] using this

/-- There are such positions. -/
example (p : Vec3) : ∃ r, b1950Matrix.mulVec r = p := by
  have cramer : ∀ a b c : Vec3, a.dot (b.cross c) ≠ 0 → ∃ r, Mat3.mulVec ⟨a, b, c⟩ r = p := by
    intro a b c h
    obtain ⟨k, hk⟩ : ∃ k, k * a.dot (b.cross c) = 1 := ⟨_, inv_mul_cancel₀ h⟩
    refine ⟨k • (p.x • b.cross c + p.y • c.cross a + p.z • a.cross b), ?_⟩
    simp only [Vec3.dot, Vec3.cross] at hk
    ext <;> simp only [Mat3.mulVec, Vec3.dot, Vec3.cross, Vec3.smul_x, Vec3.smul_y, Vec3.smul_z, Vec3.add_x, Vec3.add_y, Vec3.add_z]
    · linear_combination p.x * hk
    · linear_combination p.y * hk
    · linear_combination p.z * hk
  exact cramer _ _ _ (by norm_num [Vec3.dot, Vec3.cross])

/-- **C89.** The axes of the ICRF agree with those of J2000 to within 0.0232 arcseconds. -/
theorem C89_bias_small (r : Vec3) : (icrsToJ2000.mulVec r - r).length ≤ arcseconds 0.0232 * r.length := by
  obtain ⟨w, hw⟩ : ∃ w : Vec3, w = asec2rad • ⟨-0.0068192, 0.0166170, 0.01460⟩ := ⟨_, rfl⟩
  obtain ⟨d, hd⟩ : ∃ d : Vec3, d = ⟨-(0.5 * (0.01460 ^ 2 + 0.0166170 ^ 2)) * asec2rad ^ 2, -(0.5 * (0.01460 ^ 2 + 0.0068192 ^ 2)) * asec2rad ^ 2,
    -(0.5 * (0.0068192 ^ 2 + 0.0166170 ^ 2)) * asec2rad ^ 2⟩ := ⟨_, rfl⟩
  have e : icrsToJ2000.mulVec r - r = w.cross r + d * r := by
    subst hw hd
    ext <;> simp [icrsToJ2000, Mat3.mulVec, Vec3.dot, Vec3.cross] <;> ring
  have hwr : (w.cross r).length ≤ asec2rad * 0.02316 * r.length := by
    have h := Vec3.lagrange w r
    have hww : w.dot w ≤ (asec2rad * 0.02316) ^ 2 := by
      subst hw
      norm_num [Vec3.dot, asec2rad]
    rw [Vec3.length_eq]
    refine sqrt_le_iff.mpr ⟨mul_nonneg (by norm_num [asec2rad]) (Vec3.length_nonneg _), ?_⟩
    rw [h, mul_pow, Vec3.length_sq]
    have hrr : 0 ≤ r.dot r := by rw [← Vec3.length_sq]; positivity
    nlinarith [sq_nonneg (w.dot r), mul_le_mul_of_nonneg_right hww hrr]
  have hdr : (d * r).length ≤ 1e-13 * r.length := by
    have h1 : d.x ^ 2 ≤ (1e-13) ^ 2 := by subst hd; norm_num [asec2rad]
    have h2 : d.y ^ 2 ≤ (1e-13) ^ 2 := by subst hd; norm_num [asec2rad]
    have h3 : d.z ^ 2 ≤ (1e-13) ^ 2 := by subst hd; norm_num [asec2rad]
    rw [Vec3.length_eq]
    refine sqrt_le_iff.mpr ⟨mul_nonneg (by norm_num) (Vec3.length_nonneg _), ?_⟩
    rw [mul_pow, Vec3.length_sq]
    simp only [Vec3.dot, Vec3.mul_x, Vec3.mul_y, Vec3.mul_z]
    linarith [mul_le_mul_of_nonneg_right h1 (mul_self_nonneg r.x), mul_le_mul_of_nonneg_right h2 (mul_self_nonneg r.y),
      mul_le_mul_of_nonneg_right h3 (mul_self_nonneg r.z)]
  rw [e]
  refine (Vec3.length_add_le _ _).trans ((add_le_add hwr hdr).trans ?_)
  rw [← add_mul]
  refine mul_le_mul_of_nonneg_right ?_ (Vec3.length_nonneg _)
  unfold arcseconds asec2rad
  have := pi_gt_d20
  linarith

/-- **C89** (finding).  The documentation of `ICRS` says 0.02″, but the axes towards the equinox are 0.022″ apart. -/
theorem C89_bias_of_first_axis : arcseconds 0.022 < (icrsToJ2000.mulVec ⟨1, 0, 0⟩ - ⟨1, 0, 0⟩).length := by
  have h := pi_lt_d20
  have h0 : arcseconds 0.022 < 1.0667e-7 := by unfold arcseconds; linarith
  refine h0.trans ?_
  rw [Vec3.length_eq]
  refine lt_sqrt_of_sq_lt ?_
  simp only [icrsToJ2000, Mat3.mulVec, Vec3.dot, Vec3.sub_x, Vec3.sub_y, Vec3.sub_z, asec2rad]
  norm_num

/-- **C89.** The ecliptic of J2000 here is not that of `mean_obliquity`, which the frame of date uses: they differ by 0.042″. -/
theorem C89_obliquities : meanObliquity t0 = 84381.448 - 0.042 := by
  norm_num [meanObliquity]

end Skyfield
