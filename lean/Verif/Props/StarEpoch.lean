import Verif.Props.Star
import Verif.Props.Tdb

/-
C69: the epoch of a star, given as a `Time`.
-/
namespace Skyfield
open _root_.Spec Real

/-- **C69 (limitation).** A star whose epoch is given as a `Time` keeps that time's TT, and reads it as TDB: as seen from the barycenter at that very time the star is not where its
catalogue entry says, but further along, by its motion in the difference of TDB and TT, less than 2 milliseconds; and so, at every later time. -/
theorem C69_epoch_given_as_time (t u : Time ℝ) (ht : |t.tt - 2451545| ≤ 29 * 36525) (h : t.tdbFraction? = none) (tiny : ℝ) (star : Vec3 × Vec3) (velocity : Vec3) :
    ∃ late, late = (t.tdb tdbMinusTt - t.tt) * 86400 ∧ |late| < 0.002 ∧
      (starObserve tiny star (StarEpoch.time t).kept (t.tdb tdbMinusTt) (0, velocity)).vector = star.1 + (late / 86400) • star.2 ∧
      (starObserve tiny star (StarEpoch.time t).kept (u.tdb tdbMinusTt) (0, velocity)).vector =
        star.1 + (u.tdb tdbMinusTt - t.tdb tdbMinusTt + late / 86400) • star.2 := by
  have h1 := C12_within_2ms t.whole t.ttFraction ht
  have e : (t.tdb tdbMinusTt - t.tt) * 86400 = tdbMinusTt t.whole t.ttFraction := by
    unfold Time.tdb Time.tdbFraction
    rw [h]
    unfold Time.tt dayS
    ring
  refine ⟨_, rfl, by rw [e]; exact h1, ?_, ?_⟩
  · ext <;> simp [starObserve, lightTimeDifference, Vec3.dot, StarEpoch.kept]
  · ext <;> simp [starObserve, lightTimeDifference, Vec3.dot, StarEpoch.kept]

/-- A star whose epoch is given as a number is where its entry says when that is the TDB. -/
theorem C69_epoch_given_as_date (t : Time ℝ) (tiny : ℝ) (star : Vec3 × Vec3) (velocity : Vec3) :
    (starObserve tiny star (StarEpoch.date (t.tdb tdbMinusTt)).kept (t.tdb tdbMinusTt) (0, velocity)).vector = star.1 := by
  ext <;> simp [starObserve, lightTimeDifference, Vec3.dot, StarEpoch.kept]

/-- A time at which TDB and TT differ. -/
example : ∃ t : Time ℝ, |t.tt - 2451545| ≤ 29 * 36525 ∧ t.tdbFraction? = none ∧ t.tdb tdbMinusTt ≠ t.tt := by
  set c : ℝ := (π / 2 - 6.2401) / 628.3076 with hc
  have hp := pi_gt_three
  have hq := pi_lt_four
  have c1 : |c| ≤ 1 := by
    rw [hc, abs_le]
    constructor <;> [rw [le_div_iff₀ (by norm_num)]; rw [div_le_iff₀ (by norm_num)]] <;> linarith
  refine ⟨{ whole := 2451545, ttFraction := 36525 * c, tdbFraction? := none, ts := ⟨fun _ => 69, [], [], none⟩ }, ?_, rfl, ?_⟩
  · have e : ({ whole := 2451545, ttFraction := 36525 * c, tdbFraction? := none, ts := ⟨fun _ => 69, [], [], none⟩ } : Time ℝ).tt - 2451545 = 36525 * c := by
      simp [Time.tt]
    rw [e, abs_mul, abs_of_pos (by norm_num : (0 : ℝ) < 36525)]
    linarith
  · have e : tdbMinusTt 2451545 (36525 * c) = tdbSeries c := by
      unfold tdbMinusTt tdbCenturies
      congr 1
      ring
    have hs : 628.3076 * c + 6.2401 = π / 2 := by
      rw [hc]
      ring
    have hpos : 0 < tdbSeries c := by
      unfold tdbSeries
      rw [hs, sin_pi_div_two]
      have h1 := neg_one_le_sin (575.3385 * c + 4.2970)
      have h2 := neg_one_le_sin (1256.6152 * c + 6.1969)
      have h3 := neg_one_le_sin (606.9777 * c + 4.0212)
      have h4 := neg_one_le_sin (52.9691 * c + 0.4444)
      have h5 := neg_one_le_sin (21.3299 * c + 5.5431)
      have h6 : |c * sin (628.3076 * c + 4.2490)| ≤ 1 := by
        rw [abs_mul]
        exact mul_le_one₀ c1 (abs_nonneg _) (abs_sin_le_one _)
      have h7 := (abs_le.mp h6).1
      linarith
    simp only [Time.tdb, Time.tdbFraction, Time.tt, e, dayS]
    intro h
    linarith

end Skyfield
