import Verif.Props.PeriapsisTime

/-
C62 and C64: the angles that are sums of elements — argument of latitude and the longitudes of periapsis, of the body and of
its mean place.
-/
namespace Skyfield
open Real

/-- A Python remainder by a whole turn differs by whole turns. -/
theorem pyMod_whole_turns (x : ℝ) : ∃ k : ℤ, pyMod x tau = x + 2 * π * k := by
  refine ⟨-⌊x / tau⌋, ?_⟩
  unfold pyMod tau
  push_cast
  ring

theorem planeDir_turns (Om i u : ℝ) (k : ℤ) : planeDir Om i (u + 2 * π * k) = planeDir Om i u := by
  unfold planeDir
  rw [show u + 2 * π * k = u + k * (2 * π) by ring, cos_add_int_mul_two_pi, sin_add_int_mul_two_pi]

/-- In the reference plane the angle from the node adds to the longitude of the node. -/
theorem planeDir_flat (Om u : ℝ) : planeDir Om 0 u = ⟨cos (Om + u), sin (Om + u), 0⟩ := by
  unfold planeDir nodeDir aheadDir
  rw [cos_add, sin_add]
  ext <;> simp <;> ring

/-- **C62.** The angles that are sums.  The argument of latitude is the angle, measured in the orbital plane, from the
ascending node to the body; the true longitude is the longitude of the node plus that angle, and the longitude of periapsis
is the longitude of the node plus the angle from the node to periapsis (the direction of the eccentricity vector).  All
three, and the mean longitude, are reported from 0 up to a whole turn.  For an orbit in the reference plane, followed
eastward, the two longitudes are the ordinary longitudes of the body and of periapsis. -/
theorem C62_longitudes (o : Osculating) (hm : 0 < o.mu) (hh : o.pos.cross o.vel ≠ 0)
    (he : o.eccentricity = 0 ∨ 1e-15 < o.eccentricity) :
    o.pos = o.pos.length • planeDir o.ascendingNode o.inclination o.latitudeArgument ∧
    o.pos = o.pos.length • planeDir o.ascendingNode o.inclination (o.trueLongitude - o.ascendingNode) ∧
    (1e-15 < o.eccentricity →
      o.eVec = o.eccentricity • planeDir o.ascendingNode o.inclination (o.periapsisLongitude - o.ascendingNode)) ∧
    (o.inclination = 0 → o.pos = o.pos.length • ⟨cos o.trueLongitude, sin o.trueLongitude, 0⟩ ∧
      (1e-15 < o.eccentricity → o.eVec = o.eccentricity • ⟨cos o.periapsisLongitude, sin o.periapsisLongitude, 0⟩)) ∧
    ∀ x ∈ [o.latitudeArgument, o.trueLongitude, o.periapsisLongitude, o.meanLongitude], 0 ≤ x ∧ x < 2 * π := by
  have hpos := Osculating.pos_eq hm hh he
  have hper : 1e-15 < o.eccentricity → o.eVec = o.eccentricity • planeDir o.ascendingNode o.inclination o.periapsisArgument :=
    fun h => turned_node (Osculating.turned_periapsis hh h.le)
  obtain ⟨k1, h1⟩ := pyMod_whole_turns (o.periapsisArgument + o.trueAnomaly)
  obtain ⟨k2, h2⟩ := pyMod_whole_turns (o.ascendingNode + o.periapsisArgument + o.trueAnomaly)
  obtain ⟨k3, h3⟩ := pyMod_whole_turns (o.ascendingNode + o.periapsisArgument)
  have e2 : planeDir o.ascendingNode o.inclination (o.trueLongitude - o.ascendingNode) =
      planeDir o.ascendingNode o.inclination (o.trueAnomaly + o.periapsisArgument) := by
    unfold Osculating.trueLongitude
    rw [h2, ← planeDir_turns _ _ (o.trueAnomaly + o.periapsisArgument) k2]
    congr 1; ring
  have e3 : planeDir o.ascendingNode o.inclination (o.periapsisLongitude - o.ascendingNode) =
      planeDir o.ascendingNode o.inclination o.periapsisArgument := by
    unfold Osculating.periapsisLongitude
    rw [h3, ← planeDir_turns _ _ o.periapsisArgument k3]
    congr 1; ring
  refine ⟨?_, ?_, ?_, ?_, ?_⟩
  · have e1 : planeDir o.ascendingNode o.inclination o.latitudeArgument =
        planeDir o.ascendingNode o.inclination (o.trueAnomaly + o.periapsisArgument) := by
      unfold Osculating.latitudeArgument
      rw [h1, planeDir_turns, add_comm]
    rw [e1]; exact hpos
  · rw [e2]; exact hpos
  · intro h
    rw [e3]; exact hper h
  · intro hi
    constructor
    · rw [← e2, hi, planeDir_flat, show o.ascendingNode + (o.trueLongitude - o.ascendingNode) = o.trueLongitude by ring] at hpos
      exact hpos
    · intro h
      have := hper h
      rw [← e3, hi, planeDir_flat,
        show o.ascendingNode + (o.periapsisLongitude - o.ascendingNode) = o.periapsisLongitude by ring] at this
      exact this
  · intro x hx
    simp only [List.mem_cons, List.not_mem_nil, or_false] at hx
    rcases hx with rfl | rfl | rfl | rfl <;> exact pyMod_tau_mem _

/-- **C64.** The mean longitude: at periapsis it is the longitude of periapsis, and between any two times of an elliptic or
circular two-body motion it grows by the reported mean motion times the time passed, up to whole turns. -/
theorem C64_mean_longitude {mu : ℝ} {r v : ℝ → Vec3} (h : TwoBody mu r v) (hm : 0 < mu) (s t : ℝ)
    (hh : (r s).cross (v s) ≠ 0) :
    let a : Osculating := ⟨r s, v s, mu⟩
    let b : Osculating := ⟨r t, v t, mu⟩
    a.eccentricity = 0 ∨ 1e-15 < a.eccentricity → a.eccentricity < 1 →
    (a.trueAnomaly = 0 → a.meanLongitude = a.periapsisLongitude) ∧
    (cos (a.trueAnomaly / 2) ≠ 0 → cos (b.trueAnomaly / 2) ≠ 0 →
      ∃ k : ℤ, b.meanLongitude = a.meanLongitude + a.motion * (t - s) + 2 * π * k) := by
  intro a b he h1
  refine ⟨fun h0 => ?_, fun hva hvb => ?_⟩
  · have hM : a.meanAnomaly = 0 := by
      unfold Osculating.meanAnomaly meanAnomalyOf Osculating.eccentricAnomaly eccentricAnomalyOf
      rw [if_pos h1, if_pos h1, h0]
      simp [pyMod]
    unfold Osculating.meanLongitude Osculating.periapsisLongitude
    rw [hM, add_zero]
  · obtain ⟨k, hk⟩ := C64_mean_anomaly h hm s t hh he h1 hva hvb
    obtain ⟨-, -, hi, hO, hw, -⟩ := C64_constant h hm t s
    change b.ascendingNode = a.ascendingNode at hO
    obtain ⟨ka, ha⟩ := pyMod_whole_turns (a.ascendingNode + a.periapsisArgument + a.meanAnomaly)
    obtain ⟨kb, hb⟩ := pyMod_whole_turns (b.ascendingNode + b.periapsisArgument + b.meanAnomaly)
    refine ⟨k + kb - ka, ?_⟩
    unfold Osculating.meanLongitude
    rw [ha, hb]
    change b.meanAnomaly = a.meanAnomaly + _ + _ at hk
    push_cast
    have hw' : b.periapsisArgument = a.periapsisArgument := hw
    linear_combination hk + hO + hw'

/-- Non-vacuity of `C62_longitudes` in its flat case: an ellipse of eccentricity 0.21 in the reference plane, followed
eastward. -/
example : let o : Osculating := ⟨⟨1, 0, 0⟩, ⟨0, 11 / 10, 0⟩, 1⟩
    0 < o.mu ∧ o.pos.cross o.vel ≠ 0 ∧ 1e-15 < o.eccentricity ∧ o.inclination = 0 := by
  have l1 : (⟨1, 0, 0⟩ : Vec3).length = 1 := by unfold Vec3.length; norm_num
  have l2 : (⟨0, 11 / 10, 0⟩ : Vec3).length ^ 2 = 121 / 100 := by rw [Vec3.length_sq]; norm_num [Vec3.dot]
  have e1 : (⟨⟨1, 0, 0⟩, ⟨0, 11 / 10, 0⟩, 1⟩ : Osculating).eVec = ⟨21 / 100, 0, 0⟩ := by
    unfold Osculating.eVec eccentricityVector
    simp only [l1, l2]
    ext <;> simp [Vec3.dot]
    norm_num
  refine ⟨one_pos, fun h => ?_, ?_, ?_⟩
  · have := congrArg Vec3.z h
    norm_num [Vec3.cross] at this
  · unfold Osculating.eccentricity
    rw [e1]
    unfold Vec3.length
    rw [show (21 / 100 * (21 / 100) + 0 * 0 + 0 * 0 : ℝ) = (21 / 100) ^ 2 by ring, sqrt_sq (by norm_num)]
    norm_num
  · have hv : (⟨⟨1, 0, 0⟩, ⟨0, 11 / 10, 0⟩, 1⟩ : Osculating).hVec = (11 / 10 : ℝ) • (⟨0, 0, 1⟩ : Vec3) := by
      ext <;> simp [Osculating.hVec, Vec3.cross]
    have l3 : (⟨0, 0, 1⟩ : Vec3).length = 1 := by unfold Vec3.length; norm_num
    unfold Osculating.inclination inclinationOf
    rw [hv]
    unfold angleBetween
    have hz : ((⟨0, 0, 1⟩ : Vec3).length • ((11 / 10 : ℝ) • (⟨0, 0, 1⟩ : Vec3)) -
        ((11 / 10 : ℝ) • (⟨0, 0, 1⟩ : Vec3)).length • (⟨0, 0, 1⟩ : Vec3)) = 0 := by
      rw [Vec3.length_smul, l3, abs_of_pos (by norm_num : (0 : ℝ) < 11 / 10)]
      ext <;> simp
    simp only
    rw [hz, Vec3.length_zero]
    unfold arctan2
    rw [show (⟨(((⟨0, 0, 1⟩ : Vec3).length • ((11 / 10 : ℝ) • (⟨0, 0, 1⟩ : Vec3)) +
        ((11 / 10 : ℝ) • (⟨0, 0, 1⟩ : Vec3)).length • (⟨0, 0, 1⟩ : Vec3)).length), 0⟩ : ℂ) = ((((⟨0, 0, 1⟩ : Vec3).length • ((11 / 10 : ℝ) • (⟨0, 0, 1⟩ : Vec3)) +
        ((11 / 10 : ℝ) • (⟨0, 0, 1⟩ : Vec3)).length • (⟨0, 0, 1⟩ : Vec3)).length : ℝ) : ℂ) from rfl,
      Complex.arg_ofReal_of_nonneg (Vec3.length_nonneg _), mul_zero]

end Skyfield
