import Verif.Model.Almanac
import Verif.Props.Spherical

/-
C46: phase and illumination; C47: almanac state codes; C48: lunar eclipses; C59: risings and settings.
-/
namespace Skyfield
open Real

/-! ### C46 -/

/-- **C46.** With the observer at `c`, the target at `p` and the Sun at `s`, the phase angle is the angle at the target
between the directions to the observer and to the Sun. -/
theorem C46_phase_angle (c p s : Vec3) (ho : p ≠ c) (hs : p ≠ s) :
    cos (phaseAngle (p - c) s c) = (c - p).dot (s - p) / ((c - p).length * (s - p).length) ∧
      0 ≤ phaseAngle (p - c) s c ∧ phaseAngle (p - c) s c ≤ π := by
  have e : p - c - s + c = p - s := by ext <;> simp <;> ring
  have h1 : p - c ≠ 0 := fun h => ho (by
    have := congrArg (· + c) h
    ext <;> [have := congrArg Vec3.x h; have := congrArg Vec3.y h; have := congrArg Vec3.z h] <;> simp at this <;> linarith)
  have h2 : p - s ≠ 0 := fun h => hs (by
    ext <;> [have := congrArg Vec3.x h; have := congrArg Vec3.y h; have := congrArg Vec3.z h] <;> simp at this <;> linarith)
  unfold phaseAngle
  rw [e]
  obtain ⟨a1, a2, a3⟩ := C37_angle _ _ h1 h2
  refine ⟨?_, a2, a3⟩
  rw [a1, Vec3.length_sub_comm p c, Vec3.length_sub_comm p s]
  congr 1
  simp [Vec3.dot]; ring

/-- **C46.** The illuminated fraction lies between 0 and 1. -/
theorem C46_range (u s c : Vec3) : 0 ≤ fractionIlluminated u s c ∧ fractionIlluminated u s c ≤ 1 := by
  unfold fractionIlluminated
  have h1 := neg_one_le_cos (phaseAngle u s c)
  have h2 := cos_le_one (phaseAngle u s c)
  constructor <;> linarith

theorem phaseAngle_mem (u s c : Vec3) : 0 ≤ phaseAngle u s c ∧ phaseAngle u s c ≤ π := by
  unfold phaseAngle angleBetween
  simp only
  have hlen := Vec3.length_nonneg ((u - s + c).length • u - u.length • (u - s + c))
  have hlen2 := Vec3.length_nonneg ((u - s + c).length • u + u.length • (u - s + c))
  generalize ((u - s + c).length • u - u.length • (u - s + c)).length = y at *
  generalize ((u - s + c).length • u + u.length • (u - s + c)).length = x at *
  have h1 : 0 ≤ arctan2 y x := Complex.arg_nonneg_iff.2 hlen
  have h2 : |arctan2 y x| ≤ π / 2 := Complex.abs_arg_le_pi_div_two_iff.2 hlen2
  rw [abs_of_nonneg h1] at h2
  constructor <;> linarith

/-- **C46.** The fraction is 1 exactly at phase angle 0 (full) and 0 exactly at phase angle π (new), and it strictly decreases
as the phase angle grows. -/
theorem C46_full_and_new (u s c : Vec3) :
    (fractionIlluminated u s c = 1 ↔ phaseAngle u s c = 0) ∧
    (fractionIlluminated u s c = 0 ↔ phaseAngle u s c = π) ∧
    ∀ u' s' c' : Vec3, phaseAngle u s c < phaseAngle u' s' c' ↔ fractionIlluminated u' s' c' < fractionIlluminated u s c := by
  have hm := phaseAngle_mem u s c
  have hinj := injOn_cos
  have hanti := strictAntiOn_cos
  unfold fractionIlluminated
  refine ⟨⟨fun h => ?_, fun h => by rw [h]; norm_num⟩, ⟨fun h => ?_, fun h => by rw [h]; norm_num⟩, fun u' s' c' => ?_⟩
  · exact hinj ⟨hm.1, hm.2⟩ ⟨le_rfl, pi_pos.le⟩ (by rw [cos_zero]; linarith)
  · exact hinj ⟨hm.1, hm.2⟩ ⟨pi_pos.le, le_rfl⟩ (by rw [cos_pi]; linarith)
  · have hm' := phaseAngle_mem u' s' c'
    rw [← hanti.lt_iff_gt ⟨hm'.1, hm'.2⟩ ⟨hm.1, hm.2⟩]
    constructor <;> intro h <;> linarith

/-- **C46.** Full exactly when, from the target, observer and Sun are in the same direction; new exactly when they are in
opposite directions. -/
theorem C46_directions (c p s : Vec3) (ho : p ≠ c) (hs : p ≠ s) :
    (fractionIlluminated (p - c) s c = 1 ↔ (s - p).length • (c - p) = (c - p).length • (s - p)) ∧
    (fractionIlluminated (p - c) s c = 0 ↔ (s - p).length • (c - p) = -((c - p).length • (s - p))) := by
  have e : p - c - s + c = p - s := by ext <;> simp <;> ring
  have h1 : p - c ≠ 0 := fun h => ho (by
    ext <;> [have := congrArg Vec3.x h; have := congrArg Vec3.y h; have := congrArg Vec3.z h] <;> simp at this <;> linarith)
  have h2 : p - s ≠ 0 := fun h => hs (by
    ext <;> [have := congrArg Vec3.x h; have := congrArg Vec3.y h; have := congrArg Vec3.z h] <;> simp at this <;> linarith)
  obtain ⟨f1, f0, _⟩ := C46_full_and_new (p - c) s c
  rw [f1, f0]
  unfold phaseAngle
  rw [e]
  obtain ⟨x0, xπ⟩ := C37_extremes _ _ h1 h2
  rw [x0, xπ, Vec3.length_sub_comm p c, Vec3.length_sub_comm p s]
  constructor
  · constructor <;> intro h <;>
      (ext <;> [have := congrArg Vec3.x h; have := congrArg Vec3.y h; have := congrArg Vec3.z h] <;> simp at this ⊢ <;> linarith)
  · constructor <;> intro h <;>
      (ext <;> [have := congrArg Vec3.x h; have := congrArg Vec3.y h; have := congrArg Vec3.z h] <;> simp at this ⊢ <;> linarith)

/-- Observer, target and Sun at three different points. -/
example : (⟨1, 0, 0⟩ : Vec3) ≠ ⟨0, 1, 0⟩ ∧ (⟨1, 0, 0⟩ : Vec3) ≠ ⟨0, 0, 0⟩ := by
  constructor <;> (intro h; have := congrArg Vec3.x h; simp at this)

/-! ### C47 -/

theorem astypeInt_eq_floor {a : ℝ} (h : 0 ≤ a) : astypeInt a = ⌊a⌋ := by simp [astypeInt, h]

/-- The common form of the quadrant codes: the number of the `n`-th of a turn that contains the angle. -/
theorem turnPart_iff (n : ℕ) (hn : 0 < n) (x : ℝ) (k : ℤ) :
    astypeInt (pyMod (pyFloorDiv x (tau / n)) n) = k ↔
      0 ≤ k ∧ k < n ∧ ∃ m : ℤ, k * (tau / n) ≤ x - tau * m ∧ x - tau * m < (k + 1) * (tau / n) := by
  have hn' : (0:ℝ) < n := by exact_mod_cast hn
  have ht := tau_pos
  have hs : 0 < tau / n := by positivity
  set j : ℤ := ⌊x / (tau / n)⌋ with hj
  have hmod : pyMod (pyFloorDiv x (tau / n)) (n : ℝ) = ((j % (n : ℤ) : ℤ) : ℝ) := by
    unfold pyFloorDiv
    rw [← hj]
    refine pyMod_unique' _ (j / (n : ℤ)) hn' ?_ ?_ ?_
    · exact_mod_cast Int.emod_nonneg j (by omega)
    · exact_mod_cast Int.emod_lt_of_pos j (by omega)
    · have := Int.emod_add_mul_ediv j (n : ℤ)
      exact_mod_cast this.symm
  have h0 : (0:ℝ) ≤ ((j % (n : ℤ) : ℤ) : ℝ) := by exact_mod_cast Int.emod_nonneg j (by omega)
  rw [hmod, astypeInt_eq_floor h0, Int.floor_intCast]
  have hjx : j * (tau / n) ≤ x ∧ x < (j + 1) * (tau / n) := by
    have h1 := Int.floor_le (x / (tau / n))
    have h2 := Int.lt_floor_add_one (x / (tau / n))
    rw [← hj] at h1 h2
    rw [le_div_iff₀ hs] at h1
    rw [div_lt_iff₀ hs] at h2
    exact ⟨h1, h2⟩
  have htau : tau = n * (tau / n) := by field_simp
  constructor
  · rintro rfl
    refine ⟨Int.emod_nonneg j (by omega), Int.emod_lt_of_pos j (by omega), j / (n : ℤ), ?_⟩
    have hd : (j : ℝ) = ((j % (n : ℤ) : ℤ) : ℝ) + n * ((j / (n : ℤ) : ℤ) : ℝ) := by
      exact_mod_cast (Int.emod_add_mul_ediv j (n : ℤ)).symm
    have hmul : tau * ((j / (n : ℤ) : ℤ) : ℝ) = n * ((j / (n : ℤ) : ℤ) : ℝ) * (tau / n) := by
      field_simp
    rw [hd] at hjx
    rw [hmul]
    constructor <;> linarith [hjx.1, hjx.2]
  · rintro ⟨hk0, hkn, m, hm1, hm2⟩
    have hmul : tau * (m : ℝ) = n * (m : ℝ) * (tau / n) := by field_simp
    rw [hmul] at hm1 hm2
    have hjk : j = k + n * m := by
      rw [hj, Int.floor_eq_iff, le_div_iff₀ hs, div_lt_iff₀ hs]
      push_cast
      constructor <;> linarith
    rw [hjk, Int.add_mul_emod_self_left]
    exact Int.emod_eq_of_lt hk0 hkn

/-- **C47.** The season is the quarter turn, 0 to 3, that contains the Sun's ecliptic longitude. -/
theorem C47_season (slon : ℝ) (k : ℤ) :
    seasonAt slon = k ↔ 0 ≤ k ∧ k < 4 ∧ ∃ m : ℤ, k * (π / 2) ≤ slon - 2 * π * m ∧ slon - 2 * π * m < (k + 1) * (π / 2) := by
  have h := turnPart_iff 4 (by norm_num) slon k
  rw [show tau / ((4 : ℕ) : ℝ) = π / 2 by unfold tau; push_cast; ring] at h
  unfold seasonAt
  rw [show tau / (4 : ℝ) = π / 2 by unfold tau; ring]
  exact_mod_cast h

/-- **C47.** The Moon phase code is the quarter turn that contains the Moon's longitude counted from the Sun's. -/
theorem C47_moon_phase (mlon slon : ℝ) (k : ℤ) :
    moonPhaseAt mlon slon = k ↔
      0 ≤ k ∧ k < 4 ∧ ∃ m : ℤ, k * (π / 2) ≤ mlon - slon - 2 * π * m ∧ mlon - slon - 2 * π * m < (k + 1) * (π / 2) := by
  have h := turnPart_iff 4 (by norm_num) (mlon - slon) k
  rw [show tau / ((4 : ℕ) : ℝ) = π / 2 by unfold tau; push_cast; ring] at h
  unfold moonPhaseAt
  rw [show tau / (4 : ℝ) = π / 2 by unfold tau; ring]
  exact_mod_cast h

/-- **C47.** The Moon phase angle is in [0, 2π), differs from the longitude difference by whole turns, and the code is its
quarter. -/
theorem C47_moon_phase_angle (mlon slon : ℝ) :
    0 ≤ moonPhase mlon slon ∧ moonPhase mlon slon < 2 * π ∧ (∃ m : ℤ, moonPhase mlon slon = mlon - slon - 2 * π * m) ∧
      moonPhaseAt mlon slon = ⌊moonPhase mlon slon / (π / 2)⌋ := by
  have h0 := pyMod_nonneg' (mlon - slon) tau_pos
  have h1 := pyMod_lt' (mlon - slon) tau_pos
  obtain ⟨m, hm⟩ := pyMod_eq_sub' (mlon - slon) tau
  have hp := pi_pos
  refine ⟨h0, h1, ⟨m, hm⟩, ?_⟩
  rw [C47_moon_phase]
  have hf1 := Int.floor_le (moonPhase mlon slon / (π / 2))
  have hf2 := Int.lt_floor_add_one (moonPhase mlon slon / (π / 2))
  rw [le_div_iff₀ (by positivity)] at hf1
  rw [div_lt_iff₀ (by positivity)] at hf2
  unfold moonPhase at *
  unfold tau at hm h1
  unfold tau at *
  refine ⟨Int.floor_nonneg.2 (by positivity), ?_, m, ?_, ?_⟩
  · rw [Int.floor_lt, div_lt_iff₀ (by positivity)]; push_cast; linarith
  · rw [← hm]; exact hf1
  · rw [← hm]; exact hf2

/-- **C47.** The solar term is the 24th of a turn, 0 to 23, that contains the Sun's longitude. -/
theorem C47_solar_term (slon : ℝ) (k : ℤ) :
    solarTermAt slon = k ↔
      0 ≤ k ∧ k < 24 ∧ ∃ m : ℤ, k * (π / 12) ≤ slon - 2 * π * m ∧ slon - 2 * π * m < (k + 1) * (π / 12) := by
  have h := turnPart_iff 24 (by norm_num) slon k
  rw [show tau / ((24 : ℕ) : ℝ) = π / 12 by unfold tau; push_cast; ring] at h
  unfold solarTermAt
  rw [show tau / (24 : ℝ) = π / 12 by unfold tau; ring]
  exact_mod_cast h

/-- **C47.** Six solar terms make a season. -/
theorem C47_solar_term_season (slon : ℝ) : seasonAt slon = solarTermAt slon / 6 := by
  obtain ⟨h0, h1, m, hm1, hm2⟩ := (C47_solar_term slon (solarTermAt slon)).1 rfl
  rw [C47_season]
  generalize solarTermAt slon = k at *
  have hd := Int.emod_add_mul_ediv k 6
  have hr0 := Int.emod_nonneg k (show (6:ℤ) ≠ 0 by norm_num)
  have hr1 := Int.emod_lt_of_pos k (show (0:ℤ) < 6 by norm_num)
  have hp := pi_pos
  refine ⟨by omega, by omega, m, ?_, ?_⟩
  · have : (6:ℝ) * ((k / 6 : ℤ) : ℝ) ≤ k := by exact_mod_cast (by omega : 6 * (k / 6) ≤ k)
    nlinarith
  · have : (k : ℝ) + 1 ≤ 6 * ((k / 6 : ℤ) : ℝ) + 6 := by exact_mod_cast (by omega : k + 1 ≤ 6 * (k / 6) + 6)
    nlinarith

/-- **C47.** The twilight code: what each value means, for every altitude. -/
theorem C47_twilight (d : ℝ) :
    (darkTwilightDayAt d = 0 ↔ d < -18) ∧ (darkTwilightDayAt d = 1 ↔ -18 ≤ d ∧ d < -12) ∧
    (darkTwilightDayAt d = 2 ↔ -12 ≤ d ∧ d < -6) ∧ (darkTwilightDayAt d = 3 ↔ -6 ≤ d ∧ d < -0.8333) ∧
    (darkTwilightDayAt d = 4 ↔ -0.8333 ≤ d) ∧ darkTwilightDayAt d ≤ 4 := by
  unfold darkTwilightDayAt
  simp only
  split_ifs with h1 h2 h3 h4 <;> norm_num at * <;> (try constructorm* _ ∧ _) <;> intros <;> linarith

/-- **C47.** The twilight code never decreases as the Sun climbs. -/
theorem C47_twilight_monotone (d d' : ℝ) (h : d ≤ d') : darkTwilightDayAt d ≤ darkTwilightDayAt d' := by
  unfold darkTwilightDayAt
  simp only
  split_ifs <;> first | omega | (exfalso; linarith)

/-- **C47.** "Day" and "the Sun is up" mean the same. -/
theorem C47_day_is_sun_up (d : ℝ) : darkTwilightDayAt d = 4 ↔ isSunUpAt d := (C47_twilight d).2.2.2.2.1

/-- **C47.** The opposition/conjunction code is 0 while the target's longitude is behind the Sun's by less than half a turn and 1
otherwise; it is therefore constant except where the difference passes a whole or half turn. -/
theorem C47_opposition (slon tlon : ℝ) :
    (leadingOrTrailing slon tlon = 0 ∨ leadingOrTrailing slon tlon = 1) ∧
    (leadingOrTrailing slon tlon = 0 ↔ ∃ m : ℤ, 0 ≤ slon - tlon - 2 * π * m ∧ slon - tlon - 2 * π * m < π) ∧
    (sin (slon - tlon) ≠ 0 → (leadingOrTrailing slon tlon = 0 ↔ 0 < sin (slon - tlon))) := by
  have hp := pi_pos
  have h0 := pyMod_nonneg' ((slon - tlon) / π) (show (0:ℝ) < 2 by norm_num)
  have h1 := pyMod_lt' ((slon - tlon) / π) (show (0:ℝ) < 2 by norm_num)
  obtain ⟨n, hn⟩ := pyMod_eq_sub' ((slon - tlon) / π) (2:ℝ)
  have hcode : leadingOrTrailing slon tlon = ⌊pyMod ((slon - tlon) / π) 2⌋ := astypeInt_eq_floor h0
  have hx : slon - tlon = π * pyMod ((slon - tlon) / π) 2 + 2 * π * n := by rw [hn]; field_simp; ring
  rw [hcode]
  set r := pyMod ((slon - tlon) / π) 2 with hr
  have hz : ⌊r⌋ = 0 ↔ r < 1 := by
    rw [Int.floor_eq_iff]; push_cast
    exact ⟨fun h => by linarith [h.2], fun h => ⟨h0, by linarith⟩⟩
  have ho : ¬ r < 1 → ⌊r⌋ = 1 := fun h => by
    rw [Int.floor_eq_iff]; push_cast
    exact ⟨not_lt.1 h, by linarith⟩
  have hiff : ⌊r⌋ = 0 ↔ ∃ m : ℤ, 0 ≤ slon - tlon - 2 * π * m ∧ slon - tlon - 2 * π * m < π := by
    rw [hz]
    constructor
    · intro h
      refine ⟨n, ?_, ?_⟩ <;> rw [hx]
      · have := mul_nonneg hp.le h0; linarith
      · have := mul_lt_mul_of_pos_left h hp; linarith
    · rintro ⟨m, hm0, hm1⟩
      have : r = (slon - tlon - 2 * π * m) / π := by
        rw [hr]
        refine pyMod_unique' _ m (by norm_num) (by positivity) ?_ (by field_simp; ring)
        rw [div_lt_iff₀ hp]; linarith
      rw [this, div_lt_one hp]; exact hm1
  refine ⟨?_, hiff, fun hs => ?_⟩
  · by_cases h : r < 1
    · exact Or.inl (hz.2 h)
    · exact Or.inr (ho h)
  · have hsin : sin (slon - tlon) = sin (π * r) := by
      rw [hx, show π * r + 2 * π * (n : ℝ) = π * r + n * (2 * π) by ring, sin_add_int_mul_two_pi]
    rw [hsin] at hs ⊢
    rw [hz]
    constructor
    · intro h
      rcases eq_or_lt_of_le h0 with hr0 | hr0
      · rw [← hr0] at hs; simp at hs
      · exact sin_pos_of_pos_of_lt_pi (by positivity) (by nlinarith)
    · intro h
      by_contra hc
      push Not at hc
      have : sin (π * r) ≤ 0 := by
        rw [show π * r = π * r - 2 * π + 2 * π by ring, sin_add_two_pi]
        apply sin_nonpos_of_nonpos_of_neg_pi_le <;> nlinarith
      linarith

/-- **C47.** West of the meridian: the hour angle, reduced to one turn, is in [0, π). -/
theorem C47_meridian (lst ra : ℝ) :
    westOfMeridianAt lst ra ↔ ∃ m : ℤ, 0 ≤ lst - ra - 2 * π * m ∧ lst - ra - 2 * π * m < π := by
  have hp := pi_pos
  unfold westOfMeridianAt
  have h0 := pyMod_nonneg' (lst - ra) tau_pos
  obtain ⟨n, hn⟩ := pyMod_eq_sub' (lst - ra) tau
  constructor
  · intro h
    refine ⟨n, ?_, ?_⟩
    · rw [hn] at h0; unfold tau at h0; exact h0
    · rw [hn] at h; unfold tau at h; exact h
  · rintro ⟨m, hm0, hm1⟩
    have : pyMod (lst - ra) tau = lst - ra - 2 * π * m := by
      refine pyMod_unique' _ m tau_pos hm0 (by unfold tau; linarith) (by unfold tau; ring)
    rw [this]; exact hm1

/-- **C47.** A body is up when the altitude of its center plus its radius exceeds the horizon. -/
theorem C47_body_up (horizon radius altitude : ℝ) : isBodyUpAt horizon radius altitude ↔ horizon < altitude + radius := by
  unfold isBodyUpAt
  simp only
  constructor <;> intro h <;> linarith

/-- **C47.** The Moon is above the ecliptic exactly when its ecliptic latitude is positive. -/
theorem C47_moon_node (v : Vec3) (hv : v ≠ 0) : moonNodeAt (toSpherical v).2.1 ↔ 0 < v.z := by
  unfold moonNodeAt toSpherical
  simp only [gt_iff_lt]
  have hh : 0 ≤ hypot v.x v.y := Real.sqrt_nonneg _
  have h1 : (0 ≤ arctan2 v.z (hypot v.x v.y)) ↔ 0 ≤ v.z := Complex.arg_nonneg_iff
  have h2 : arctan2 v.z (hypot v.x v.y) = 0 ↔ 0 ≤ hypot v.x v.y ∧ v.z = 0 := Complex.arg_eq_zero_iff
  constructor
  · intro h
    refine lt_of_le_of_ne (h1.1 h.le) fun e => ?_
    rw [h2.2 ⟨hh, e.symm⟩] at h
    exact lt_irrefl _ h
  · intro h
    refine lt_of_le_of_ne (h1.2 h.le) fun e => ?_
    exact h.ne' (h2.1 e.symm).2

/-! ### C48 -/

/-- **C48.** What every reported lunar eclipse satisfies. -/
theorem C48_classification (earthToSun moonToEarth : Vec3) (e : LunarEclipse)
    (h : lunarEclipse earthToSun moonToEarth = some e) :
    0 < e.penumbralMagnitude ∧ e.umbralMagnitude < e.penumbralMagnitude ∧ e.code ≤ 2 ∧
      (e.code = 0 ↔ e.umbralMagnitude ≤ 0) ∧ (1 ≤ e.code ↔ 0 < e.umbralMagnitude) ∧
      (e.code = 2 ↔ 1 < e.umbralMagnitude) ∧ 0 < e.moonRadius := by
  unfold lunarEclipse at h
  simp only at h
  by_cases h1 : earthToSun.length = 0 ∨ moonToEarth.length < 1737.1
  · rw [if_pos h1] at h; exact absurd h (by simp)
  rw [if_neg h1] at h
  push Not at h1
  obtain ⟨hs, hm⟩ := h1
  have hsl : 0 < earthToSun.length := lt_of_le_of_ne (Vec3.length_nonneg _) (Ne.symm hs)
  have hml : 0 < moonToEarth.length := lt_of_lt_of_le (by norm_num) hm
  have hmr : 0 < arcsin (1737.1 / moonToEarth.length) := arcsin_pos.2 (by positivity)
  have hss : 0 < (696340 : ℝ) / earthToSun.length := by positivity
  by_cases h2 : angleBetween earthToSun moonToEarth <
      1.01 * (earthRadiusKm / moonToEarth.length) + earthRadiusKm / earthToSun.length + 696340 / earthToSun.length +
        arcsin (1737.1 / moonToEarth.length)
  swap
  · rw [if_neg h2] at h; exact absurd h (by simp)
  rw [if_pos h2] at h
  injection h with h
  subst h
  simp only
  generalize arcsin (1737.1 / moonToEarth.length) = mr at *
  generalize angleBetween earthToSun moonToEarth = c at *
  generalize (696340 : ℝ) / earthToSun.length = ss at *
  generalize 1.01 * (earthRadiusKm / moonToEarth.length) + earthRadiusKm / earthToSun.length = k at *
  have htw : 0 < 2 * mr := by positivity
  have u0 : 0 < (k - ss + mr - c) / (2 * mr) ↔ c < k - ss + mr := by
    rw [div_pos_iff_of_pos_right htw, sub_pos]
  have u1 : 1 < (k - ss + mr - c) / (2 * mr) ↔ c < k - ss - mr := by
    rw [lt_div_iff₀ htw]; constructor <;> intro h <;> linarith
  refine ⟨div_pos (by linarith) htw, ?_, ?_, ?_, ?_, ?_, hmr⟩
  · exact (div_lt_div_iff_of_pos_right htw).2 (by linarith)
  · split_ifs <;> norm_num
  · rw [← not_lt, u0]; split_ifs with a b b <;> simp [a] <;> linarith
  · rw [u0]; split_ifs with a b b <;> simp [a] <;> linarith
  · rw [u1]; split_ifs with a b b <;> simp [b] <;> linarith

/-- **C48.** An eclipse is reported exactly when the Moon's disc touches the penumbra. -/
theorem C48_reported (earthToSun moonToEarth : Vec3) (hs : earthToSun ≠ 0) (hm : 1737.1 ≤ moonToEarth.length) :
    (lunarEclipse earthToSun moonToEarth).isSome ↔
      angleBetween earthToSun moonToEarth < 1.01 * (6378.1366 / moonToEarth.length) + 6378.1366 / earthToSun.length +
        696340 / earthToSun.length + arcsin (1737.1 / moonToEarth.length) := by
  unfold lunarEclipse earthRadiusKm
  simp only
  rw [if_neg (by push Not; exact ⟨(Vec3.length_pos hs).ne', hm⟩)]
  split_ifs with h <;> simp [h]

/-- A total eclipse: Sun, Earth and Moon in line at their mean distances. -/
example : ∃ e, lunarEclipse ⟨149597870, 0, 0⟩ ⟨384400, 0, 0⟩ = some e := by
  have h1 : (⟨149597870, 0, 0⟩ : Vec3).length = 149597870 := by
    rw [Vec3.length_eq]; simp only [Vec3.dot]; rw [show (149597870:ℝ) * 149597870 + 0 * 0 + 0 * 0 = 149597870 * 149597870 by ring]
    exact sqrt_mul_self (by norm_num)
  have h2 : (⟨384400, 0, 0⟩ : Vec3).length = 384400 := by
    rw [Vec3.length_eq]; simp only [Vec3.dot]; rw [show (384400:ℝ) * 384400 + 0 * 0 + 0 * 0 = 384400 * 384400 by ring]
    exact sqrt_mul_self (by norm_num)
  have hne1 : (⟨149597870, 0, 0⟩ : Vec3) ≠ 0 := fun h => by rw [h, Vec3.length_zero] at h1; norm_num at h1
  have hne2 : (⟨384400, 0, 0⟩ : Vec3) ≠ 0 := fun h => by rw [h, Vec3.length_zero] at h2; norm_num at h2
  have := (C48_reported ⟨149597870, 0, 0⟩ ⟨384400, 0, 0⟩ hne1 (by rw [h2]; norm_num)).2 (by
    have h0 : angleBetween ⟨149597870, 0, 0⟩ ⟨384400, 0, 0⟩ = 0 := by
      rw [(C37_extremes _ _ hne1 hne2).1, h1, h2]; ext <;> simp <;> norm_num
    rw [h0, h1, h2]
    have : 0 ≤ arcsin (1737.1 / 384400) := arcsin_nonneg.2 (by norm_num)
    have : (0:ℝ) < 1.01 * (6378.1366 / 384400) + 6378.1366 / 149597870 + 696340 / 149597870 := by norm_num
    linarith)
  exact Option.isSome_iff_exists.1 this

/-! ### C59 -/

/-- The altitude above the horizon of a body of declination `dec` at hour angle `ha`, seen from latitude `lat`: the angle between
the zenith direction (latitude `lat`, right ascension `lst`) and the body (declination `dec`, right ascension `lst - ha`)
is a quarter turn less that altitude. -/
def AltitudeIs (lat dec ha h : ℝ) : Prop :=
  ∀ lst : ℝ, (fromSpherical 1 lat lst).dot (fromSpherical 1 dec (lst - ha)) = sin h

theorem altitude_formula (lat dec ha lst : ℝ) :
    (fromSpherical 1 lat lst).dot (fromSpherical 1 dec (lst - ha)) = sin lat * sin dec + cos lat * cos dec * cos ha := by
  simp only [fromSpherical, Vec3.dot]
  rw [cos_sub, sin_sub]
  have := sin_sq_add_cos_sq lst
  linear_combination (cos lat * cos dec * cos ha) * this

/-- **C59.** Away from the poles, whenever the body reaches the horizon altitude at all during a turn of the sky, it stands
exactly at that altitude at the setting and at the rising hour angle. -/
theorem C59_hour_angle (lat dec h : ℝ) (hlat : |lat| < π / 2) (hdec : |dec| < π / 2) (hr : ∃ ha, AltitudeIs lat dec ha h) :
    ∃ s r, settingHourAngle lat dec h = some s ∧ risingHourAngle lat dec h = some r ∧ AltitudeIs lat dec s h ∧
      AltitudeIs lat dec r h ∧ 0 ≤ s ∧ s ≤ π ∧ r = -s := by
  have hcl : 0 < cos lat := cos_pos_of_mem_Ioo ⟨(abs_lt.1 hlat).1, (abs_lt.1 hlat).2⟩
  have hcd : 0 < cos dec := cos_pos_of_mem_Ioo ⟨(abs_lt.1 hdec).1, (abs_lt.1 hdec).2⟩
  have hden : 0 < cos lat * cos dec := mul_pos hcl hcd
  obtain ⟨ha, hha⟩ := hr
  have h1 := hha 0
  rw [altitude_formula] at h1
  have hq : (sin h - sin lat * sin dec) / (cos lat * cos dec) = cos ha := by
    rw [div_eq_iff hden.ne']; linarith
  have hs : settingHourAngle lat dec h = some (arccos (cos ha)) := by
    unfold settingHourAngle
    simp only
    rw [if_neg hden.ne', hq, max_eq_left (neg_one_le_cos ha), min_eq_left (cos_le_one ha)]
  have hc : cos (arccos (cos ha)) = cos ha := cos_arccos (neg_one_le_cos ha) (cos_le_one ha)
  refine ⟨_, _, hs, by rw [risingHourAngle, hs]; rfl, fun lst => ?_, fun lst => ?_, arccos_nonneg _, arccos_le_pi _, rfl⟩
  · rw [altitude_formula, hc]; exact h1
  · rw [altitude_formula, cos_neg, hc]; exact h1

/-- **C59.** At the setting hour angle the body is sinking and at the rising hour angle it is climbing. -/
theorem C59_direction (lat dec h s : ℝ) (hlat : |lat| < π / 2) (hdec : |dec| < π / 2) (hs : settingHourAngle lat dec h = some s) :
    (∃ d, d ≤ 0 ∧ HasDerivAt (fun ha => sin lat * sin dec + cos lat * cos dec * cos ha) d s) ∧
    (∃ d, 0 ≤ d ∧ HasDerivAt (fun ha => sin lat * sin dec + cos lat * cos dec * cos ha) d (-s)) := by
  have hcl : 0 < cos lat := cos_pos_of_mem_Ioo ⟨(abs_lt.1 hlat).1, (abs_lt.1 hlat).2⟩
  have hcd : 0 < cos dec := cos_pos_of_mem_Ioo ⟨(abs_lt.1 hdec).1, (abs_lt.1 hdec).2⟩
  have hden : 0 < cos lat * cos dec := mul_pos hcl hcd
  unfold settingHourAngle at hs
  simp only at hs
  rw [if_neg hden.ne'] at hs
  injection hs with hs
  have h0 : 0 ≤ s := by rw [← hs]; exact arccos_nonneg _
  have hp : s ≤ π := by rw [← hs]; exact arccos_le_pi _
  have hsin : 0 ≤ sin s := sin_nonneg_of_nonneg_of_le_pi h0 hp
  have hd : ∀ x, HasDerivAt (fun ha => sin lat * sin dec + cos lat * cos dec * cos ha) (cos lat * cos dec * -sin x) x :=
    fun x => ((hasDerivAt_cos x).const_mul _).const_add _
  refine ⟨⟨_, ?_, hd s⟩, ⟨_, ?_, hd (-s)⟩⟩
  · have := mul_nonneg hden.le hsin; linarith
  · rw [sin_neg, neg_neg]; exact mul_nonneg hden.le hsin

/-- **C59.** If the body stays below the horizon all day the answer is the upper transit (hour angle 0); if it stays above, the
lower transit (hour angle π). -/
theorem C59_never (lat dec h s : ℝ) (hlat : |lat| < π / 2) (hdec : |dec| < π / 2) (hs : settingHourAngle lat dec h = some s) :
    ((∀ ha, sin lat * sin dec + cos lat * cos dec * cos ha < sin h) → s = 0) ∧
    ((∀ ha, sin h < sin lat * sin dec + cos lat * cos dec * cos ha) → s = π) := by
  have hcl : 0 < cos lat := cos_pos_of_mem_Ioo ⟨(abs_lt.1 hlat).1, (abs_lt.1 hlat).2⟩
  have hcd : 0 < cos dec := cos_pos_of_mem_Ioo ⟨(abs_lt.1 hdec).1, (abs_lt.1 hdec).2⟩
  have hden : 0 < cos lat * cos dec := mul_pos hcl hcd
  unfold settingHourAngle at hs
  simp only at hs
  rw [if_neg hden.ne'] at hs
  injection hs with hs
  constructor
  · intro hb
    have h0 := hb 0
    rw [cos_zero] at h0
    have : 1 ≤ (sin h - sin lat * sin dec) / (cos lat * cos dec) := by
      rw [le_div_iff₀ hden]; linarith
    rw [← hs, max_eq_left (by linarith), min_eq_right this, arccos_one]
  · intro hb
    have h0 := hb π
    rw [cos_pi] at h0
    have : (sin h - sin lat * sin dec) / (cos lat * cos dec) ≤ -1 := by
      rw [div_le_iff₀ hden]; linarith
    rw [← hs, max_eq_right this, min_eq_left (by norm_num), arccos_neg_one]

/-- **C59.** The final interpolation: the answer is where the parabola with the given two heights and the given first velocity
crosses zero, and it crosses it upwards when the second height is at least the first, downwards otherwise. -/
theorem C59_intersection (y0 y1 v0 v1 x : ℝ) (hd : 0 ≤ v0 * v0 - 4 * (y1 - y0 - v0) * y0)
    (h : intersectionOf y0 y1 v0 v1 = some x) :
    y0 + v0 * x + (y1 - y0 - v0) * x ^ 2 = 0 ∧
      (y0 ≤ y1 → 0 ≤ v0 + 2 * (y1 - y0 - v0) * x) ∧ (y1 < y0 → v0 + 2 * (y1 - y0 - v0) * x ≤ 0) := by
  unfold intersectionOf quadraticRoot at h
  simp only at h
  rw [max_eq_left hd] at h
  set s : ℝ := 1 - 2 * (if y0 > y1 then 1 else 0) with hs
  have hs2 : s ^ 2 = 1 := by rw [hs]; split_ifs <;> norm_num
  have hD := sq_sqrt hd
  have hD0 := sqrt_nonneg (v0 * v0 - 4 * (y1 - y0 - v0) * y0)
  set D := √(v0 * v0 - 4 * (y1 - y0 - v0) * y0) with hDdef
  split_ifs at h with hne
  injection h with h
  have hx : x * (v0 + s * D) = -2 * y0 := by rw [← h]; field_simp
  set a := y1 - y0 - v0 with ha
  have hDD : (s * D) ^ 2 = v0 * v0 - 4 * a * y0 := by rw [mul_pow, hs2, one_mul, hD]
  have hslope : v0 + 2 * a * x = s * D := by
    have : (v0 + 2 * a * x) * (v0 + s * D) = s * D * (v0 + s * D) := by
      linear_combination 2 * a * hx - hDD
    exact mul_right_cancel₀ hne this
  refine ⟨?_, ?_, ?_⟩
  · have : (y0 + v0 * x + a * x ^ 2) * 2 = 0 := by
      linear_combination hx + x * hslope
    linarith
  · intro hy
    rw [hslope, hs, if_neg (not_lt.2 hy)]; linarith
  · intro hy
    rw [hslope, hs, if_pos hy]; linarith

/-- **C59.** Each event is found once: while the sky turns by less than a whole turn between two samples (`d` falls by less than
2π), the pair is kept exactly when the difference to the wanted hour angle passes a whole number of turns between the
samples, and the time proposed lies between them, at the point where straight-line interpolation reaches that number. -/
theorem C59_candidates (d0 d1 tt0 tt1 : ℝ) (hdec : d1 < d0) (hstep : d0 - d1 < 2 * π) :
    ((risingCandidate d0 d1 tt0 tt1).isSome ↔ ∃ m : ℤ, d1 < 2 * π * m ∧ 2 * π * m ≤ d0) ∧
    ∀ t, risingCandidate d0 d1 tt0 tt1 = some t → ∃ (m : ℤ) (w : ℝ), 0 ≤ w ∧ w < 1 ∧ t = tt0 + w * (tt1 - tt0) ∧
      d0 + w * (d1 - d0) = 2 * π * m := by
  have hp := pi_pos
  have a0 := pyMod_nonneg' d0 tau_pos
  have a1 := pyMod_lt' d0 tau_pos
  have b0 := pyMod_nonneg' d1 tau_pos
  have b1 := pyMod_lt' d1 tau_pos
  obtain ⟨n, hn⟩ := pyMod_eq_sub' d0 tau
  obtain ⟨n', hn'⟩ := pyMod_eq_sub' d1 tau
  have ht : tau = 2 * π := rfl
  set x := pyMod d0 tau with hx
  set y := pyMod d1 tau with hy
  rw [ht] at *
  have hcross : x < y ↔ n' = n - 1 := by
    constructor
    · intro h
      have h1 : (n' : ℝ) < n := by nlinarith
      have h2 : (n : ℝ) - 2 < n' := by nlinarith
      have h1' : n' < n := by exact_mod_cast h1
      have h2' : n - 2 < n' := by exact_mod_cast h2
      omega
    · intro h
      have : (n' : ℝ) = n - 1 := by rw [h]; push_cast; ring
      rw [hn, hn', this]; nlinarith
  unfold risingCandidate
  simp only
  rw [show tau = 2 * π from rfl, ← hx, ← hy]
  constructor
  · constructor
    · intro h
      split_ifs at h with hgt
      · have hnn := hcross.1 (by linarith)
        have : (n' : ℝ) = n - 1 := by rw [hnn]; push_cast; ring
        refine ⟨n, ?_, by linarith⟩
        rw [this] at hn'
        linarith
      · simp at h
    · rintro ⟨m, hm1, hm2⟩
      have hmn : m = n := by
        have h1 : (m : ℝ) < n + 1 := by nlinarith
        have h2 : (n : ℝ) - 1 < m := by nlinarith
        have h1' : m < n + 1 := by exact_mod_cast h1
        have h2' : n - 1 < m := by exact_mod_cast h2
        omega
      rw [hmn] at hm1
      have hnn : n' = n - 1 := by
        have h1 : (n' : ℝ) < n := by nlinarith
        have h2 : (n : ℝ) - 2 < n' := by nlinarith
        have h1' : n' < n := by exact_mod_cast h1
        have h2' : n - 2 < n' := by exact_mod_cast h2
        omega
      have := hcross.2 hnn
      rw [if_pos (by linarith)]; rfl
  · intro t h
    split_ifs at h with hgt
    injection h with h
    have hnn := hcross.1 (by linarith)
    have hc : (n' : ℝ) = n - 1 := by rw [hnn]; push_cast; ring
    rw [hc] at hn'
    have hsum : 0 < x + (2 * π - y) := by linarith
    have hd : x + (2 * π - y) = d0 - d1 := by rw [hn, hn']; ring
    refine ⟨n, x / (x + (2 * π - y)), by positivity, ?_, ?_, ?_⟩
    · rw [div_lt_one hsum]; linarith
    · rw [← h]; field_simp; ring
    · rw [hd]
      have : d0 - d1 ≠ 0 := by linarith
      field_simp
      linear_combination (d0 - d1) * (-hn)

/-- Latitudes, declinations and horizons that meet the hypotheses, and a pair of samples that does. -/
example : (∃ ha, AltitudeIs 0 0 ha 0) ∧ |(0:ℝ)| < π / 2 ∧ (-1:ℝ) < 1 ∧ (1:ℝ) - -1 < 2 * π := by
  refine ⟨⟨π / 2, fun lst => by rw [altitude_formula]; simp⟩, by simp [pi_pos], by norm_num, by linarith [pi_gt_three]⟩

end Skyfield
