import Verif.Props.FloatTime
import Verif.Props.TimeArith

/-
C81, continued: reading TT as one float, comparing, subtracting and adding times, calendar fields
and weekdays, all with the rounding of every operation.
-/
namespace Skyfield
open Spec

variable {fl : ℚ → ℚ}

/-- Rounding a number that is nearer than half a unit to a float gives that float. -/
theorem fl_unique (hf : RoundsToNearest fl) {x y : ℚ} {e : ℤ} (hx : 2 ^ e ≤ x) (hy : IsFloat y)
    (hy2 : 2 ^ e ≤ y) (h : |x - y| < 2 ^ (e - 53)) : fl x = y := by
  have p := zpow2_pos e
  have h1 := hf.nearest x y hy
  have h2 : 2 ^ e ≤ fl x := by
    refine le_fl hf hx ?_
    have := isFloat_of_le (m := 1) (e := e) (by norm_num)
    rwa [Int.cast_one, one_mul] at this
  obtain ⟨k, hk⟩ := float_multiple (hf.float x) (e := e) (by rw [abs_of_pos (by linarith)]; exact h2)
  obtain ⟨j, hj⟩ := float_multiple hy (e := e) (by rw [abs_of_pos (by linarith)]; exact hy2)
  have c0 := zpow2_pos (e - 52)
  have ec : (2:ℚ) ^ (e - 52) = 2 * 2 ^ (e - 53) := by
    rw [show e - 52 = (e - 53) + 1 by ring, zpow_add_one₀ (by norm_num)]; ring
  have h3 : |fl x - y| < 2 ^ (e - 52) := by
    have : |fl x - y| ≤ |fl x - x| + |x - y| := abs_sub_le _ _ _
    rw [abs_sub_comm y x] at h1
    rw [ec]; linarith
  rw [hk, hj, ← sub_mul, abs_mul, abs_of_pos c0] at h3
  have h4 : |(k:ℚ) - j| < 1 := by
    by_contra hc; push Not at hc
    have := mul_le_mul_of_nonneg_right hc c0.le
    linarith
  have h5 : |k - j| < 1 := by exact_mod_cast h4
  have : k = j := by
    have := Int.abs_lt_one_iff.1 h5
    omega
  rw [hk, hj, this]

/-- C81 (one float).  `t.tt` is within 2⁻³² of a day (about 20 microseconds) of the stored TT, for
every date before Julian date 4194304 (the year 6770) — and no better can be said, see
`C81_collapse`. -/
theorem C81_tt_attribute (hf : RoundsToNearest fl) (t : Time ℚ) (h : |t.tt| ≤ 2 ^ 22) :
    |t.ttF fl - t.tt| ≤ 1 / 2 ^ 32 ∧ |t.ttF fl - t.tt| * 86400 ≤ 21 / 10 ^ 6 := by
  have h1 : |t.ttF fl - t.tt| ≤ 1 / 2 ^ 32 := by
    have := fl_near hf (x := t.tt) (e := 21) (by norm_num at h ⊢; exact h)
    have e : (2:ℚ) ^ ((21:ℤ) - 53) = 1 / 2 ^ 32 := by norm_num
    rwa [e] at this
  refine ⟨h1, ?_⟩
  norm_num at h1 ⊢
  linarith

example : |({ ts := exampleTs, whole := 2451545, ttFraction := 1/3 } : Time ℚ).tt| ≤ 2 ^ 22 := by
  norm_num [Time.tt, abs_le]

/-- C81 (why comparisons do not use `t.tt`).  Two times ten microseconds apart can have the same
`t.tt`, hence the same hash; but `==` tells them apart, `<` orders them, and `-` gives their exact
difference.  So two times may share a hash without being equal — never the other way round. -/
theorem C81_collapse (hf : RoundsToNearest fl) (ts : Timescale ℚ) {H : Type*} (hash : ℚ → H) :
    ∃ t t' : Time ℚ, t.ts = ts ∧ t'.ts = ts ∧ t.ttF fl = t'.ttF fl ∧
      t.hashF fl hash = t'.hashF fl hash ∧ t.eqF fl t' = false ∧ t.ltF fl t' = true ∧
      t'.diffF fl t = 1 / 2 ^ 33 := by
  have e1 : fl ((2451545:ℚ) + 0) = 2451545 := by
    rw [add_zero]
    exact_mod_cast fl_int hf (n := 2451545) (by norm_num)
  have e2 : fl ((2451545:ℚ) + 1 / 2 ^ 33) = 2451545 :=
    fl_unique hf (e := 21) (by norm_num) (by exact_mod_cast isFloat_int (n := 2451545) (by norm_num))
      (by norm_num) (by norm_num [abs_lt])
  have e3 : fl (1 / 2 ^ 33) = 1 / 2 ^ 33 := by
    refine fl_exact hf ⟨1, -33, by norm_num, by norm_num⟩
  have e4 : fl (-(1 / 2 ^ 33)) = -(1 / 2 ^ 33) := by
    refine fl_exact hf ⟨-1, -33, by norm_num, by norm_num⟩
  refine ⟨{ ts := ts, whole := 2451545, ttFraction := 0 },
    { ts := ts, whole := 2451545, ttFraction := 1 / 2 ^ 33 }, rfl, rfl, ?_, ?_, ?_, ?_, ?_⟩
  · simp only [Time.ttF, e1, e2]
  · simp only [Time.hashF, Time.ttF, e1, e2]
  · simp only [Time.eqF, Time.diffF, sub_self, fl_zero hf, zero_sub, e4, zero_add]
    norm_num
  · simp only [Time.ltF, sub_self, fl_zero hf, zero_sub, e4, add_zero]
    norm_num
  · simp only [Time.diffF, sub_self, fl_zero hf, sub_zero, e3, zero_add]

/-- Differences of whole parts are exact. -/
theorem wholePart_sub (hf : RoundsToNearest fl) {w w' : ℚ} (h : WholePart w) (h' : WholePart w') :
    IsFloat (w - w') := by
  obtain ⟨n, h1, rfl⟩ := h
  obtain ⟨n', h1', rfl⟩ := h'
  rw [← sub_div, ← Int.cast_sub]
  have a := abs_le.1 h1
  have b := abs_le.1 h1'
  exact isFloat_half (abs_le.2 ⟨by omega, by omega⟩)

/-- C81 (order).  `t1 < t2` never lies: if it is true, then the first stored time is before the
second.  It can only miss: if the first is before the second by more than 2⁻⁵³ of the difference
of the fractions (4·10⁻¹¹ seconds when both fractions are within two days), it is true. -/
theorem C81_less_than (hf : RoundsToNearest fl) (t t' : Time ℚ) (hw : WholePart t.whole)
    (hw' : WholePart t'.whole) :
    (t.ltF fl t' = true → t.tt < t'.tt) ∧
    (t.tt < t'.tt - |t.ttFraction - t'.ttFraction| / 2 ^ 53 → t.ltF fl t' = true) := by
  have e := fl_exact hf (wholePart_sub hf hw hw')
  unfold Time.ltF Time.tt
  rw [e, decide_eq_true_iff, fl_neg_iff hf]
  constructor
  · intro h
    by_contra hc
    push Not at hc
    have h1 : -(t.whole - t'.whole) ≤ t.ttFraction - t'.ttFraction := by linarith
    have := le_fl hf h1 (isFloat_neg (wholePart_sub hf hw hw'))
    linarith
  · intro h
    have := abs_le.1 (fl_rel hf (t.ttFraction - t'.ttFraction))
    linarith [this.2]

/-- C81 (equality).  Equal stored times always compare equal, however they are split into whole and
fraction; and times that compare equal differ by at most 2⁻⁵³ of the difference of the fractions. -/
theorem C81_equal (hf : RoundsToNearest fl) (t t' : Time ℚ) (hw : WholePart t.whole)
    (hw' : WholePart t'.whole) :
    (t.tt = t'.tt → t.eqF fl t' = true) ∧
    (t.eqF fl t' = true → |t.tt - t'.tt| ≤ |t.ttFraction - t'.ttFraction| / 2 ^ 53) := by
  have hq := wholePart_sub hf hw hw'
  have e := fl_exact hf hq
  unfold Time.eqF Time.diffF Time.tt
  rw [e, decide_eq_true_iff, fl_eq_zero_iff hf]
  constructor
  · intro h
    have h1 : t.ttFraction - t'.ttFraction = -(t.whole - t'.whole) := by linarith
    rw [h1, fl_exact hf (isFloat_neg hq)]
    ring
  · intro h
    have := fl_rel hf (t.ttFraction - t'.ttFraction)
    have h1 : t.whole + t.ttFraction - (t'.whole + t'.ttFraction)
        = -(fl (t.ttFraction - t'.ttFraction) - (t.ttFraction - t'.ttFraction)) := by linarith
    rw [h1, abs_neg]
    exact this

/-- C81 (trichotomy).  When rounding is symmetric about zero, as in IEEE arithmetic, exactly one of
`t1 < t2`, `t1 == t2` and `t2 < t1` holds of any two times — rounding included. -/
theorem C81_trichotomy (hf : RoundsToNearest fl) (hs : ∀ x, fl (-x) = -fl x) (t t' : Time ℚ)  :
    (t.ltF fl t' = true ∧ t.eqF fl t' = false ∧ t'.ltF fl t = false) ∨
    (t.ltF fl t' = false ∧ t.eqF fl t' = true ∧ t'.ltF fl t = false) ∨
    (t.ltF fl t' = false ∧ t.eqF fl t' = false ∧ t'.ltF fl t = true) := by
  have e1 : fl (t'.ttFraction - t.ttFraction) = -fl (t.ttFraction - t'.ttFraction) := by
    rw [← hs]; congr 1; ring
  have e2 : fl (t'.whole - t.whole) = -fl (t.whole - t'.whole) := by
    rw [← hs]; congr 1; ring
  unfold Time.ltF Time.eqF Time.diffF
  simp only [e1, e2, decide_eq_true_iff, decide_eq_false_iff_not, fl_neg_iff hf, fl_eq_zero_iff hf]
  generalize fl (t.ttFraction - t'.ttFraction) = a
  generalize fl (t.whole - t'.whole) = b
  rcases lt_trichotomy (a + b) 0 with h | h | h
  · left; exact ⟨h, fun h2 => by linarith, fun h2 => by linarith⟩
  · right; left; exact ⟨fun h2 => by linarith, by linarith, fun h2 => by linarith⟩
  · right; right; exact ⟨fun h2 => by linarith, fun h2 => by linarith, by linarith⟩

/-- C81 (subtraction).  `t1 - t2` is within 2⁻⁵³ × (the difference + 5) days of the exact
difference when the fractions are within two days: 6·10⁻¹¹ seconds for times within a day of each
other, not the 20 microseconds that subtracting two `t.tt` would cost. -/
theorem C81_difference (hf : RoundsToNearest fl) (t t' : Time ℚ) (hw : WholePart t.whole)
    (hw' : WholePart t'.whole) (h2 : |t.ttFraction| ≤ 2) (h2' : |t'.ttFraction| ≤ 2) :
    |t.diffF fl t' - (t.tt - t'.tt)| ≤ (|t.tt - t'.tt| + 5) / 2 ^ 53 := by
  have hq := wholePart_sub hf hw hw'
  have e := fl_exact hf hq
  unfold Time.diffF Time.tt
  rw [e]
  have a := abs_le.1 h2
  have b := abs_le.1 h2'
  have h3 := fl_err hf (x := t.ttFraction - t'.ttFraction) (B := 4)
    (abs_le.2 ⟨by linarith, by linarith⟩)
  generalize fl (t.ttFraction - t'.ttFraction) = F at *
  have h4 := fl_rel hf (t.whole - t'.whole + F)
  generalize fl (t.whole - t'.whole + F) = G at *
  have e1 : t.whole - t'.whole + F = (t.whole + t.ttFraction - (t'.whole + t'.ttFraction))
      + (F - (t.ttFraction - t'.ttFraction)) := by ring
  rw [e1] at h4
  generalize t.whole + t.ttFraction - (t'.whole + t'.ttFraction) = X at *
  generalize F - (t.ttFraction - t'.ttFraction) = Y at *
  have h5 : |X + Y| ≤ |X| + 4 / 2 ^ 53 := (abs_add_le X Y).trans (by linarith)
  have h6 : |G - X| ≤ |G - (X + Y)| + |Y| := by
    have : G - X = (G - (X + Y)) + Y := by ring
    rw [this]; exact abs_add_le _ _
  have h7 : |X + Y| / 2 ^ 53 ≤ (|X| + 4 / 2 ^ 53) / 2 ^ 53 := by gcongr
  norm_num at h3 h4 h7 ⊢
  linarith

/-- C81 (addition of days).  `t + x` is within 2⁻⁵¹ days (4·10⁻¹¹ seconds) of the stored time plus
`x`, for every shift of up to 10⁹ days. -/
theorem C81_add_days (hf : RoundsToNearest fl) (t : Time ℚ) {n : ℤ} (hn : |n| ≤ 3 * 10 ^ 9)
    (hw : t.whole = n / 2) (h2 : |t.ttFraction| ≤ 2) {x : ℚ} (hx : |x| ≤ 10 ^ 9) :
    |(t.addNumF fl x).tt - (t.tt + x)| ≤ 4 / 2 ^ 53 := by
  have a := abs_le.1 h2
  have b := abs_le.1 hx
  have c := abs_le.1 hn
  have f0 := Int.floor_le x
  have f1 := Int.lt_floor_add_one x
  have g0 : -(10 ^ 9) - 1 ≤ ⌊x⌋ := by
    have : (-(10 ^ 9) - 2 : ℚ) < ⌊x⌋ := by linarith [b.1]
    have : ((-(10 ^ 9) - 2 : ℤ) : ℚ) < ⌊x⌋ := by push_cast; linarith
    have := Int.cast_lt.1 this
    omega
  have g1 : ⌊x⌋ ≤ 10 ^ 9 := by
    have : ((⌊x⌋ : ℤ) : ℚ) ≤ ((10 ^ 9 : ℤ) : ℚ) := by push_cast; linarith [b.2]
    exact_mod_cast this
  have e1 : fl (t.whole + ((⌊x⌋ : ℤ) : ℚ)) = t.whole + ((⌊x⌋ : ℤ) : ℚ) := by
    have : t.whole + ((⌊x⌋ : ℤ) : ℚ) = ((n + 2 * ⌊x⌋ : ℤ) : ℚ) / 2 := by rw [hw]; push_cast; ring
    rw [this]
    exact fl_exact hf (isFloat_half (abs_le.2 ⟨by omega, by omega⟩))
  unfold Time.addNumF Time.tt
  simp only [divmodF_one, e1]
  have h3 := fl_err hf (x := x - ⌊x⌋) (B := 1) (abs_le.2 ⟨by linarith, by linarith⟩)
  have u0 : 0 ≤ fl (x - ⌊x⌋) := fl_nonneg hf (by linarith)
  have u1 : fl (x - ⌊x⌋) ≤ 1 :=
    fl_le hf (by linarith) (by exact_mod_cast isFloat_int (n := 1) (by norm_num))
  generalize fl (x - ⌊x⌋) = F at *
  have h4 := fl_err hf (x := t.ttFraction + F) (B := 3) (abs_le.2 ⟨by linarith, by linarith⟩)
  generalize fl (t.ttFraction + F) = G at *
  generalize ((⌊x⌋ : ℤ) : ℚ) = Q at *
  rw [abs_le] at h3 h4 ⊢
  norm_num at h3 h4 ⊢
  constructor
  · linarith [h3.1, h3.2, h4.1, h4.2]
  · linarith [h3.1, h3.2, h4.1, h4.2]

/-- C81 (addition of a `timedelta`).  `t + timedelta(…)` is within 10⁻¹⁵ days (10⁻¹⁰ seconds) of the
stored time plus the days, seconds and microseconds. -/
theorem C81_add_timedelta (hf : RoundsToNearest fl) (t : Time ℚ) {n : ℤ} (hn : |n| ≤ 3 * 10 ^ 9)
    (hw : t.whole = n / 2) (h2 : |t.ttFraction| ≤ 2) (d : TimeDelta) (hd : |d.days| ≤ 10 ^ 9)
    (hs : 0 ≤ d.seconds ∧ d.seconds < 86400) (hu : 0 ≤ d.microseconds ∧ d.microseconds < 10 ^ 6) :
    |(t.addDeltaF fl d).tt
      - (t.tt + d.days + d.seconds / 86400 + d.microseconds / 86400000000)| ≤ 1 / 10 ^ 15 := by
  have a := abs_le.1 h2
  have b := abs_le.1 hd
  have c := abs_le.1 hn
  have e1 : fl (t.whole + (d.days : ℚ)) = t.whole + (d.days : ℚ) := by
    have : t.whole + (d.days : ℚ) = ((n + 2 * d.days : ℤ) : ℚ) / 2 := by rw [hw]; push_cast; ring
    rw [this]
    exact fl_exact hf (isFloat_half (abs_le.2 ⟨by omega, by omega⟩))
  unfold Time.addDeltaF Time.tt
  simp only [e1]
  have s0 : (0:ℚ) ≤ d.seconds := by exact_mod_cast hs.1
  have s1 : (d.seconds:ℚ) ≤ 86400 := by exact_mod_cast hs.2.le
  have m0 : (0:ℚ) ≤ d.microseconds := by exact_mod_cast hu.1
  have m1 : (d.microseconds:ℚ) ≤ 10 ^ 6 := by exact_mod_cast hu.2.le
  have one : IsFloat (1:ℚ) := by exact_mod_cast isFloat_int (n := 1) (by norm_num)
  have p0 : 0 ≤ (d.seconds:ℚ) / 86400 := by positivity
  have p1 : (d.seconds:ℚ) / 86400 ≤ 1 := by rw [div_le_one (by norm_num)]; exact s1
  have q0 : 0 ≤ (d.microseconds:ℚ) / 86400000000 := by positivity
  have q1 : (d.microseconds:ℚ) / 86400000000 ≤ 1 := by
    rw [div_le_one (by norm_num)]; norm_num at m1 ⊢; linarith
  generalize (d.seconds:ℚ) / 86400 = P at *
  generalize (d.microseconds:ℚ) / 86400000000 = Q at *
  have h3 := fl_err hf (x := P) (B := 1) (abs_le.2 ⟨by linarith, by linarith⟩)
  have h3a : 0 ≤ fl P := fl_nonneg hf p0
  have h3b : fl P ≤ 1 := fl_le hf p1 one
  have h4 := fl_err hf (x := Q) (B := 1) (abs_le.2 ⟨by linarith, by linarith⟩)
  have h4a : 0 ≤ fl Q := fl_nonneg hf q0
  have h4b : fl Q ≤ 1 := fl_le hf q1 one
  generalize fl P = P' at *
  generalize fl Q = Q' at *
  have h5 := fl_err hf (x := P' + Q') (B := 2) (abs_le.2 ⟨by linarith, by linarith⟩)
  have h5a : 0 ≤ fl (P' + Q') := fl_nonneg hf (by linarith)
  have h5b : fl (P' + Q') ≤ 2 :=
    fl_le hf (by linarith) (by exact_mod_cast isFloat_int (n := 2) (by norm_num))
  generalize fl (P' + Q') = R at *
  have h6 := fl_err hf (x := t.ttFraction + R) (B := 4) (abs_le.2 ⟨by linarith, by linarith⟩)
  generalize fl (t.ttFraction + R) = S at *
  rw [abs_le] at h3 h4 h5 h6 ⊢
  norm_num at h3 h4 h5 h6 ⊢
  constructor
  · linarith [h3.1, h3.2, h4.1, h4.2, h5.1, h5.2, h6.1, h6.2]
  · linarith [h3.1, h3.2, h4.1, h4.2, h5.1, h5.2, h6.1, h6.2]

/-- A float below one is at most 1 − 2⁻⁵³. -/
theorem float_lt_one {y : ℚ} (h : IsFloat y) (h1 : y < 1) : y ≤ 1 - 1 / 2 ^ 53 := by
  rcases lt_or_ge y (1/2) with h2 | h2
  · norm_num; linarith
  · obtain ⟨k, hk⟩ := float_multiple h (e := -1) (by
      rw [abs_of_pos (by linarith)]; norm_num; linarith)
    have e : (2:ℚ) ^ ((-1:ℤ) - 52) = 1 / 2 ^ 53 := by norm_num
    rw [e] at hk
    rw [hk] at h1 ⊢
    have : (k:ℚ) < 2 ^ 53 := by
      have := mul_lt_mul_of_pos_right h1 (show (0:ℚ) < 2 ^ 53 by norm_num)
      norm_num at this ⊢; linarith
    have : k < 2 ^ 53 := by exact_mod_cast this
    have : (k:ℚ) ≤ 2 ^ 53 - 1 := by exact_mod_cast (by omega : k ≤ 2 ^ 53 - 1)
    norm_num at this ⊢
    linarith

/-- The fraction of a day in `calendar_tuple` never rounds up to a whole day. -/
theorem calendar_fraction (hf : RoundsToNearest fl) {s : ℚ} (hs : IsFloat s) :
    IsFloat (fl (s + 1/2) - ⌊fl (s + 1/2)⌋) := by
  have hx : IsFloat (fl (s + 1/2)) := hf.float _
  rcases le_or_gt 0 (fl (s + 1/2)) with h0 | h0
  · exact isFloat_fract hx h0
  · have hneg : s + 1/2 < 0 := (fl_neg_iff hf).1 h0
    obtain ⟨k, hk⟩ := float_multiple hs (e := -1) (by
      rw [abs_of_neg (by linarith)]; norm_num; linarith)
    have e : (2:ℚ) ^ ((-1:ℤ) - 52) = 1 / 2 ^ 53 := by norm_num
    rw [e] at hk
    have mult : ∃ j : ℤ, fl (s + 1/2) = j * (1 / 2 ^ 53) := by
      rcases le_or_gt (-1) (s + 1/2) with h1 | h1
      · refine ⟨k + 2 ^ 52, ?_⟩
        have e2 : s + 1/2 = ((k + 2 ^ 52 : ℤ) : ℚ) * (1 / 2 ^ 53) := by
          rw [hk]; push_cast; norm_num; ring
        rw [← e2]
        refine fl_exact hf ?_
        have e3 : s + 1/2 = ((k + 2 ^ 52 : ℤ) : ℚ) * 2 ^ (-53 : ℤ) := by
          rw [e2]; congr 1; norm_num
        rw [e3]
        refine isFloat_of_le ?_
        rw [e2] at h1 hneg
        rw [abs_le]
        constructor
        · have : (-2 ^ 53 : ℚ) ≤ ((k + 2 ^ 52 : ℤ) : ℚ) := by
            have := mul_le_mul_of_nonneg_right h1 (show (0:ℚ) ≤ 2 ^ 53 by norm_num)
            norm_num at this ⊢; linarith
          exact_mod_cast this
        · have : ((k + 2 ^ 52 : ℤ) : ℚ) ≤ 2 ^ 53 := by
            by_contra hc; push Not at hc
            have : (0:ℚ) < ((k + 2 ^ 52 : ℤ) : ℚ) * (1 / 2 ^ 53) :=
              mul_pos (lt_trans (by norm_num) hc) (by norm_num)
            linarith
          exact_mod_cast this
      · have h2 : fl (s + 1/2) ≤ -1 := by
          have := fl_le hf (x := s + 1/2) (y := ((-1 : ℤ) : ℚ)) (by push_cast; linarith)
            (isFloat_int (by norm_num))
          exact_mod_cast this
        obtain ⟨j, hj⟩ := float_multiple hx (e := 0) (by
          rw [abs_of_neg h0]; norm_num; linarith)
        refine ⟨2 * j, ?_⟩
        rw [hj]
        push_cast
        norm_num
        ring
    obtain ⟨j, hj⟩ := mult
    have hfl : ⌊fl (s + 1/2)⌋ = j / ((2 ^ 53 : ℕ) : ℤ) := by
      have : fl (s + 1/2) = (j:ℚ) / ((2 ^ 53 : ℕ) : ℚ) := by rw [hj]; push_cast; ring
      rw [this]; exact Rat.floor_intCast_div_natCast j (2 ^ 53)
    refine ⟨j % ((2 ^ 53 : ℕ) : ℤ), -53, ?_, ?_⟩
    · have b1 := Int.emod_nonneg j (show (((2 ^ 53 : ℕ) : ℤ)) ≠ 0 by norm_num)
      have b2 := Int.emod_lt_of_pos j (show (0:ℤ) < ((2 ^ 53 : ℕ) : ℤ) by norm_num)
      rw [abs_of_nonneg b1]
      exact_mod_cast b2
    · rw [hfl, hj, Int.emod_def]
      push_cast
      norm_num
      ring

/-- C81 (calendar fields).  With rounding, the TT, TAI, TDB and UT1 calendar fields of a time are
still a civil date with an hour from 0 to 23, a minute from 0 to 59 and a second of at least 0 and
**below** 60, and they denote a time within 10⁻¹⁰ seconds of the stored one. -/
theorem C81_calendar (hf : RoundsToNearest fl) {n : ℤ} (hn : |n| ≤ 3 * 10 ^ 9) {f : ℚ}
    (h2 : |f| ≤ 2) (o : Option ℤ) :
    ∃ D : ℤ, (calendarTupleF fl ((n:ℚ) / 2) f o).2 = D ∧
      let c := (calendarTupleF fl ((n:ℚ) / 2) f o).1
      CivilDate o c.year c.month c.day D ∧
      0 ≤ c.hour ∧ c.hour ≤ 23 ∧ 0 ≤ c.minute ∧ c.minute ≤ 59 ∧ 0 ≤ c.second ∧ c.second < 60 ∧
      |(D * 86400 - 43200 + 3600 * c.hour + 60 * c.minute + c.second)
        - ((n:ℚ) / 2 + f) * 86400| ≤ 1 / 10 ^ 10 := by
  have c := abs_le.1 hn
  have a := abs_le.1 h2
  have hfl : ⌊(n:ℚ) / 2⌋ = n / 2 := by exact_mod_cast Rat.floor_intCast_div_natCast n 2
  have hfr : (n:ℚ) / 2 - ((n / 2 : ℤ) : ℚ) = ((n % 2 : ℤ) : ℚ) / 2 := by
    rw [Int.emod_def]; push_cast; ring
  have e1 : fl (((n % 2 : ℤ) : ℚ) / 2) = ((n % 2 : ℤ) : ℚ) / 2 :=
    fl_exact hf (isFloat_half (abs_le.2 ⟨by omega, by omega⟩))
  have t0 : (0:ℚ) ≤ ((n % 2 : ℤ) : ℚ) := by exact_mod_cast (by omega)
  have t1 : ((n % 2 : ℤ) : ℚ) ≤ 1 := by exact_mod_cast (by omega)
  have hnd : (n:ℚ) / 2 = ((n / 2 : ℤ) : ℚ) + ((n % 2 : ℤ) : ℚ) / 2 := by rw [← hfr]; ring
  have E1 := fl_err hf (x := ((n % 2 : ℤ) : ℚ) / 2 + f) (B := 3)
    (abs_le.2 ⟨by linarith, by linarith⟩)
  have sf : IsFloat (fl (((n % 2 : ℤ) : ℚ) / 2 + f)) := hf.float _
  have E1' := abs_le.1 E1
  generalize hS : fl (((n % 2 : ℤ) : ℚ) / 2 + f) = S at *
  have s0 : -3 ≤ S := by norm_num at E1'; linarith [E1'.1]
  have s1 : S ≤ 3 := by norm_num at E1'; linarith [E1'.2]
  have E2 := fl_err hf (x := S + 1/2) (B := 4) (abs_le.2 ⟨by linarith, by linarith⟩)
  have xf := calendar_fraction hf sf
  have x0 : -4 ≤ fl (S + 1/2) := by
    have := le_fl hf (x := S + 1/2) (y := ((-4 : ℤ) : ℚ)) (by push_cast; linarith)
      (isFloat_int (by norm_num))
    exact_mod_cast this
  have x1 : fl (S + 1/2) ≤ 4 := by
    have := fl_le hf (x := S + 1/2) (y := ((4 : ℤ) : ℚ)) (by push_cast; linarith)
      (isFloat_int (by norm_num))
    exact_mod_cast this
  generalize hX : fl (S + 1/2) = X at *
  have f0 := Int.floor_le X
  have f1 := Int.lt_floor_add_one X
  have g0 : -4 ≤ ⌊X⌋ := by
    have := Int.floor_le_floor x0
    have e : ⌊(-4:ℚ)⌋ = -4 := by norm_num
    omega
  have g1 : ⌊X⌋ ≤ 4 := by
    have := Int.floor_le_floor x1
    have e : ⌊(4:ℚ)⌋ = 4 := by norm_num
    omega
  have e2 : fl (((n / 2 : ℤ) : ℚ) + ((⌊X⌋ : ℤ) : ℚ)) = ((n / 2 + ⌊X⌋ : ℤ) : ℚ) := by
    rw [← Int.cast_add]
    exact fl_int hf (abs_le.2 ⟨by omega, by omega⟩)
  have q0 : 0 ≤ X - ⌊X⌋ := by linarith
  have q1 := float_lt_one xf (by linarith)
  have E3 := fl_err hf (x := (X - ⌊X⌋) * 86400) (B := 86400)
    (abs_le.2 ⟨by nlinarith, by nlinarith⟩)
  have z0 : 0 ≤ fl ((X - ⌊X⌋) * 86400) := fl_nonneg hf (by positivity)
  have z1 : fl ((X - ⌊X⌋) * 86400) < 86400 := by
    have yf : IsFloat (86400 - 1 / 2 ^ 36 : ℚ) :=
      ⟨86400 * 2 ^ 36 - 1, -36, by norm_num, by norm_num⟩
    have mono := fl_mono hf (x := (X - ⌊X⌋) * 86400) (y := (1 - 1 / 2 ^ 53) * 86400) (by nlinarith)
    refine lt_of_le_of_lt mono ?_
    by_contra hc
    push Not at hc
    have := hf.nearest ((1 - 1 / 2 ^ 53) * 86400) _ yf
    have k1 := (abs_le.1 this).2
    have k2 : |(86400 - 1 / 2 ^ 36 : ℚ) - (1 - 1 / 2 ^ 53) * 86400| ≤ 5 / 10 ^ 12 := by
      norm_num [abs_le]
    norm_num at k1 k2 hc
    linarith
  have zf : IsFloat (fl ((X - ⌊X⌋) * 86400)) := hf.float _
  generalize hZ : fl ((X - ⌊X⌋) * 86400) = Z at *
  have e3 : divmodF fl Z 60 = (((⌊Z / 60⌋ : ℤ) : ℚ), Z - 60 * ((⌊Z / 60⌋ : ℤ) : ℚ)) := by
    unfold divmodF
    have := isFloat_fmod zf z0 (b := 60) (by norm_num) (by norm_num)
    push_cast at this
    rw [fl_exact hf this]
  have m0 := Int.floor_le (Z / 60)
  have m1 := Int.lt_floor_add_one (Z / 60)
  have i0 : 0 ≤ ⌊Z / 60⌋ := Int.floor_nonneg.2 (by positivity)
  have i1 : ⌊Z / 60⌋ < 1440 := by
    have : ((⌊Z / 60⌋ : ℤ) : ℚ) < ((1440 : ℤ) : ℚ) := by push_cast; linarith
    exact_mod_cast this
  have e4 : calendarTupleF fl ((n:ℚ) / 2) f o =
      (⟨(computeCalendarDate (n / 2 + ⌊X⌋) o).year, (computeCalendarDate (n / 2 + ⌊X⌋) o).month,
        (computeCalendarDate (n / 2 + ⌊X⌋) o).day, ⌊Z / 60⌋ / 60, ⌊Z / 60⌋ % 60,
        Z - 60 * ((⌊Z / 60⌋ : ℤ) : ℚ)⟩, n / 2 + ⌊X⌋) := by
    unfold calendarTupleF
    simp only [divmodF_one, hfl, hfr, e1, hS, hX, e2, fl_exact hf xf, hZ, e3, astypeInt_intCast]
  refine ⟨n / 2 + ⌊X⌋, by rw [e4], ?_⟩
  rw [e4]
  simp only
  refine ⟨(C03_reads_civil_date _ _ _ _ _).1 rfl, by omega, by omega, by omega, by omega,
    by linarith, by linarith, ?_⟩
  have hm : ((⌊Z / 60⌋ : ℤ) : ℚ) = 60 * ((⌊Z / 60⌋ / 60 : ℤ) : ℚ) + ((⌊Z / 60⌋ % 60 : ℤ) : ℚ) := by
    exact_mod_cast (Int.mul_ediv_add_emod ⌊Z / 60⌋ 60).symm
  rw [hnd]
  push_cast
  generalize ((⌊Z / 60⌋ / 60 : ℤ) : ℚ) = H at *
  generalize ((⌊Z / 60⌋ % 60 : ℤ) : ℚ) = I at *
  generalize ((⌊Z / 60⌋ : ℤ) : ℚ) = J at *
  generalize ((n / 2 : ℤ) : ℚ) = W at *
  generalize ((n % 2 : ℤ) : ℚ) = W' at *
  generalize ((⌊X⌋ : ℤ) : ℚ) = Q at *
  rw [abs_le] at E1 E2 E3 ⊢
  norm_num at E1 E2 E3 ⊢
  constructor
  · linarith [E1.1, E1.2, E2.1, E2.2, E3.1, E3.2]
  · linarith [E1.1, E1.2, E2.1, E2.2, E3.1, E3.2]

/-- C81 (weekday).  The weekday in `tt_strftime` and its siblings is the weekday of the date that
it prints, for Julian dates from 0 to 4194303 — as long as the time is not in the last 2⁻³¹ of a
day (the last 40 microseconds).  `g` is the fraction with the format's rounding offset added. -/
theorem C81_weekday (hf : RoundsToNearest fl) (ts : Timescale ℚ) (u : StrftimeUnit) {n : ℤ}
    (hn : |n| ≤ 3 * 10 ^ 9) {f g x : ℚ} (hg : g = fl (f + fl (u.offsetF fl / 86400)))
    (h2 : |g| ≤ 2) (hx : x = (n:ℚ) / 2 + g + 1 / 2) (x0 : 0 ≤ x) (x1 : x ≤ 2 ^ 22 - 1)
    (hfr : x - ⌊x⌋ ≤ 1 - 1 / 2 ^ 31) :
    let r := ts.strftimeF fl u ((n:ℚ) / 2) f
    CivilDate ts.cutoff r.year r.month r.day ⌊x⌋ ∧ r.weekday = ⌊x⌋ % 7 := by
  have c := abs_le.1 hn
  have a := abs_le.1 h2
  have hfl : ⌊(n:ℚ) / 2⌋ = n / 2 := by exact_mod_cast Rat.floor_intCast_div_natCast n 2
  have hfr2 : (n:ℚ) / 2 - ((n / 2 : ℤ) : ℚ) = ((n % 2 : ℤ) : ℚ) / 2 := by
    rw [Int.emod_def]; push_cast; ring
  have e1 : fl (((n % 2 : ℤ) : ℚ) / 2) = ((n % 2 : ℤ) : ℚ) / 2 :=
    fl_exact hf (isFloat_half (abs_le.2 ⟨by omega, by omega⟩))
  have t0 : (0:ℚ) ≤ ((n % 2 : ℤ) : ℚ) := by exact_mod_cast (by omega)
  have t1 : ((n % 2 : ℤ) : ℚ) ≤ 1 := by exact_mod_cast (by omega)
  have hnd : (n:ℚ) / 2 = ((n / 2 : ℤ) : ℚ) + ((n % 2 : ℤ) : ℚ) / 2 := by rw [← hfr2]; ring
  have f0 := Int.floor_le x
  have f1 := Int.lt_floor_add_one x
  have g0 : 0 ≤ ⌊x⌋ := Int.floor_nonneg.2 x0
  have g1 : ⌊x⌋ ≤ 2 ^ 22 := by
    have : ((⌊x⌋ : ℤ) : ℚ) ≤ ((2 ^ 22 : ℤ) : ℚ) := by push_cast; norm_num at x1 ⊢; linarith
    exact_mod_cast this
  -- the date
  have dateD : ⌊fl (fl (((n % 2 : ℤ) : ℚ) / 2 + g) + 1/2)⌋ = ⌊x⌋ - n / 2 := by
    have k0 : ((2 * (⌊x⌋ - n / 2) - 1 : ℤ) : ℚ) / 2 ≤ ((n % 2 : ℤ) : ℚ) / 2 + g := by
      push_cast; linarith
    have l1 := le_fl hf k0 (isFloat_half (abs_le.2 ⟨by omega, by omega⟩))
    have E1 := fl_err hf (x := ((n % 2 : ℤ) : ℚ) / 2 + g) (B := 3)
      (abs_le.2 ⟨by linarith, by linarith⟩)
    have E1' := abs_le.1 E1
    generalize fl (((n % 2 : ℤ) : ℚ) / 2 + g) = S at *
    have s0 : -3 ≤ S := by norm_num at E1'; linarith [E1'.1]
    have s1 : S ≤ 3 := by norm_num at E1'; linarith [E1'.2]
    have E2 := fl_err hf (x := S + 1/2) (B := 4) (abs_le.2 ⟨by linarith, by linarith⟩)
    have E2' := abs_le.1 E2
    have l2 := le_fl hf (x := S + 1/2) (y := ((⌊x⌋ - n / 2 : ℤ) : ℚ))
      (by push_cast at l1 ⊢; linarith) (isFloat_int (abs_le.2 ⟨by omega, by omega⟩))
    rw [Int.floor_eq_iff]
    refine ⟨l2, ?_⟩
    push_cast at l2 ⊢
    generalize fl (S + 1/2) = X at *
    generalize ((⌊x⌋ : ℤ) : ℚ) = Q at *
    norm_num at E1' E2' hfr ⊢
    linarith [E1'.2, E2'.2]
  -- the weekday
  have dayW : astypeInt (fl (fl (g + 1/2) + (n:ℚ) / 2)) = ⌊x⌋ := by
    have k0 : ((2 * ⌊x⌋ - n : ℤ) : ℚ) / 2 ≤ g + 1/2 := by push_cast; linarith
    have l1 := le_fl hf k0 (isFloat_half (abs_le.2 ⟨by omega, by omega⟩))
    have E1 := abs_le.1 (fl_err hf (x := g + 1/2) (B := 3) (abs_le.2 ⟨by linarith, by linarith⟩))
    generalize fl (g + 1/2) = G at *
    have l2 := le_fl hf (x := G + (n:ℚ) / 2) (y := ((⌊x⌋ : ℤ) : ℚ)) (by push_cast at l1; linarith)
      (isFloat_int (abs_le.2 ⟨by omega, by omega⟩))
    have E2 := fl_near hf (x := G + (n:ℚ) / 2) (e := 21)
      (abs_le.2 ⟨by norm_num at E1 x1 ⊢; linarith [E1.1], by norm_num at E1 x1 ⊢; linarith [E1.2]⟩)
    have E2' := abs_le.1 E2
    generalize fl (G + (n:ℚ) / 2) = Y at *
    have y0 : 0 ≤ Y := by
      have : (0:ℚ) ≤ ((⌊x⌋ : ℤ) : ℚ) := by exact_mod_cast g0
      linarith
    unfold astypeInt
    rw [if_pos y0, Int.floor_eq_iff]
    refine ⟨l2, ?_⟩
    generalize ((⌊x⌋ : ℤ) : ℚ) = Q at *
    norm_num at E1 E2' hfr ⊢
    linarith [E1.2, E2'.2]
  have e2 : fl (((n / 2 : ℤ) : ℚ) + ((⌊x⌋ - n / 2 : ℤ) : ℚ)) = ((⌊x⌋ : ℤ) : ℚ) := by
    rw [← Int.cast_add, show n / 2 + (⌊x⌋ - n / 2) = ⌊x⌋ by ring]
    exact fl_int hf (abs_le.2 ⟨by omega, by omega⟩)
  have e3 : (calendarTupleF fl ((n:ℚ) / 2) g ts.cutoff).1.year = (computeCalendarDate ⌊x⌋ ts.cutoff).year ∧
      (calendarTupleF fl ((n:ℚ) / 2) g ts.cutoff).1.month = (computeCalendarDate ⌊x⌋ ts.cutoff).month ∧
      (calendarTupleF fl ((n:ℚ) / 2) g ts.cutoff).1.day = (computeCalendarDate ⌊x⌋ ts.cutoff).day := by
    unfold calendarTupleF
    simp only [divmodF_one, hfl, hfr2, e1, dateD, e2, astypeInt_intCast, and_self]
  have main : ∀ y m d, y = (computeCalendarDate ⌊x⌋ ts.cutoff).year →
      m = (computeCalendarDate ⌊x⌋ ts.cutoff).month → d = (computeCalendarDate ⌊x⌋ ts.cutoff).day →
      CivilDate ts.cutoff y m d ⌊x⌋ := by
    rintro y m d rfl rfl rfl
    exact (C03_reads_civil_date _ _ _ _ _).1 rfl
  unfold Timescale.strftimeF
  simp only [← hg, dayW]
  split
  · exact ⟨main _ _ _ e3.1 e3.2.1 e3.2.2, rfl⟩
  · exact ⟨main _ _ _ e3.1 e3.2.1 e3.2.2, rfl⟩

/-- The hypotheses of `C81_weekday` hold at noon of 2000 January 1 with the format's offset zero. -/
example (hf : RoundsToNearest fl) : (0:ℚ) = fl (0 + fl (StrftimeUnit.other.offsetF fl / 86400)) ∧
    ((4903090 : ℤ) : ℚ) / 2 + 0 + 1/2 - ⌊((4903090 : ℤ) : ℚ) / 2 + 0 + 1/2⌋ ≤ 1 - 1 / 2 ^ 31 := by
  constructor
  · have : (StrftimeUnit.other.offsetF fl) = 0 := fl_zero hf
    rw [this, zero_div, fl_zero hf, add_zero, fl_zero hf]
  · have : ⌊((4903090 : ℤ) : ℚ) / 2 + 0 + 1/2⌋ = 2451545 := by rw [Int.floor_eq_iff]; norm_num
    rw [this]; norm_num

/-- C81 (finding: the weekday just before midnight).  2.5 microseconds before the end of 1999
December 31, `t.tt_strftime('%Y-%m-%d %a %j')` prints that date, but as a Saturday and as day 366 of
the year; it was a Friday and day 365.  The weekday and the day of the year come from the Julian
date added up in one float, which is already the next day; the date comes from the two parts.  Exact
arithmetic gives Friday, day 365. -/
theorem C81_weekday_wrong (hf : RoundsToNearest fl) (ts : Timescale ℚ) (hc : ts.cutoff = none) :
    ts.strftimeF fl .other 2451544 (1/2 - 1 / 2 ^ 35) = ⟨1999, 12, 31, 23, 59, 59, 0, 5, 366⟩ ∧
    ts.strftime .other 2451544 (1/2 - 1 / 2 ^ 35) = ⟨1999, 12, 31, 23, 59, 59, 0, 4, 365⟩ := by
  have fe : ∀ {x : ℚ} (m e : ℤ), |m| < 2 ^ 53 → x = m * 2 ^ e → fl x = x :=
    fun m e h1 h2 => fl_exact hf ⟨m, e, h1, h2⟩
  have z := fl_zero hf
  have a1 : fl (1/2 - 1 / 2 ^ 35 : ℚ) = 1/2 - 1 / 2 ^ 35 :=
    fe (2 ^ 34 - 1) (-35) (by norm_num) (by norm_num)
  have a2 : fl (1/2 - 1 / 2 ^ 35 + 1/2 : ℚ) = 1 - 1 / 2 ^ 35 := by
    rw [fe (2 ^ 35 - 1) (-35) (by norm_num) (by norm_num)]; norm_num
  have a3 : fl (1 - 1 / 2 ^ 35 : ℚ) = 1 - 1 / 2 ^ 35 :=
    fe (2 ^ 35 - 1) (-35) (by norm_num) (by norm_num)
  have a4 : fl ((1 - 1 / 2 ^ 35) * 86400 : ℚ) = (1 - 1 / 2 ^ 35) * 86400 :=
    fe (675 * (2 ^ 35 - 1)) (-28) (by norm_num) (by norm_num)
  have a5 : fl ((1 - 1 / 2 ^ 35 : ℚ) + 2451544) = 2451545 :=
    fl_unique hf (e := 21) (by norm_num) (by exact_mod_cast isFloat_int (n := 2451545) (by norm_num))
      (by norm_num) (by norm_num [abs_lt])
  have a6 : fl ((2451544 : ℚ) + (1/2 - 1 / 2 ^ 35)) = 2451544 + 1/2 :=
    fl_unique hf (e := 21) (by norm_num) ⟨4903089, -1, by norm_num, by norm_num⟩
      (by norm_num) (by norm_num [abs_lt])
  have a7 : fl ((2451544 : ℚ) + 1/2 + 3/2) = 2451546 := by
    rw [fe 2451546 0 (by norm_num) (by norm_num)]; norm_num
  have a8 : fl ((2451546 : ℚ) - ((julianDay 1999 1 1 none : ℤ) : ℚ)) = 366 := by
    rw [show julianDay 1999 1 1 none = 2451180 by decide]
    rw [fe 366 0 (by norm_num) (by norm_num)]; norm_num
  have a9 : fl ((2451544 : ℚ) + 0) = 2451544 := by
    rw [add_zero]; exact fe 2451544 0 (by norm_num) (by norm_num)
  have b1 : ⌊(2451544 : ℚ)⌋ = 2451544 := by norm_num
  have b2 : ⌊(1 - 1 / 2 ^ 35 : ℚ)⌋ = 0 := by rw [Int.floor_eq_iff]; norm_num
  have b3 : ⌊((1 - 1 / 2 ^ 35) * 86400 : ℚ) / 60⌋ = 1439 := by rw [Int.floor_eq_iff]; norm_num
  have a10 : fl ((1 - 1 / 2 ^ 35) * 86400 - 60 * ((1439 : ℤ) : ℚ))
      = (1 - 1 / 2 ^ 35) * 86400 - 60 * ((1439 : ℤ) : ℚ) := by
    refine fe (675 * (2 ^ 35 - 1) - 60 * 1439 * 2 ^ 28) (-28) (by norm_num) ?_
    norm_num
  have cal : (calendarTupleF fl 2451544 (1/2 - 1 / 2 ^ 35) none).1
      = ⟨1999, 12, 31, 23, 59, (1 - 1 / 2 ^ 35) * 86400 - 60 * ((1439 : ℤ) : ℚ)⟩ := by
    have d1 : astypeInt (2451544 : ℚ) = 2451544 := by
      unfold astypeInt; rw [if_pos (by norm_num)]; exact b1
    have d2 : computeCalendarDate 2451544 none = ⟨1999, 12, 31⟩ := by decide
    have d3 : astypeInt (((1439 : ℤ)) : ℚ) = 1439 := astypeInt_intCast _
    have d4 : divmodF fl ((1 - 1 / 2 ^ 35) * 86400) 60
        = (((1439 : ℤ) : ℚ), (1 - 1 / 2 ^ 35) * 86400 - 60 * ((1439 : ℤ) : ℚ)) := by
      unfold divmodF; rw [b3, a10]
    have d5 : divmodF fl 2451544 1 = (2451544, 0) := by
      rw [divmodF_one, b1]; push_cast; rw [sub_self, z]
    have d6 : divmodF fl (1 - 1 / 2 ^ 35) 1 = (0, 1 - 1 / 2 ^ 35) := by
      rw [divmodF_one, b2]; push_cast; rw [sub_zero, a3]
    unfold calendarTupleF
    simp only [d5, zero_add, a1, a2, d6, a9, d1, d2, a4, d4, d3]
    norm_num
  constructor
  · have o1 : fl (StrftimeUnit.other.offset : ℚ) = 0 := z
    have o2 : (0:ℚ) / 86400 = 0 := by norm_num
    unfold Timescale.strftimeF StrftimeUnit.offsetF
    simp only [hc, o1, o2, z, add_zero, a1, cal, a2, a5, a6, a7, a8]
    rw [if_neg (by decide)]
    have d4 : astypeInt (2451545 : ℚ) = 2451545 := by
      have := astypeInt_intCast (K := ℚ) 2451545; exact_mod_cast this
    have d5 : astypeInt (366 : ℚ) = 366 := by
      have := astypeInt_intCast (K := ℚ) 366; exact_mod_cast this
    have d6 : astypeInt ((1 - 1 / 2 ^ 35) * 86400 - 60 * ((1439 : ℤ) : ℚ)) = 59 := by
      unfold astypeInt
      rw [if_pos (by norm_num), Int.floor_eq_iff]
      norm_num
    rw [d4, d5, d6]
    norm_num
  · unfold Timescale.strftime
    rw [hc]
    decide +kernel

/-- C81 (finding: second 60 outside a leap second).  Read from a time 1.8·10⁻¹⁵ seconds before
midnight, `t.utc` gives 23:59:60.0 on a day (1968 May 23) that has no leap second: the fraction
0.999… is added to 59 and rounds up.  The instant is right; the fields are not those of any UTC
second. -/
theorem C81_second_sixty (hf : RoundsToNearest fl) :
    ∃ f : ℚ, IsFloat f ∧
      ({ ts := exampleTs, whole := 4880001 / 2, ttFraction := fl (f + ttMinusTaiF fl),
         taiFraction? := some f } : Time ℚ).utcTupleF fl 0
        = some ⟨1968, 5, 23, 23, 59, 60, 2440000⟩ := by
  refine ⟨8540159293384050 / 2 ^ 66, ⟨8540159293384050, -66, by norm_num, by norm_num⟩, ?_⟩
  generalize fl (8540159293384050 / 2 ^ 66 + ttMinusTaiF fl) = tf
  obtain ⟨T, hT⟩ : ∃ T : Time ℚ, (⟨exampleTs, 4880001 / 2, tf,
      some (8540159293384050 / 2 ^ 66), none, none, none⟩ : Time ℚ) = T := ⟨_, rfl⟩
  rw [hT]
  have a1 : fl (8540159293384050 / 2 ^ 66 * 86400 : ℚ) = 10 - 1 / 2 ^ 49 :=
    fl_unique hf (e := 3) (by norm_num) ⟨10 * 2 ^ 49 - 1, -49, by norm_num, by norm_num⟩
      (by norm_num) (by norm_num [abs_lt])
  have a2 : fl (4880001 / 2 * 86400 : ℚ) = ((210816043200 : ℤ) : ℚ) := by
    rw [show (4880001 / 2 * 86400 : ℚ) = ((210816043200 : ℤ) : ℚ) by norm_num]
    exact fl_int hf (by norm_num)
  have a3 : fl (10 - 1 / 2 ^ 49 : ℚ) = 10 - 1 / 2 ^ 49 :=
    fl_exact hf ⟨10 * 2 ^ 49 - 1, -49, by norm_num, by norm_num⟩
  have b1 : ⌊(10 - 1 / 2 ^ 49 : ℚ)⌋ = 9 := by rw [Int.floor_eq_iff]; norm_num
  have a4 : fl (10 - 1 / 2 ^ 49 - ((9 : ℤ) : ℚ) : ℚ) = 1 - 1 / 2 ^ 49 := by
    rw [fl_exact hf ⟨2 ^ 49 - 1, -49, by norm_num, by norm_num⟩]; norm_num
  have a5 : fl (((210816043200 : ℤ) : ℚ) + ((9 : ℤ) : ℚ)) = ((210816043209 : ℤ) : ℚ) := by
    rw [← Int.cast_add]; exact fl_int hf (by norm_num)
  have ht : T.taiSecondsF fl = (((210816043209 : ℤ) : ℚ), 1 - 1 / 2 ^ 49) := by
    rw [← hT]
    unfold Time.taiSecondsF Time.taiFractionF
    simp only [a2, divmodF_one_int hf, a1, zero_add, a3, divmodF_one, b1, a4, a5]
  have b2 : ⌊(1 - 1 / 2 ^ 49 : ℚ)⌋ = 0 := by rw [Int.floor_eq_iff]; norm_num
  have hok : IsLeapTable T.ts [2441500, 2441684, 2442049] 10 := by rw [← hT]; exact exampleTs_ok
  obtain ⟨r, sec, r1, r2, r3, r4, r5⟩ := utcTupleF_spec hf T hok (by norm_num) ht (by norm_num)
    (by norm_num) (by norm_num) ⟨2 ^ 49 - 1, -49, by norm_num, by norm_num⟩
  rw [b2] at r2 r4
  have hv : ValidUtc [2441500, 2441684, 2442049] 2440000 23 59 ((59 : ℤ) : ℚ) := by
    refine ⟨by norm_num, by norm_num, by norm_num, by norm_num, by norm_num, Or.inl (by norm_num)⟩
  have r6 : taiOf [2441500, 2441684, 2442049] 10 r.jd r.hour r.minute (sec:ℚ)
      = taiOf [2441500, 2441684, 2442049] 10 2440000 23 59 ((59 : ℤ) : ℚ) := by
    rw [r4]; unfold taiOf taiMinusUtc; norm_num
  obtain ⟨e1, e2, e3, e4⟩ := taiOf_inj r3 hv r6
  have e5 : sec = 59 := by exact_mod_cast e4
  have r7 : r.second = 60 := by
    rw [r2, e5]
    refine fl_unique hf (e := 5) (by norm_num) (by exact_mod_cast isFloat_int (n := 60) (by norm_num))
      (by norm_num) (by norm_num [abs_lt])
  rw [e1, ← hT] at r5
  have d : computeCalendarDate 2440000 (some gregorianStart) = ⟨1968, 5, 23⟩ := by decide
  have r8 : (⟨1968, 5, 23⟩ : Date) = ⟨r.year, r.month, r.day⟩ := by rw [← d]; exact r5
  rw [r1]
  obtain ⟨_, _, _, _, _, _, _⟩ := r
  simp_all

end Skyfield
