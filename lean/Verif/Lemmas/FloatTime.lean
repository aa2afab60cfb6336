import Verif.Model.FloatTime
import Verif.Lemmas.Floats
import Verif.Lemmas.Utc

/- Lemmas on the rounded time arithmetic of `Model/FloatTime.lean`. -/
namespace Skyfield
open Spec

variable {fl : ℚ → ℚ}

theorem divmodF_one (x : ℚ) : divmodF fl x 1 = (((⌊x⌋ : ℤ) : ℚ), fl (x - ⌊x⌋)) := by
  simp [divmodF]

theorem divmodF_one_nonneg (hf : RoundsToNearest fl) {x : ℚ} (h : IsFloat x) (h0 : 0 ≤ x) :
    divmodF fl x 1 = (((⌊x⌋ : ℤ) : ℚ), x - ⌊x⌋) := by
  rw [divmodF_one, fl_exact hf (isFloat_fract h h0)]

theorem divmodF_one_int (hf : RoundsToNearest fl) (n : ℤ) :
    divmodF fl (n:ℚ) 1 = ((n:ℚ), 0) := by
  rw [divmodF_one, Int.floor_intCast, sub_self, fl_zero hf]

theorem divmodF_int (hf : RoundsToNearest fl) (n : ℤ) {b : ℕ} (b0 : 0 < b) (hb : b ≤ 2 ^ 53) :
    divmodF fl (n:ℚ) b = (((n / (b:ℤ) : ℤ) : ℚ), ((n % (b:ℤ) : ℤ) : ℚ)) := by
  have p : (0:ℤ) < b := by exact_mod_cast b0
  have hfl : ⌊(n:ℚ) / (b:ℚ)⌋ = n / (b : ℤ) := Rat.floor_intCast_div_natCast n b
  unfold divmodF
  rw [hfl]
  have key : (n:ℚ) - b * ((n / (b:ℤ) : ℤ) : ℚ) = ((n % (b:ℤ) : ℤ) : ℚ) := by
    rw [Int.emod_def]; push_cast; ring
  rw [key, fl_int hf]
  have b1 := Int.emod_nonneg n p.ne'
  have b2 := Int.emod_lt_of_pos n p
  rw [abs_of_nonneg b1]
  have : (b:ℤ) ≤ 2 ^ 53 := by exact_mod_cast hb
  omega

theorem divmodF_day (hf : RoundsToNearest fl) (n : ℤ) :
    divmodF fl (n:ℚ) 86400 = (((n / 86400 : ℤ) : ℚ), ((n % 86400 : ℤ) : ℚ)) := by
  have := divmodF_int hf n (b := 86400) (by norm_num) (by norm_num)
  exact_mod_cast this

/-- Half-integers of moderate size are floats. -/
theorem isFloat_half {n : ℤ} (h : |n| ≤ 2 ^ 53) : IsFloat ((n:ℚ) / 2) := by
  have := isFloat_of_le (e := -1) h
  rwa [zpow_neg_one, ← div_eq_mul_inv] at this

/-- The rounded seconds since midnight. -/
def moreF (fl : ℚ → ℚ) (hh mi : ℤ) (s : ℚ) : ℚ := fl (((3600 * hh + 60 * mi : ℤ) : ℚ) + s)

/-- What `Timescale._utc` stores, for dates and leap second tables of moderate size. -/
theorem utcF_eq (hf : RoundsToNearest fl) {ts : Timescale ℚ} {L : List ℤ} {b : ℤ}
    (h : IsLeapTable ts L b) (y m d : ℤ) {hh mi : ℤ} {s : ℚ}
    (hD : |julianDay y m d ts.cutoff| ≤ 10 ^ 9) (hL : |b| + L.length ≤ 10 ^ 6)
    (h1 : 0 ≤ hh) (h2 : hh ≤ 23) (h3 : 0 ≤ mi) (h4 : mi ≤ 59) (h5 : 0 ≤ s) (h6 : s ≤ 61) :
    ∃ N : ℤ,
      N = midnight (julianDay y m d ts.cutoff)
        + (b + cnt L (midnight (julianDay y m d ts.cutoff))) + ⌊moreF fl hh mi s⌋ ∧
      ts.utcF fl y m d hh mi s =
        some { ts := ts, whole := ((N / 86400 : ℤ) : ℚ),
               ttFraction := fl (fl (fl (((N % 86400 : ℤ) : ℚ) + (moreF fl hh mi s - ⌊moreF fl hh mi s⌋)) / 86400) + ttMinusTaiF fl),
               taiFraction? := some (fl (fl (((N % 86400 : ℤ) : ℚ) + (moreF fl hh mi s - ⌊moreF fl hh mi s⌋)) / 86400)),
               taiSeconds? := some ((N : ℚ), moreF fl hh mi s - ⌊moreF fl hh mi s⌋) } := by
  refine ⟨_, rfl, ?_⟩
  generalize hJ : julianDay y m d ts.cutoff = J at hD
  have hJ2 := abs_le.1 hD
  have e1 : fl ((J:ℚ) - 1/2) = (J:ℚ) - 1/2 := by
    have e : (J:ℚ) - 1/2 = ((2 * J - 1 : ℤ) : ℚ) / 2 := by push_cast; ring
    rw [e]
    exact fl_exact hf (isFloat_half (abs_le.2 ⟨by omega, by omega⟩))
  have e2 : fl (((J:ℚ) - 1/2) * 86400) = ((midnight J : ℤ) : ℚ) := by
    have e : ((J:ℚ) - 1/2) * 86400 = ((midnight J : ℤ) : ℚ) := by
      unfold midnight; push_cast; ring
    rw [e]
    exact fl_int hf (abs_le.2 ⟨by unfold midnight; omega, by unfold midnight; omega⟩)
  have c1 : 0 ≤ cnt L (midnight J) := by unfold cnt; positivity
  have c2 : cnt L (midnight J) ≤ L.length := by
    unfold cnt; exact_mod_cast List.length_filter_le _ _
  have b1 := abs_le.1 (show |b| ≤ |b| from le_rfl)
  set k := b + cnt L (midnight J) with hk
  have e3 : fl ((k:ℤ):ℚ) = k := fl_int hf (abs_le.2 ⟨by omega, by omega⟩)
  have e4 : fl (((midnight J : ℤ) : ℚ) + (k:ℚ)) = ((midnight J + k : ℤ) : ℚ) := by
    rw [← Int.cast_add]
    exact fl_int hf (abs_le.2 ⟨by unfold midnight; omega, by unfold midnight; omega⟩)
  have e5 : fl (fl (fl ((hh:ℚ) * 3600) + fl ((mi:ℚ) * 60)) + s) = moreF fl hh mi s := by
    have a1 : fl ((hh:ℚ) * 3600) = ((hh * 3600 : ℤ) : ℚ) := by
      have := fl_int hf (n := hh * 3600) (abs_le.2 ⟨by omega, by omega⟩)
      push_cast at this ⊢; exact this
    have a2 : fl ((mi:ℚ) * 60) = ((mi * 60 : ℤ) : ℚ) := by
      have := fl_int hf (n := mi * 60) (abs_le.2 ⟨by omega, by omega⟩)
      push_cast at this ⊢; exact this
    have a3 : fl (((hh * 3600 : ℤ) : ℚ) + ((mi * 60 : ℤ) : ℚ)) = ((3600 * hh + 60 * mi : ℤ) : ℚ) := by
      rw [← Int.cast_add, show hh * 3600 + mi * 60 = 3600 * hh + 60 * mi by ring]
      exact fl_int hf (abs_le.2 ⟨by omega, by omega⟩)
    rw [a1, a2, a3]; rfl
  have q1 : (0:ℚ) ≤ ((3600 * hh + 60 * mi : ℤ) : ℚ) := by exact_mod_cast (by omega)
  have q2 : ((3600 * hh + 60 * mi : ℤ) : ℚ) ≤ 86340 := by exact_mod_cast (by omega)
  have m0 : 0 ≤ moreF fl hh mi s := fl_nonneg hf (by linarith)
  have mf : IsFloat (moreF fl hh mi s) := hf.float _
  have m1 : moreF fl hh mi s ≤ 86401 :=
    fl_le hf (by linarith) (by exact_mod_cast isFloat_int (n := 86401) (by norm_num))
  have g0 : 0 ≤ ⌊moreF fl hh mi s⌋ := Int.floor_nonneg.2 m0
  have g1 : ⌊moreF fl hh mi s⌋ ≤ 86401 := by
    have := Int.floor_le_floor m1
    have e : ⌊(86401:ℚ)⌋ = 86401 := by norm_num
    omega
  have e6 : fl (((midnight J + k : ℤ) : ℚ) + ((⌊moreF fl hh mi s⌋ : ℤ) : ℚ))
      = ((midnight J + k + ⌊moreF fl hh mi s⌋ : ℤ) : ℚ) := by
    rw [← Int.cast_add]
    exact fl_int hf (abs_le.2 ⟨by unfold midnight; omega, by unfold midnight; omega⟩)
  unfold Timescale.utcF
  simp only [hJ, e1, e2, divmodF_one_int hf, interpF, interp_utc h, Option.map_some, ← hk, e3, e4,
    e5, zero_add, fl_exact hf mf, divmodF_one_nonneg hf mf m0, e6, divmodF_day hf]

/-- The exact time, in whole seconds, that a rounded reading starts from. -/
def wholeSeconds (ts : Timescale ℚ) (n : ℤ) : Time ℚ :=
  { ts := ts, whole := (n:ℚ) / 86400, ttFraction := ttMinusTai, taiFraction? := some 0,
    taiSeconds? := some ((n:ℚ), 0) }

theorem wholeSeconds_coherent (ts : Timescale ℚ) (n : ℤ) : (wholeSeconds ts n).Coherent := by
  refine ⟨⟨n, rfl⟩, le_rfl, by norm_num [wholeSeconds, Time.taiSeconds], ?_⟩
  simp only [wholeSeconds, Time.taiSeconds, Time.taiInstant, Time.taiFraction]
  field_simp
  ring

theorem wholeSeconds_instant (ts : Timescale ℚ) (n : ℤ) : (wholeSeconds ts n).taiInstant = n := by
  simp only [wholeSeconds, Time.taiInstant, Time.taiFraction]
  field_simp
  ring

/-- Reading the seconds: apart from the fraction, just what the exact code reads from the whole
number of seconds. -/
theorem utcSecondsF_eq (hf : RoundsToNearest fl) (t : Time ℚ) {L : List ℤ} {b : ℤ}
    (h : IsLeapTable t.ts L b) (hL : |b| + L.length ≤ 10 ^ 6) {n : ℤ} {fr : ℚ}
    (ht : t.taiSecondsF fl = ((n:ℚ), fr)) (hn : |n| ≤ 10 ^ 15) (h0 : 0 ≤ fr) (h1 : fr ≤ 1)
    (hfr : IsFloat fr) :
    ∃ (u : ℤ) (leap : Bool),
      (wholeSeconds t.ts (n + ⌊fr⌋)).utcSeconds 0 = some ⟨(u:ℚ), 0, leap⟩ ∧
      t.utcSecondsF fl 0 = some ⟨(u:ℚ), fr - ⌊fr⌋, leap⟩ := by
  have hn2 := abs_le.1 hn
  have g0 : 0 ≤ ⌊fr⌋ := Int.floor_nonneg.2 h0
  have g1 : ⌊fr⌋ ≤ 1 := by
    have := Int.floor_le_floor h1
    simpa using this
  have hb := abs_le.1 (show |b| ≤ |b| from le_rfl)
  have e1 : fl ((n:ℚ) + ((⌊fr⌋ : ℤ) : ℚ)) = ((n + ⌊fr⌋ : ℤ) : ℚ) := by
    rw [← Int.cast_add]
    exact fl_int hf (abs_le.2 ⟨by omega, by omega⟩)
  unfold Time.utcSecondsF Time.utcSeconds
  simp only [ht, add_zero, fl_exact hf hfr, divmodF_one_nonneg hf hfr h0, e1, pyDivmod_one,
    interpF]
  simp only [wholeSeconds, Time.taiSeconds, Int.floor_zero, Int.cast_zero, add_zero, sub_zero]
  have hx : |n + ⌊fr⌋| ≤ 10 ^ 15 + 1 := abs_le.2 ⟨by omega, by omega⟩
  generalize n + ⌊fr⌋ = x at hx
  have hx2 := abs_le.1 hx
  have cb : ∀ z : ℤ, 0 ≤ cnt L z ∧ cnt L z ≤ L.length := by
    intro z
    unfold cnt
    exact ⟨by positivity, by exact_mod_cast List.length_filter_le _ _⟩
  rcases interp_tai h x with ⟨k, hi, hc, hk⟩ | ⟨k, hi, hc, hk, m, hm, hmx⟩
  · have k0 : 0 ≤ k ∧ k ≤ L.length := by have := cb (x - (b + k)); omega
    have e2 : fl ((b + k : ℤ) : ℚ) = ((b + k : ℤ) : ℚ) := fl_int hf (abs_le.2 ⟨by omega, by omega⟩)
    have e3 : fl ((x:ℚ) - ((b + k : ℤ) : ℚ)) = ((x - (b + k) : ℤ) : ℚ) := by
      rw [← Int.cast_sub]
      exact fl_int hf (abs_le.2 ⟨by omega, by omega⟩)
    simp only [hi, Option.map_some, e2, divmodF_one_int hf, e3, Int.floor_intCast, sub_self,
      lt_self_iff_false, gt_iff_lt, decide_false]
    exact ⟨x - (b + k), false, by push_cast; rfl, rfl⟩
  · have k0 : 0 ≤ k ∧ k ≤ L.length := by have := cb (x - (b + k) - 1); omega
    have e2 : fl (((b + k : ℤ) : ℚ) + 1/2) = ((b + k : ℤ) : ℚ) + 1/2 := by
      have e : ((b + k : ℤ) : ℚ) + 1/2 = ((2 * (b + k) + 1 : ℤ) : ℚ) / 2 := by push_cast; ring
      rw [e]
      exact fl_exact hf (isFloat_half (abs_le.2 ⟨by omega, by omega⟩))
    have e3 : fl ((x:ℚ) - ((b + k : ℤ) : ℚ)) = ((x - (b + k) : ℤ) : ℚ) := by
      rw [← Int.cast_sub]
      exact fl_int hf (abs_le.2 ⟨by omega, by omega⟩)
    have hfl : ⌊((b + k : ℤ) : ℚ) + 1/2⌋ = b + k := by
      rw [Int.floor_intCast_add]
      have : ⌊(1/2 : ℚ)⌋ = 0 := by rw [Int.floor_eq_iff]; norm_num
      omega
    have e4 : ((b + k : ℤ) : ℚ) + 1/2 - ((b + k : ℤ) : ℚ) = 1/2 := by ring
    have e5 : (0:ℚ) < fl (1/2) := fl_pos hf (by norm_num)
    have e6 : (0:ℚ) < 1/2 := by norm_num
    simp only [hi, Option.map_some, e2, divmodF_one, hfl, e3, e4, gt_iff_lt, e5, e6, decide_true]
    exact ⟨x - (b + k), true, by push_cast; rfl, rfl⟩

/-- Reading UTC: a valid reading to the whole second, exactly the one that the whole number of
seconds denotes, with the fraction added and rounded. -/
theorem utcTupleF_spec (hf : RoundsToNearest fl) (t : Time ℚ) {L : List ℤ} {b : ℤ}
    (h : IsLeapTable t.ts L b) (hL : |b| + L.length ≤ 10 ^ 6) {n : ℤ} {fr : ℚ}
    (ht : t.taiSecondsF fl = ((n:ℚ), fr)) (hn : |n| ≤ 10 ^ 15) (h0 : 0 ≤ fr) (h1 : fr ≤ 1)
    (hfr : IsFloat fr) :
    ∃ (r : UtcTuple ℚ) (sec : ℤ), t.utcTupleF fl 0 = some r ∧
      r.second = fl ((sec:ℚ) + (fr - ⌊fr⌋)) ∧
      ValidUtc L r.jd r.hour r.minute (sec:ℚ) ∧
      taiOf L b r.jd r.hour r.minute (sec:ℚ) = ((n + ⌊fr⌋ : ℤ) : ℚ) ∧
      computeCalendarDate r.jd t.ts.cutoff = ⟨r.year, r.month, r.day⟩ := by
  obtain ⟨u, leap, e1, e2⟩ := utcSecondsF_eq hf t h hL ht hn h0 h1 hfr
  obtain ⟨r0, a1, a2, a3, a4⟩ := utcTuple_spec (wholeSeconds t.ts (n + ⌊fr⌋))
    (wholeSeconds_coherent _ _) h 0
  rw [wholeSeconds_instant, add_zero] at a3
  unfold Time.utcTuple at a1
  unfold Time.utcTupleF
  simp only [e1, add_zero] at a1
  simp only [e2]
  refine ⟨_, _, rfl, rfl, ?_, ?_, rfl⟩
  · rw [← Option.some.inj a1] at a2; exact a2
  · rw [← Option.some.inj a1] at a3; exact a3

end Skyfield
