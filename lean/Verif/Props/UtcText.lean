import Verif.Props.Utc

/-
C08, C09: text and datetime output, and calendar tuples.
-/
namespace Skyfield
open Spec
set_option linter.unusedSectionVars false
variable {K : Type*} [Field K] [LinearOrder K] [IsStrictOrderedRing K] [FloorRing K]
variable {ts : Timescale K} {L : List ℤ} {b : ℤ}

/-- Cutting a second down to a multiple of `1/P`. -/
theorem floor_display (P : ℕ) (hP : 0 < P) (s : K) (hs : 0 ≤ s) :
    ∃ f : ℤ, ⌊(s - ⌊s⌋) * P⌋ = f ∧ 0 ≤ f ∧ f < P ∧ (⌊s⌋ : K) + f / P ≤ s ∧
      s < (⌊s⌋ : K) + f / P + 1 / P ∧ 0 ≤ ⌊s⌋ := by
  have hP' : (0 : K) < P := by exact_mod_cast hP
  have h0 := Int.floor_le s
  have h1 := Int.lt_floor_add_one s
  have g0 := Int.floor_le ((s - ⌊s⌋) * P)
  have g1 := Int.lt_floor_add_one ((s - ⌊s⌋) * P)
  refine ⟨_, rfl, ?_, ?_, ?_, ?_, Int.floor_nonneg.2 hs⟩
  · exact Int.floor_nonneg.2 (mul_nonneg (by linarith) hP'.le)
  · have : ((⌊(s - ⌊s⌋) * P⌋ : ℤ) : K) < ((P : ℤ) : K) := by
      refine lt_of_le_of_lt g0 ?_
      rw [Int.cast_natCast]
      nlinarith
    exact Int.cast_lt.1 this
  · rw [← le_sub_iff_add_le', div_le_iff₀ hP']; exact g0
  · rw [add_assoc, ← add_div, ← sub_lt_iff_lt_add', lt_div_iff₀ hP']; exact g1

/-- A reading with its second cut down is still a reading of the same minute. -/
theorem validUtc_cut {D h mi : ℤ} {s s' : K} (hv : ValidUtc L D h mi s) (h0 : 0 ≤ s') (h1 : s' ≤ s) :
    ValidUtc L D h mi s' := by
  obtain ⟨v1, v2, v3, v4, v5, v6⟩ := hv
  refine ⟨v1, v2, v3, v4, h0, ?_⟩
  rcases v6 with v6 | ⟨a, c, v6, d⟩
  · left; linarith
  · right; exact ⟨a, c, by linarith, d⟩

/-- `s` is displayable with `P` units to the second. -/
def OnGrid (P : ℕ) (s : K) : Prop := ∃ n : ℤ, s * P = n

/-- Readings on the same grid are a whole number of units apart, so one that is within half a
unit of an instant is nearest to it. -/
theorem nearest_of_half_unit {P : ℕ} (hP : 0 < P) {D h mi : ℤ} {s : K} (hs : OnGrid P s) (x : K)
    (hx : |taiOf L b D h mi s - x| ≤ 1/2 / P) {D' h' mi' : ℤ} {s' : K} (hs' : OnGrid P s') :
    |taiOf L b D h mi s - x| ≤ |taiOf L b D' h' mi' s' - x| := by
  have hP' : (0 : K) < P := by exact_mod_cast hP
  obtain ⟨n, hn⟩ := hs
  obtain ⟨n', hn'⟩ := hs'
  have key : ∀ {D h mi : ℤ} {s : K} {n : ℤ}, s * P = n →
      ∃ N : ℤ, taiOf L b D h mi s * P = N := by
    intro D h mi s n hn
    refine ⟨(D * 86400 - 43200 + 3600 * h + 60 * mi) * P + n + taiMinusUtc L b D * P, ?_⟩
    unfold taiOf
    push_cast
    rw [← hn]; ring
  obtain ⟨N, hN⟩ := key (D := D) (h := h) (mi := mi) hn
  obtain ⟨N', hN'⟩ := key (D := D') (h := h') (mi := mi') hn'
  generalize taiOf L b D h mi s = a at *
  generalize taiOf L b D' h' mi' s' = a' at *
  by_cases he : N = N'
  · have : a = a' := mul_right_cancel₀ hP'.ne' (by rw [hN, hN', he])
    rw [this]
  · have h1 : (1 : K) ≤ |((N - N' : ℤ) : K)| := by
      have : (1 : ℤ) ≤ |N - N'| := Int.one_le_abs (sub_ne_zero.2 he)
      exact_mod_cast this
    have h2 : ((N - N' : ℤ) : K) = (a - a') * P := by push_cast; rw [← hN, ← hN']; ring
    rw [h2, abs_mul, abs_of_pos hP', ← div_le_iff₀ hP'] at h1
    have h3 : |a - a'| ≤ |a - x| + |a' - x| := by
      have := abs_sub_le a x a'
      rwa [abs_sub_comm x a'] at this
    have h4 : (1 : K) / P = 1/2 / P + 1/2 / P := by field_simp; norm_num
    linarith

/-- What C08 says of displayed fields: they are an existing civil date and time of day, on the
grid, within half a unit of the instant; no displayable reading is nearer. -/
def NearestReading (cutoff : Option ℤ) (L : List ℤ) (b : ℤ) (P : ℕ) (x : K)
    (y m d h mi : ℤ) (s : K) : Prop :=
  ∃ D, CivilDate cutoff y m d D ∧ ValidUtc L D h mi s ∧ OnGrid P s ∧
    |taiOf L b D h mi s - x| ≤ 1/2 / P ∧
    ∀ D' h' mi' s', OnGrid P s' → |taiOf L b D h mi s - x| ≤ |taiOf L b D' h' mi' s' - x|

theorem nearest_of_tuple (P : ℕ) (hP : 0 < P) (t : Time K) (ht : t.Coherent)
    (h : IsLeapTable t.ts L b) (offset : K) (ho : offset = 1/2 / P) :
    ∃ r, t.utcTuple offset = some r ∧ 0 ≤ r.second ∧
      NearestReading t.ts.cutoff L b P t.taiInstant r.year r.month r.day r.hour r.minute
        ((⌊r.second⌋ : K) + (⌊(r.second - ⌊r.second⌋) * P⌋ : ℤ) / P) := by
  have hP' : (0 : K) < P := by exact_mod_cast hP
  obtain ⟨r, r1, r2, r3, r4⟩ := utcTuple_spec t ht h offset
  obtain ⟨f, f1, f2, f3, f4, f5, f6⟩ := floor_display P hP r.second r2.2.2.2.2.1
  refine ⟨r, r1, r2.2.2.2.2.1, r.jd, (C03_reads_civil_date _ _ _ _ _).1 r4, ?_, ?_, ?_⟩
  · rw [f1]
    refine validUtc_cut r2 ?_ f4
    have : (0 : K) ≤ (⌊r.second⌋ : K) := by exact_mod_cast f6
    have : (0 : K) ≤ (f : K) := by exact_mod_cast f2
    positivity
  · rw [f1]; exact ⟨⌊r.second⌋ * P + f, by push_cast; field_simp⟩
  · have hgrid : OnGrid P ((⌊r.second⌋ : K) + (⌊(r.second - ⌊r.second⌋) * P⌋ : ℤ) / P) := by
      rw [f1]; exact ⟨⌊r.second⌋ * P + f, by push_cast; field_simp⟩
    have hhalf : |taiOf L b r.jd r.hour r.minute
        ((⌊r.second⌋ : K) + (⌊(r.second - ⌊r.second⌋) * P⌋ : ℤ) / P) - t.taiInstant| ≤ 1/2 / P := by
      rw [f1]
      have h4 : (1 : K) / P = 1/2 / P + 1/2 / P := by field_simp; norm_num
      have e : ∀ s : K, taiOf L b r.jd r.hour r.minute s =
          taiOf L b r.jd r.hour r.minute r.second + (s - r.second) := by
        intro s; unfold taiOf; ring
      rw [e, r3, ho, abs_le]
      constructor <;> linarith
    exact ⟨hhalf, fun D' h' mi' s' hs' => nearest_of_half_unit hP hgrid _ hhalf hs'⟩

/-- C08 (ISO).  The fields printed by `utc_iso(places=p)` are the nearest displayable UTC reading,
for every number of places; the fraction field has at most `p` digits. -/
theorem C08_iso_nearest (t : Time K) (ht : t.Coherent) (h : IsLeapTable t.ts L b) (p : ℕ) :
    ∃ f, t.utcIso p = some f ∧ 0 ≤ f.fraction ∧ f.fraction < 10 ^ p ∧
      NearestReading t.ts.cutoff L b (10 ^ p) t.taiInstant f.year f.month f.day f.hour f.minute
        ((f.second : K) + f.fraction / 10 ^ p) := by
  unfold Time.utcIso
  by_cases hp : p = 0
  · subst hp
    obtain ⟨r, r1, r0, r2⟩ := nearest_of_tuple 1 (by norm_num) t ht h (1/2) (by simp)
    rw [if_neg (by simp), r1]
    refine ⟨_, rfl, by norm_num, by norm_num, ?_⟩
    simp only [astypeInt_of_nonneg r0, pow_zero, Int.cast_zero, zero_div, add_zero]
    have : ⌊(r.second - ⌊r.second⌋) * ((1 : ℕ) : K)⌋ = 0 := by
      rw [Nat.cast_one, mul_one, Int.floor_eq_zero_iff]
      exact ⟨by have := Int.floor_le r.second; linarith, by
        have := Int.lt_floor_add_one r.second; linarith⟩
    rw [this] at r2
    simpa using r2
  · have hP : 0 < 10 ^ p := by positivity
    obtain ⟨r, r1, r0, r2⟩ := nearest_of_tuple (10 ^ p) hP t ht h (1/2 / 10 ^ p)
      (by push_cast; rfl)
    obtain ⟨f, f1, f2, f3, f4, f5, f6⟩ := floor_display (10 ^ p) hP r.second r0
    rw [if_pos hp]
    simp only [r1, pyDivmod_one]
    refine ⟨_, rfl, ?_⟩
    have e1 : astypeInt ((r.second - ⌊r.second⌋) * 10 ^ p) = f := by
      rw [astypeInt_of_nonneg, ← f1]
      · push_cast; rfl
      · have := Int.floor_le r.second
        exact mul_nonneg (by linarith) (by positivity)
    simp only [astypeInt_intCast, e1]
    refine ⟨f2, by exact_mod_cast f3, ?_⟩
    rw [f1] at r2
    push_cast at r2
    exact r2

/-- C08 (JPL).  `utc_jpl()` prints the nearest reading to 4 places; the year and era name the same
astronomical year (`n B.C.` is year `1 - n`), and the printed year is at least 1. -/
theorem C08_jpl_nearest (t : Time K) (ht : t.Coherent) (h : IsLeapTable t.ts L b) :
    ∃ f, t.utcJpl = some f ∧ 0 ≤ f.fraction ∧ f.fraction < 10000 ∧ 1 ≤ f.year ∧
      NearestReading t.ts.cutoff L b (10 ^ 4) t.taiInstant
        (if f.bc then 1 - f.year else f.year) f.month f.day f.hour f.minute
        ((f.second : K) + f.fraction / 10000) := by
  unfold Time.utcJpl
  have hP : 0 < 10 ^ 4 := by positivity
  obtain ⟨r, r1, r0, r2⟩ := nearest_of_tuple (10 ^ 4) hP t ht h (5 / 100000) (by norm_num)
  obtain ⟨f, f1, f2, f3, f4, f5, f6⟩ := floor_display (10 ^ 4) hP r.second r0
  simp only [r1, pyDivmod_one]
  refine ⟨_, rfl, ?_⟩
  have e1 : astypeInt ((r.second - ⌊r.second⌋) * 10000) = f := by
    rw [astypeInt_of_nonneg, ← f1]
    · norm_num
    · have := Int.floor_le r.second
      exact mul_nonneg (by linarith) (by norm_num)
  simp only [astypeInt_intCast, e1]
  refine ⟨f2, by exact_mod_cast f3, ?_, ?_⟩
  · by_cases hy : r.year < 1
    · simp only [hy, decide_true, if_true]; rw [abs_of_neg (by omega)]; omega
    · simp only [hy, decide_false, Bool.false_eq_true, if_false]; rw [abs_of_nonneg (by omega)]; omega
  · have e2 : (if decide (r.year < 1) = true then
        1 - |r.year - (if decide (r.year < 1) = true then 1 else 0)|
        else |r.year - (if decide (r.year < 1) = true then 1 else 0)|) = r.year := by
      by_cases hy : r.year < 1
      · simp only [hy, decide_true, if_true]; rw [abs_of_neg (by omega)]; omega
      · simp only [hy, decide_false, Bool.false_eq_true, if_false]; rw [abs_of_nonneg (by omega)]; omega
    rw [e2]
    rw [f1] at r2
    push_cast at r2
    convert r2 using 3
    norm_num

/-- Splitting a count of microseconds the way the code does. -/
theorem micro_split (s : K) (hs : 0 ≤ s) :
    astypeInt (s * 1000000) / 1000000 = ⌊s⌋ ∧
    astypeInt (s * 1000000) % 1000000 = ⌊(s - ⌊s⌋) * ((10 ^ 6 : ℕ) : K)⌋ := by
  obtain ⟨f, f1, f2, f3, f4, f5, f6⟩ := floor_display (10 ^ 6) (by norm_num) s hs
  have e : astypeInt (s * 1000000) = ⌊s⌋ * 1000000 + f := by
    rw [astypeInt_of_nonneg (by positivity), ← f1]
    have : s * 1000000 = (s - ⌊s⌋) * ((10 ^ 6 : ℕ) : K) + ((⌊s⌋ * 1000000 : ℤ) : K) := by
      push_cast; ring
    rw [this, Int.floor_add_intCast]; ring
  rw [e, f1]
  norm_num at f3
  omega

/-- C08 (datetime).  `utc_datetime_and_leap_second()` gives the nearest microsecond; the fields fit
Python's datetime (second below 60) and the leap second value is 1 exactly when the reading is in
a leap second. -/
theorem C08_datetime_nearest (t : Time K) (ht : t.Coherent) (h : IsLeapTable t.ts L b) :
    ∃ f, t.utcDatetimeAndLeapSecond = some f ∧ 0 ≤ f.micro ∧ f.micro < 1000000 ∧
      0 ≤ f.second ∧ f.second ≤ 59 ∧ (f.leapSecond = 0 ∨ f.leapSecond = 1 ∧ f.second = 59) ∧
      NearestReading t.ts.cutoff L b (10 ^ 6) t.taiInstant f.year f.month f.day f.hour f.minute
        (((f.second + f.leapSecond : ℤ) : K) + f.micro / 1000000) := by
  unfold Time.utcDatetimeAndLeapSecond
  obtain ⟨r, r1, r0, r2⟩ := nearest_of_tuple (10 ^ 6) (by norm_num) t ht h (1/2 / 1000000)
    (by norm_num)
  rw [r1]
  obtain ⟨e1, e2⟩ := micro_split r.second r0
  obtain ⟨f, f1, f2, f3, f4, f5, f6⟩ := floor_display (10 ^ 6) (by norm_num) r.second r0
  refine ⟨_, rfl, ?_⟩
  simp only [e1, e2, f1]
  norm_num at f3
  rw [f1] at r2
  have hlt : ⌊r.second⌋ < 61 := by
    obtain ⟨D, -, hv, -⟩ := r2
    have : ((⌊r.second⌋ : ℤ) : K) < ((61 : ℤ) : K) := by
      have hf : (0 : K) ≤ (f : K) / ((10 ^ 6 : ℕ) : K) := by
        have : (0 : K) ≤ (f : K) := by exact_mod_cast f2
        positivity
      push_cast at hf ⊢
      rcases hv.2.2.2.2.2 with hv | ⟨-, -, hv, -⟩ <;> push_cast at hv <;> linarith
    exact Int.cast_lt.1 this
  refine ⟨f2, f3, by omega, by omega, by omega, ?_⟩
  have : ⌊r.second⌋ - ⌊r.second⌋ / 60 + ⌊r.second⌋ / 60 = ⌊r.second⌋ := by omega
  rw [this]
  push_cast at r2
  convert r2 using 3
  norm_num

/-- C08 (datetime round trip).  Converting a UTC datetime (whole microseconds) to a time and back
returns the same datetime, with leap second value 0. -/
theorem C08_datetime_roundtrip (h : IsLeapTable ts L b) (hc : GoodCutoff ts.cutoff)
    {y m d D : ℤ} (hd : CivilDate ts.cutoff y m d D) {hh mi s us : ℤ}
    (h1 : 0 ≤ hh ∧ hh ≤ 23) (h2 : 0 ≤ mi ∧ mi ≤ 59) (h3 : 0 ≤ s ∧ s ≤ 59)
    (h4 : 0 ≤ us ∧ us ≤ 999999) :
    (ts.fromDatetime y m d hh mi s us).bind (·.utcDatetimeAndLeapSecond) =
      some ⟨y, m, d, hh, mi, s, us, 0⟩ := by
  have hus : (0 : K) ≤ us ∧ (us : K) ≤ 999999 :=
    ⟨by exact_mod_cast h4.1, by exact_mod_cast h4.2⟩
  have hs : (0 : K) ≤ s ∧ (s : K) ≤ 59 := ⟨by exact_mod_cast h3.1, by exact_mod_cast h3.2⟩
  unfold Timescale.fromDatetime
  obtain ⟨t, t1, t2, rfl, t4⟩ := C05_utc_instant h hc hd hh mi ((s : K) + us / 1000000)
  have hd6 : (us : K) / 1000000 ≤ 999999 / 1000000 := by
    apply div_le_div_of_nonneg_right hus.2; norm_num
  have hd0 : (0 : K) ≤ (us : K) / 1000000 := by apply div_nonneg hus.1; norm_num
  have hv : ValidUtc L D hh mi ((s : K) + us / 1000000) :=
    ⟨h1.1, h1.2, h2.1, h2.2, by linarith, Or.inl (by linarith)⟩
  have hv' : ValidUtc L D hh mi ((s : K) + us / 1000000 + 1/2 / 1000000) := by
    refine ⟨h1.1, h1.2, h2.1, h2.2, by linarith, Or.inl ?_⟩
    have : (999999 : K) / 1000000 + 1/2/1000000 < 1 := by norm_num
    linarith
  rw [t1, Option.bind_some]
  obtain ⟨r, r1, r2, r3, r4⟩ := utcTuple_spec t t2 h (1/2 / 1000000)
  have e0 : taiOf L b D hh mi ((s : K) + us / 1000000 + 1/2 / 1000000) =
      taiOf L b D hh mi ((s : K) + us / 1000000) + 1/2 / 1000000 := by unfold taiOf; ring
  rw [t4, ← e0] at r3
  obtain ⟨e1, e2, e3, e4⟩ := taiOf_inj r2 hv' r3
  rw [e1, (C03_reads_civil_date _ _ _ _ _).2 hd] at r4
  unfold Time.utcDatetimeAndLeapSecond
  rw [r1]
  have em : astypeInt (r.second * 1000000) = s * 1000000 + us := by
    rw [e4, astypeInt_of_nonneg (by
      have : (0:K) ≤ 1/2/1000000 := by norm_num
      have := hs.1
      positivity), Int.floor_eq_iff]
    push_cast
    constructor
    · linarith
    · have : ((s : K) + us / 1000000 + 1/2 / 1000000) * 1000000 = s * 1000000 + us + 1/2 := by ring
      rw [this]; norm_num
  simp only [em, e2, e3]
  have q1 : (s * 1000000 + us) / 1000000 = s := by omega
  have q2 : (s * 1000000 + us) % 1000000 = us := by omega
  have q3 : s / 60 = 0 := by omega
  rw [q1, q2, q3, sub_zero]
  simp_all

/-- The Julian day on which 1582 October 15 begins, 12:34:56.789012 UTC. -/
example : (exampleTs.fromDatetime 1582 10 15 12 34 56 789012).bind (·.utcDatetimeAndLeapSecond) =
    some ⟨1582, 10, 15, 12, 34, 56, 789012, 0⟩ :=
  C08_datetime_roundtrip exampleTs_ok exampleTs_cutoff
    ((C03_reads_civil_date _ _ _ _ _).1 (by decide : computeCalendarDate 2299161 _ = _))
    (by decide) (by decide) (by decide) (by decide)

/-- C08 (`utc_strftime`).  With a format whose finest unit is seconds, the fields passed to
`strftime` are the nearest whole-second reading. -/
theorem C08_strftime_second (t : Time K) (ht : t.Coherent) (h : IsLeapTable t.ts L b) :
    ∃ f, t.utcStrftime .second = some f ∧
      NearestReading t.ts.cutoff L b 1 t.taiInstant f.year f.month f.day f.hour f.minute
        (f.second : K) := by
  obtain ⟨r, r1, r0, r2⟩ := nearest_of_tuple 1 (by norm_num) t ht h (1/2) (by simp)
  unfold Time.utcStrftime
  simp only [StrftimeUnit.offset, r1]
  rw [if_neg (by decide)]
  refine ⟨_, rfl, ?_⟩
  simp only [astypeInt_of_nonneg r0]
  have : ⌊(r.second - ⌊r.second⌋) * ((1 : ℕ) : K)⌋ = 0 := by
    rw [Nat.cast_one, mul_one, Int.floor_eq_zero_iff]
    exact ⟨by have := Int.floor_le r.second; linarith, by
      have := Int.lt_floor_add_one r.second; linarith⟩
  rw [this] at r2
  simpa using r2

/-- C08 (`utc_strftime`, weekday and day of year).  For every format, the weekday passed is that of
the civil day passed (Monday = 0, as day number 0 was a Monday: see `C02_weekday`) and the day of
year counts days from January 1 (= 1) of the year passed. -/
theorem C08_strftime_weekday (t : Time K) (ht : t.Coherent) (h : IsLeapTable t.ts L b)
    (hc : GoodCutoff t.ts.cutoff) (u : StrftimeUnit) :
    ∃ f D, t.utcStrftime u = some f ∧ CivilDate t.ts.cutoff f.year f.month f.day D ∧
      f.weekday = D % 7 ∧ ∀ D0, CivilDate t.ts.cutoff f.year 1 1 D0 → f.yday = D - D0 + 1 := by
  obtain ⟨r, r1, r2, r3, r4⟩ := utcTuple_spec t ht h u.offset
  unfold Time.utcStrftime
  simp only [r1]
  by_cases hu : u = .micro
  · rw [if_pos hu]
    refine ⟨_, r.jd, rfl, (C03_reads_civil_date _ _ _ _ _).1 r4, rfl, fun D0 h0 => ?_⟩
    have := C03_civil_date_to_jd _ hc _ _ _ _ h0
    simp only at this ⊢
    omega
  · rw [if_neg hu]
    refine ⟨_, r.jd, rfl, (C03_reads_civil_date _ _ _ _ _).1 r4, rfl, fun D0 h0 => ?_⟩
    have := C03_civil_date_to_jd _ hc _ _ _ _ h0
    simp only at this ⊢
    omega

/-- C08 (`utc_strftime`, minutes).  With a format whose finest unit is minutes, the minute shown
exists and starts within 30 seconds of the instant, except that in a minute that ends with a leap
second the instant may be up to (but excluding) 31 seconds after its start. -/
theorem C08_strftime_minute (t : Time K) (ht : t.Coherent) (h : IsLeapTable t.ts L b) :
    ∃ f D, t.utcStrftime .minute = some f ∧ CivilDate t.ts.cutoff f.year f.month f.day D ∧
      ValidUtc L D f.hour f.minute (0 : K) ∧
      -30 ≤ t.taiInstant - taiOf L b D f.hour f.minute (0 : K) ∧
      (t.taiInstant - taiOf L b D f.hour f.minute (0 : K) < 30 ∨
        (f.hour = 23 ∧ f.minute = 59 ∧ D + 1 ∈ L ∧
          t.taiInstant - taiOf L b D f.hour f.minute (0 : K) < 31)) := by
  obtain ⟨r, r1, r2, r3, r4⟩ := utcTuple_spec t ht h 30
  unfold Time.utcStrftime
  simp only [StrftimeUnit.offset, r1]
  rw [if_neg (by decide)]
  refine ⟨_, r.jd, rfl, (C03_reads_civil_date _ _ _ _ _).1 r4,
    validUtc_cut r2 (le_refl _) r2.2.2.2.2.1, ?_, ?_⟩
  · have e : taiOf L b r.jd r.hour r.minute r.second =
        taiOf L b r.jd r.hour r.minute (0 : K) + r.second := by unfold taiOf; ring
    have := r2.2.2.2.2.1
    show -30 ≤ t.taiInstant - taiOf L b r.jd r.hour r.minute (0 : K)
    linarith
  · have e : taiOf L b r.jd r.hour r.minute r.second =
        taiOf L b r.jd r.hour r.minute (0 : K) + r.second := by unfold taiOf; ring
    rcases r2.2.2.2.2.2 with h6 | ⟨h23, h59, h61, hm⟩
    · left
      show t.taiInstant - taiOf L b r.jd r.hour r.minute (0 : K) < 30
      linarith
    · right
      refine ⟨h23, h59, hm, ?_⟩
      show t.taiInstant - taiOf L b r.jd r.hour r.minute (0 : K) < 31
      linarith

/-- Finding (C08): in the 61-second minute before a leap second the minute shown is not always the
nearest: 1972-06-30 23:59:30.75 prints as 23:59 although 00:00 is nearer. -/
theorem C08_strftime_minute_not_nearest :
    ∃ t : Time ℚ, exampleTs.utc 1972 6 (30 : ℤ) (23 : ℤ) (59 : ℤ) (30 + 3/4) = some t ∧
      ∃ f, t.utcStrftime .minute = some f ∧ (f.hour, f.minute) = (23, 59) ∧
      taiOf [2441500, 2441684, 2442049] 10 2441500 0 0 (0 : ℚ) - t.taiInstant <
        t.taiInstant - taiOf [2441500, 2441684, 2442049] 10 2441499 23 59 (0 : ℚ) := by
  have hd : CivilDate exampleTs.cutoff 1972 6 30 2441499 :=
    (C03_reads_civil_date _ _ _ _ _).1 (by decide)
  obtain ⟨t, h1, h2, h3, h4⟩ :=
    C05_utc_instant exampleTs_ok exampleTs_cutoff hd 23 59 (30 + 3/4 : ℚ)
  refine ⟨t, h1, ?_⟩
  obtain ⟨r, r1, r2, r3, r4⟩ := utcTuple_spec t h2 (h3 ▸ exampleTs_ok) 30
  have hv : ValidUtc [2441500, 2441684, 2442049] 2441499 23 59 (60 + 3/4 : ℚ) :=
    ⟨by norm_num, by norm_num, by norm_num, by norm_num, by norm_num,
      Or.inr ⟨rfl, rfl, by norm_num, by decide⟩⟩
  obtain ⟨e1, e2, e3, e4⟩ := taiOf_inj (b := 10) r2 hv (by
    rw [r3, h4]; unfold taiOf; push_cast; ring)
  unfold Time.utcStrftime
  simp only [StrftimeUnit.offset, r1]
  rw [if_neg (by decide)]
  refine ⟨_, rfl, by simp only [e2, e3], ?_⟩
  rw [h4]
  norm_num [taiOf, taiMinusUtc]

/-- The fields of the UTC tuple and the raw UTC seconds describe the same second of the same day. -/
theorem utcTuple_utcSeconds (t : Time K) (ht : t.Coherent) (h : IsLeapTable t.ts L b) (offset : K) :
    ∃ u r, t.utcSeconds offset = some u ∧ t.utcTuple offset = some r ∧
      u.seconds + u.fr =
        ((r.jd * 86400 - 43200 + 3600 * r.hour + 60 * r.minute : ℤ) : K) + r.second := by
  obtain ⟨u, fr, leap, hu, h0, h1, hT⟩ := utcSeconds_spec t ht h offset
  refine ⟨_, _, hu, by unfold Time.utcTuple; rw [hu], ?_⟩
  simp only [astypeInt_intCast]
  generalize (if leap = true then (1 : ℤ) else 0) = l
  rw [← add_assoc, ← Int.cast_add]
  congr 2
  omega

/-- C06 (ordinal).  `toordinal()` is the proleptic Gregorian ordinal of the UTC day (day number
1721426 is ordinal 1) plus the time of day as a fraction of 86400 seconds. -/
theorem C06_toordinal (t : Time K) (ht : t.Coherent) (h : IsLeapTable t.ts L b) :
    ∃ r, t.utcTuple 0 = some r ∧ t.toordinal =
      some ((r.jd - 1721425 : ℤ) + (3600 * r.hour + 60 * r.minute + r.second) / 86400) := by
  obtain ⟨u, r, hu, hr, he⟩ := utcTuple_utcSeconds t ht h 0
  refine ⟨r, hr, ?_⟩
  unfold Time.toordinal
  rw [hu]
  simp only [Option.some.injEq, dayS]
  have : u.seconds - 148731076800 + u.fr = (u.seconds + u.fr) - 148731076800 := by ring
  rw [this, he]
  push_cast
  ring

/-- Finding (C06): inside a leap second `toordinal()` already exceeds the ordinal of the following
midnight, so it runs backwards when the leap second ends. -/
theorem C06_toordinal_not_monotone :
    ∃ t t' : Time ℚ, exampleTs.utc 1972 6 (30 : ℤ) (23 : ℤ) (59 : ℤ) (60 + 1/2) = some t ∧
      exampleTs.utc 1972 7 (1 : ℤ) (0 : ℤ) (0 : ℤ) 0 = some t' ∧
      t.taiInstant < t'.taiInstant ∧
      ∃ o o', t.toordinal = some o ∧ t'.toordinal = some o' ∧ o' < o := by
  have hd : CivilDate exampleTs.cutoff 1972 6 30 2441499 :=
    (C03_reads_civil_date _ _ _ _ _).1 (by decide)
  have hd' : CivilDate exampleTs.cutoff 1972 7 1 2441500 :=
    (C03_reads_civil_date _ _ _ _ _).1 (by decide)
  obtain ⟨t, h1, h2, h3, h4⟩ :=
    C05_utc_instant exampleTs_ok exampleTs_cutoff hd 23 59 (60 + 1/2 : ℚ)
  obtain ⟨t', h1', h2', h3', h4'⟩ :=
    C05_utc_instant exampleTs_ok exampleTs_cutoff hd' 0 0 (0 : ℚ)
  have hr := C05_utc_roundtrip exampleTs_ok exampleTs_cutoff hd
    (hh := 23) (mi := 59) (s := (60 + 1/2 : ℚ))
    ⟨by norm_num, by norm_num, by norm_num, by norm_num, by norm_num,
      Or.inr ⟨rfl, rfl, by norm_num, by decide⟩⟩
  have hr' := C05_utc_roundtrip exampleTs_ok exampleTs_cutoff hd'
    (hh := 0) (mi := 0) (s := (0 : ℚ))
    ⟨by norm_num, by norm_num, by norm_num, by norm_num, by norm_num, Or.inl (by norm_num)⟩
  rw [h1, Option.bind_some] at hr
  rw [h1', Option.bind_some] at hr'
  obtain ⟨r, r1, r2⟩ := C06_toordinal t h2 (h3 ▸ exampleTs_ok)
  obtain ⟨r', r1', r2'⟩ := C06_toordinal t' h2' (h3' ▸ exampleTs_ok)
  rw [hr, Option.some.injEq] at r1
  rw [hr', Option.some.injEq] at r1'
  subst r1 r1'
  refine ⟨t, t', h1, h1', ?_, _, _, r2, r2', by norm_num⟩
  rw [h4, h4']
  norm_num [taiOf, taiMinusUtc]

/-- C06 (offset in use).  Outside leap seconds the library's TAI−UTC (hence `dut1`) is that of the
civil day; inside a leap second it is half a second more (finding: `dut1` is then off by 0.5 s
from either convention). -/
theorem C06_leap_seconds (t : Time K) (ht : t.Coherent) (h : IsLeapTable t.ts L b) :
    ∃ r, t.utcTuple 0 = some r ∧ t.leapSeconds =
      some (((taiMinusUtc L b r.jd : ℤ) : K) + if 60 ≤ r.second then 1/2 else 0) := by
  obtain ⟨⟨n, hn⟩, h0, h1, hT⟩ := ht
  have hf : ⌊t.taiSeconds.2⌋ = 0 := Int.floor_eq_zero_iff.2 ⟨h0, h1⟩
  unfold Time.utcTuple Time.utcSeconds Time.leapSeconds
  simp only [pyDivmod_one, add_zero, hf, Int.cast_zero, sub_zero]
  rw [hn]
  rcases interp_tai h n with ⟨k, hk, hc, hk0⟩ | ⟨k, hk, hc, hk0, m, hm, hmid⟩
  · rw [hk]
    refine ⟨_, rfl, ?_⟩
    simp only [Int.floor_intCast, sub_self, gt_iff_lt, lt_irrefl, decide_false, Bool.false_eq_true,
      if_false, ← Int.cast_sub, astypeInt_intCast, sub_zero, add_zero]
    rw [if_neg, add_zero, taiMinusUtc, filter_le_eq_cnt, hc]
    rw [not_le]
    have : (((n - (b + k) + 43200) % 86400 % 60 : ℤ) : K) ≤ ((59 : ℤ) : K) :=
      Int.cast_le.2 (by omega)
    push_cast at this
    linarith
  · rw [hk]
    have hfl : ⌊((b + k : ℤ) : K) + 1/2⌋ = b + k := by
      rw [Int.floor_eq_iff]
      constructor <;> norm_num
    refine ⟨_, rfl, ?_⟩
    have hpos : (0 : K) < 1/2 := by norm_num
    simp only [hfl, add_sub_cancel_left, gt_iff_lt, hpos, decide_true, if_true, ← Int.cast_sub,
      astypeInt_intCast]
    rw [if_pos, taiMinusUtc]
    · have := filter_le_eq_cnt L (n - (b + k) - 1)
      rw [this, hc]
    · have e : (n - (b + k) - 1 + 43200) % 86400 % 60 = 59 := by unfold midnight at hmid; omega
      rw [e]; push_cast; linarith

/-- `dut1` is UT1−UTC outside leap seconds: 32.184 s + (TAI−UTC) − ∆T. -/
theorem C06_dut1 (t : Time K) (ht : t.Coherent) (h : IsLeapTable t.ts L b) :
    ∃ r, t.utcTuple 0 = some r ∧ (r.second < 60 → t.dut1 =
      some (32184 / 1000 + (taiMinusUtc L b r.jd : ℤ) - t.ts.deltaT (t.whole + t.ttFraction))) := by
  obtain ⟨r, hr, hl⟩ := C06_leap_seconds t ht h
  refine ⟨r, hr, fun hlt => ?_⟩
  unfold Time.dut1
  rw [hl, if_neg (not_le.2 hlt)]
  simp

/-! ### C09: calendar tuples of TT, TAI, TDB, UT1 -/

/-- C09.  The calendar tuple of a Julian date has an existing civil date, in-range time fields, and
recombines to exactly the date it came from, whichever way that was split in two. -/
theorem C09_calendar_tuple (jd fraction : K) (o : Option ℤ) :
    let c := calendarTuple jd fraction o
    ∃ D, CivilDate o c.year c.month c.day D ∧ 0 ≤ c.hour ∧ c.hour ≤ 23 ∧ 0 ≤ c.minute ∧
      c.minute ≤ 59 ∧ 0 ≤ c.second ∧ c.second < 60 ∧
      (D : K) - 1/2 + (3600 * c.hour + 60 * c.minute + c.second) / 86400 = jd + fraction := by
  intro c
  set x := jd - ⌊jd⌋ + fraction + 1/2 with hx
  have f0 := Int.floor_le x
  have f1 := Int.lt_floor_add_one x
  set y := (x - ⌊x⌋) * 86400 with hy
  have y0 : 0 ≤ y := by rw [hy]; exact mul_nonneg (by linarith) (by norm_num)
  have y1 : y < 86400 := by rw [hy]; linarith
  have hm : (0 : K) < 60 := by norm_num
  have g0 : (⌊y / 60⌋ : K) * 60 ≤ y := (le_div_iff₀ hm).1 (Int.floor_le _)
  have g1 : y < ((⌊y / 60⌋ : K) + 1) * 60 := (div_lt_iff₀ hm).1 (Int.lt_floor_add_one _)
  have hc : c = ⟨(computeCalendarDate (⌊jd⌋ + ⌊x⌋) o).year, (computeCalendarDate (⌊jd⌋ + ⌊x⌋) o).month,
      (computeCalendarDate (⌊jd⌋ + ⌊x⌋) o).day, ⌊y / 60⌋ / 60, ⌊y / 60⌋ % 60, y - 60 * ⌊y / 60⌋⟩ := by
    simp only [c, calendarTuple, ← hx, ← Int.cast_add, astypeInt_intCast,
      pyDivmod, pyFloorDiv, pyMod, ← hy, div_one, one_mul]
  have m0 : 0 ≤ ⌊y / 60⌋ := Int.floor_nonneg.2 (div_nonneg y0 hm.le)
  have m1 : ⌊y / 60⌋ < 1440 := by
    rw [Int.floor_lt, div_lt_iff₀ hm]; push_cast; linarith
  rw [hc]
  refine ⟨⌊jd⌋ + ⌊x⌋, (C03_reads_civil_date _ _ _ _ _).1 rfl, ?_, ?_, ?_, ?_, ?_, ?_, ?_⟩
  · show 0 ≤ ⌊y / 60⌋ / 60; omega
  · show ⌊y / 60⌋ / 60 ≤ 23; omega
  · show 0 ≤ ⌊y / 60⌋ % 60; omega
  · show ⌊y / 60⌋ % 60 ≤ 59; omega
  · show 0 ≤ y - 60 * ⌊y / 60⌋; linarith
  · show y - 60 * ⌊y / 60⌋ < 60; linarith
  · show ((⌊jd⌋ + ⌊x⌋ : ℤ) : K) - 1/2 + (3600 * ((⌊y / 60⌋ / 60 : ℤ) : K) +
      60 * ((⌊y / 60⌋ % 60 : ℤ) : K) + (y - 60 * ⌊y / 60⌋)) / 86400 = jd + fraction
    have e : (60 : K) * ((⌊y / 60⌋ / 60 : ℤ) : K) + ((⌊y / 60⌋ % 60 : ℤ) : K) = ⌊y / 60⌋ := by
      exact_mod_cast Int.mul_ediv_add_emod ⌊y / 60⌋ 60
    have e2 : 3600 * ((⌊y / 60⌋ / 60 : ℤ) : K) + 60 * ((⌊y / 60⌋ % 60 : ℤ) : K) + (y - 60 * ⌊y / 60⌋)
        = y := by rw [← e]; ring
    rw [e2, hy, hx]
    push_cast
    ring

/-- C09 (uniqueness).  Calendar fields in range that denote the same Julian date are the same. -/
theorem calendar_fields_unique {D D' h h' mi mi' : ℤ} {s s' : K}
    (a : 0 ≤ h ∧ h ≤ 23 ∧ 0 ≤ mi ∧ mi ≤ 59 ∧ 0 ≤ s ∧ s < 60)
    (a' : 0 ≤ h' ∧ h' ≤ 23 ∧ 0 ≤ mi' ∧ mi' ≤ 59 ∧ 0 ≤ s' ∧ s' < 60)
    (e : (D : K) - 1/2 + (3600 * h + 60 * mi + s) / 86400 =
      (D' : K) - 1/2 + (3600 * h' + 60 * mi' + s') / 86400) :
    D = D' ∧ h = h' ∧ mi = mi' ∧ s = s' := by
  have e2 : ((86400 * D + 3600 * h + 60 * mi : ℤ) : K) + s =
      ((86400 * D' + 3600 * h' + 60 * mi' : ℤ) : K) + s' := by
    push_cast
    have := congrArg (· * (86400 : K)) e
    beta_reduce at this
    field_simp at this
    linarith
  have hs : (⌊s⌋ : ℤ) ≤ 59 := by
    have : ⌊s⌋ < 60 := Int.floor_lt.2 (by push_cast; exact a.2.2.2.2.2)
    omega
  have hs' : (⌊s'⌋ : ℤ) ≤ 59 := by
    have : ⌊s'⌋ < 60 := Int.floor_lt.2 (by push_cast; exact a'.2.2.2.2.2)
    omega
  have hs0 : 0 ≤ ⌊s⌋ := Int.floor_nonneg.2 a.2.2.2.2.1
  have hs0' : 0 ≤ ⌊s'⌋ := Int.floor_nonneg.2 a'.2.2.2.2.1
  have hfl := congrArg Int.floor e2
  rw [Int.floor_intCast_add, Int.floor_intCast_add] at hfl
  have d1 : D = D' := by omega
  have d2 : h = h' := by omega
  have d3 : mi = mi' := by omega
  refine ⟨d1, d2, d3, ?_⟩
  rw [d1, d2, d3] at e2
  exact add_left_cancel e2

/-- C09 (round trip).  The constructors `ts.tt(...)`, `ts.tai(...)` turn an existing civil date and
time of day into a Julian date whose calendar tuple is the same date and time. -/
theorem C09_calendar_roundtrip (ts : Timescale K) (hc : GoodCutoff ts.cutoff) {y m d D : ℤ}
    (hd : CivilDate ts.cutoff y m d D) {h mi : ℤ} {s : K}
    (hv : 0 ≤ h ∧ h ≤ 23 ∧ 0 ≤ mi ∧ mi ≤ 59 ∧ 0 ≤ s ∧ s < 60) :
    calendarTuple (ts.jdOf y m d h mi s).1 (ts.jdOf y m d h mi s).2 ts.cutoff =
      ⟨y, m, d, h, mi, s⟩ := by
  obtain ⟨D', hD', b1, b2, b3, b4, b5, b6, b7⟩ :=
    C09_calendar_tuple (ts.jdOf y m d h mi s).1 (ts.jdOf y m d h mi s).2 ts.cutoff
  have e : (ts.jdOf y m d h mi s).1 + (ts.jdOf y m d h mi s).2 =
      (D : K) - 1/2 + (3600 * h + 60 * mi + s) / 86400 := by
    simp only [Timescale.jdOf, julianDayFrac_intCast, C03_civil_date_to_jd _ hc _ _ _ _ hd, dayS]
    ring
  rw [e] at b7
  obtain ⟨e1, e2, e3, e4⟩ := calendar_fields_unique ⟨b1, b2, b3, b4, b5, b6⟩ hv b7
  rw [e1] at hD'
  have r1 := (C03_reads_civil_date _ _ _ _ _).2 hD'
  rw [(C03_reads_civil_date _ _ _ _ _).2 hd] at r1
  generalize calendarTuple (ts.jdOf y m d h mi s).1 (ts.jdOf y m d h mi s).2 ts.cutoff = c at *
  obtain ⟨_, _, _, _, _, _⟩ := c
  simp_all

example : calendarTuple (exampleTs.jdOf 2024 2 (29 : ℤ) (12 : ℤ) (34 : ℤ) (56 + 7/8)).1
    (exampleTs.jdOf 2024 2 (29 : ℤ) (12 : ℤ) (34 : ℤ) (56 + 7/8)).2 exampleTs.cutoff =
    ⟨2024, 2, 29, 12, 34, 56 + 7/8⟩ :=
  C09_calendar_roundtrip exampleTs exampleTs_cutoff
    ((C03_reads_civil_date _ _ _ _ 2460370).1 (by decide)) (by norm_num)

/-- C09 (text in TT, TAI, TDB, UT1).  A format whose finest unit is seconds shows a whole second
within half a second of the instant; for dates from Julian date −½ on, the weekday shown is that
of the civil day shown. -/
theorem C09_strftime_second (ts : Timescale K) (jd fraction : K) :
    let f := ts.strftime .second jd fraction
    ∃ D, CivilDate ts.cutoff f.year f.month f.day D ∧ 0 ≤ f.hour ∧ f.hour ≤ 23 ∧ 0 ≤ f.minute ∧
      f.minute ≤ 59 ∧ 0 ≤ f.second ∧ f.second ≤ 59 ∧
      |(D : K) - 1/2 + (3600 * f.hour + 60 * f.minute + f.second) / 86400 - (jd + fraction)|
        ≤ 1/2 / 86400 ∧
      (-1/2 ≤ jd + fraction → f.weekday = D % 7) := by
  intro f
  obtain ⟨D, hD, b1, b2, b3, b4, b5, b6, b7⟩ :=
    C09_calendar_tuple jd (fraction + 1/2 / 86400) ts.cutoff
  have hf : f = ⟨_, _, _, _, _, _, _, _, _⟩ := rfl
  have hsec : f.second = ⌊(calendarTuple jd (fraction + 1/2 / 86400) ts.cutoff).second⌋ := by
    rw [hf]
    exact astypeInt_of_nonneg b5
  have hfl0 := Int.floor_le (calendarTuple jd (fraction + 1/2 / 86400) ts.cutoff).second
  have hfl1 := Int.lt_floor_add_one (calendarTuple jd (fraction + 1/2 / 86400) ts.cutoff).second
  refine ⟨D, hD, b1, b2, b3, b4, ?_, ?_, ?_, ?_⟩
  · rw [hsec]; exact Int.floor_nonneg.2 b5
  · rw [hsec]
    have := Int.floor_lt.2 (show (calendarTuple jd (fraction + 1/2 / 86400) ts.cutoff).second <
      ((60 : ℤ) : K) by push_cast; exact b6)
    omega
  · rw [hsec]
    change |(D : K) - 1/2 + (3600 * ((calendarTuple jd (fraction + 1/2 / 86400) ts.cutoff).hour : K) +
      60 * ((calendarTuple jd (fraction + 1/2 / 86400) ts.cutoff).minute : K) +
      (⌊(calendarTuple jd (fraction + 1/2 / 86400) ts.cutoff).second⌋ : K)) / 86400 -
        (jd + fraction)| ≤ _
    generalize calendarTuple jd (fraction + 1/2 / 86400) ts.cutoff = c at *
    rw [abs_le]
    have e : (D : K) - 1/2 + (3600 * c.hour + 60 * c.minute + ⌊c.second⌋) / 86400 - (jd + fraction) =
        1/2/86400 - (c.second - ⌊c.second⌋) / 86400 := by
      have : jd + fraction = (D : K) - 1/2 + (3600 * c.hour + 60 * c.minute + c.second) / 86400
        - 1/2/86400 := by rw [b7]; ring
      rw [this]; ring
    rw [e]
    have hp : (0 : K) < 86400 := by norm_num
    have q1 : (c.second - ⌊c.second⌋) / 86400 ≤ 1 / 86400 :=
      div_le_div_of_nonneg_right (by linarith) hp.le
    have q0 : 0 ≤ (c.second - ⌊c.second⌋) / 86400 := div_nonneg (by linarith) hp.le
    have q2 : (1 : K) / 86400 = 1/2/86400 + 1/2/86400 := by norm_num
    constructor <;> linarith
  · intro hge
    rw [hf]
    show astypeInt (fraction + 1/2/86400 + 1/2 + jd) % 7 = D % 7
    have hp : (0 : K) < 1/2/86400 := by norm_num
    rw [astypeInt_of_nonneg (by linarith)]
    congr 1
    rw [Int.floor_eq_iff]
    have hsum : fraction + 1/2/86400 + 1/2 + jd = (D : K) +
        (3600 * (calendarTuple jd (fraction + 1/2 / 86400) ts.cutoff).hour +
        60 * (calendarTuple jd (fraction + 1/2 / 86400) ts.cutoff).minute +
        (calendarTuple jd (fraction + 1/2 / 86400) ts.cutoff).second) / 86400 := by linarith
    rw [hsum]
    generalize calendarTuple jd (fraction + 1/2 / 86400) ts.cutoff = c at *
    have i1 : (0 : K) ≤ c.hour := by exact_mod_cast b1
    have i2 : (c.hour : K) ≤ 23 := by exact_mod_cast b2
    have i3 : (0 : K) ≤ c.minute := by exact_mod_cast b3
    have i4 : (c.minute : K) ≤ 59 := by exact_mod_cast b4
    constructor
    · have : 0 ≤ (3600 * (c.hour : K) + 60 * c.minute + c.second) / 86400 := by positivity
      linarith
    · have : (3600 * (c.hour : K) + 60 * c.minute + c.second) / 86400 < 1 := by
        rw [div_lt_one (by norm_num)]; linarith
      linarith

/-- C09 (text in TT, TAI, TDB, UT1, every format).  The fields shown are those of the civil instant the given date has
after the rounding offset of the format's finest unit is added (half a second for seconds, half a minute for minutes),
cut off below a whole second, or below a whole microsecond if the format shows those; the day of the year counts from
January 1 of the year shown. -/
theorem C09_strftime_all (ts : Timescale K) (hc : GoodCutoff ts.cutoff) (u : StrftimeUnit) (jd fraction : K) :
    let f := ts.strftime u jd fraction
    let offset : K := match u with | .micro => 1 / 10 ^ 16 | .second => 1 / 2 | .minute => 30 | .other => 0
    let unit : K := if u = .micro then 1 / 1000000 else 1
    ∃ D, CivilDate ts.cutoff f.year f.month f.day D ∧ 0 ≤ f.hour ∧ f.hour ≤ 23 ∧ 0 ≤ f.minute ∧
      f.minute ≤ 59 ∧ 0 ≤ f.second ∧ f.second ≤ 59 ∧ 0 ≤ f.usec ∧ f.usec ≤ 999999 ∧ (u ≠ .micro → f.usec = 0) ∧
      (let shown : K := ((D : K) - 1/2) * 86400 + 3600 * f.hour + 60 * f.minute + f.second + f.usec / 1000000
       shown ≤ (jd + fraction) * 86400 + offset ∧ (jd + fraction) * 86400 + offset < shown + unit) ∧
      (∀ D0, CivilDate ts.cutoff f.year 1 1 D0 → D0 ≤ D → f.yday = D - D0 + 1) := by
  intro f offset unit
  have hoff : (StrftimeUnit.offset u : K) = offset := by cases u <;> rfl
  obtain ⟨D, hD, b1, b2, b3, b4, b5, b6, b7⟩ := C09_calendar_tuple jd (fraction + offset / 86400) ts.cutoff
  have hb : ((D : K) - 1/2) * 86400 + 3600 * (calendarTuple jd (fraction + offset / 86400) ts.cutoff).hour +
      60 * (calendarTuple jd (fraction + offset / 86400) ts.cutoff).minute +
      (calendarTuple jd (fraction + offset / 86400) ts.cutoff).second = (jd + fraction) * 86400 + offset := by
    have : (jd + fraction) * 86400 + offset = (jd + (fraction + offset / 86400)) * 86400 := by
      rw [← add_assoc, add_mul (jd + fraction), div_mul_cancel₀]; norm_num
    rw [this, ← b7, add_mul, div_mul_cancel₀]
    · ring
    · norm_num
  have hyd : ∀ D0, CivilDate ts.cutoff (calendarTuple jd (fraction + offset / 86400) ts.cutoff).year 1 1 D0 → D0 ≤ D →
      astypeInt (jd + (fraction + offset / 86400) + 3/2 -
        ((julianDay (calendarTuple jd (fraction + offset / 86400) ts.cutoff).year 1 1 ts.cutoff : ℤ) : K)) = D - D0 + 1 := by
    intro D0 h0 hle
    rw [C03_civil_date_to_jd _ hc _ _ _ _ h0, ← b7]
    generalize calendarTuple jd (fraction + offset / 86400) ts.cutoff = c at *
    have i1 : (0 : K) ≤ c.hour := by exact_mod_cast b1
    have i2 : (c.hour : K) ≤ 23 := by exact_mod_cast b2
    have i3 : (0 : K) ≤ c.minute := by exact_mod_cast b3
    have i4 : (c.minute : K) ≤ 59 := by exact_mod_cast b4
    have i5 : (D0 : K) ≤ D := by exact_mod_cast hle
    have q0 : 0 ≤ (3600 * (c.hour : K) + 60 * c.minute + c.second) / 86400 := by positivity
    have q1 : (3600 * (c.hour : K) + 60 * c.minute + c.second) / 86400 < 1 := by
      rw [div_lt_one (by norm_num)]; linarith
    rw [astypeInt_of_nonneg (by linarith), Int.floor_eq_iff]
    push_cast
    constructor <;> linarith
  have hfl0 := Int.floor_le (calendarTuple jd (fraction + offset / 86400) ts.cutoff).second
  have hfl1 := Int.lt_floor_add_one (calendarTuple jd (fraction + offset / 86400) ts.cutoff).second
  have hs60 := Int.floor_lt.2 (show (calendarTuple jd (fraction + offset / 86400) ts.cutoff).second <
      ((60 : ℤ) : K) by push_cast; exact b6)
  by_cases hu : u = .micro
  · have hf : f = ⟨(calendarTuple jd (fraction + offset / 86400) ts.cutoff).year,
        (calendarTuple jd (fraction + offset / 86400) ts.cutoff).month,
        (calendarTuple jd (fraction + offset / 86400) ts.cutoff).day,
        (calendarTuple jd (fraction + offset / 86400) ts.cutoff).hour,
        (calendarTuple jd (fraction + offset / 86400) ts.cutoff).minute,
        astypeInt ((calendarTuple jd (fraction + offset / 86400) ts.cutoff).second * 1000000) / 1000000,
        astypeInt ((calendarTuple jd (fraction + offset / 86400) ts.cutoff).second * 1000000) % 1000000,
        astypeInt (fraction + offset / 86400 + 1/2 + jd) % 7,
        astypeInt (jd + (fraction + offset / 86400) + 3/2 -
          ((julianDay (calendarTuple jd (fraction + offset / 86400) ts.cutoff).year 1 1 ts.cutoff : ℤ) : K))⟩ := by
      simp only [f, Timescale.strftime, hoff, dayS]
      rw [if_pos hu]
    have hunit : unit = 1 / 1000000 := if_pos hu
    rw [hf, hunit]
    simp only
    have hm5 : 0 ≤ (calendarTuple jd (fraction + offset / 86400) ts.cutoff).second * 1000000 := by positivity
    rw [astypeInt_of_nonneg hm5]
    have g0 := Int.floor_le ((calendarTuple jd (fraction + offset / 86400) ts.cutoff).second * 1000000)
    have g1 := Int.lt_floor_add_one ((calendarTuple jd (fraction + offset / 86400) ts.cutoff).second * 1000000)
    have g2 := Int.floor_nonneg.2 hm5
    have g3 := Int.floor_lt.2 (show (calendarTuple jd (fraction + offset / 86400) ts.cutoff).second * 1000000 <
      ((60000000 : ℤ) : K) by push_cast; linarith)
    generalize calendarTuple jd (fraction + offset / 86400) ts.cutoff = c at *
    have hdm := Int.mul_ediv_add_emod ⌊c.second * 1000000⌋ 1000000
    have hm0 := Int.emod_nonneg ⌊c.second * 1000000⌋ (show (1000000 : ℤ) ≠ 0 by norm_num)
    have hm1 := Int.emod_lt_of_pos ⌊c.second * 1000000⌋ (show (0 : ℤ) < 1000000 by norm_num)
    have hq0 : 0 ≤ ⌊c.second * 1000000⌋ / 1000000 := Int.ediv_nonneg g2 (by norm_num)
    refine ⟨D, hD, b1, b2, b3, b4, hq0, by omega, hm0, by omega, fun h => absurd hu h, ?_, hyd⟩
    have hdm' : (1000000 : K) * ((⌊c.second * 1000000⌋ / 1000000 : ℤ) : K) + ((⌊c.second * 1000000⌋ % 1000000 : ℤ) : K) =
        (⌊c.second * 1000000⌋ : K) := by exact_mod_cast hdm
    rw [← hb]
    have e : ((⌊c.second * 1000000⌋ / 1000000 : ℤ) : K) + ((⌊c.second * 1000000⌋ % 1000000 : ℤ) : K) / 1000000 =
        (⌊c.second * 1000000⌋ : K) / 1000000 := by rw [← hdm']; ring
    have e1 : (⌊c.second * 1000000⌋ : K) / 1000000 ≤ c.second := by rw [div_le_iff₀ (by norm_num)]; exact g0
    have e2 : c.second < (⌊c.second * 1000000⌋ : K) / 1000000 + 1 / 1000000 := by
      rw [← add_div, lt_div_iff₀ (by norm_num)]; exact g1
    constructor <;> linarith
  · have hf : f = ⟨(calendarTuple jd (fraction + offset / 86400) ts.cutoff).year,
        (calendarTuple jd (fraction + offset / 86400) ts.cutoff).month,
        (calendarTuple jd (fraction + offset / 86400) ts.cutoff).day,
        (calendarTuple jd (fraction + offset / 86400) ts.cutoff).hour,
        (calendarTuple jd (fraction + offset / 86400) ts.cutoff).minute,
        astypeInt (calendarTuple jd (fraction + offset / 86400) ts.cutoff).second, 0,
        astypeInt (fraction + offset / 86400 + 1/2 + jd) % 7,
        astypeInt (jd + (fraction + offset / 86400) + 3/2 -
          ((julianDay (calendarTuple jd (fraction + offset / 86400) ts.cutoff).year 1 1 ts.cutoff : ℤ) : K))⟩ := by
      simp only [f, Timescale.strftime, hoff, dayS]
      rw [if_neg hu]
    have hunit : unit = 1 := if_neg hu
    rw [hf, hunit]
    simp only
    rw [astypeInt_of_nonneg b5]
    have g2 := Int.floor_nonneg.2 b5
    generalize calendarTuple jd (fraction + offset / 86400) ts.cutoff = c at *
    refine ⟨D, hD, b1, b2, b3, b4, g2, by omega, le_rfl, by norm_num, fun _ => trivial, ?_, hyd⟩
    rw [← hb]
    push_cast
    constructor <;> linarith

/-- Finding (C09): before Julian date −½ the weekday printed by `tt_strftime` and its siblings is
wrong, because the code truncates towards zero; e.g. 6 hours after Julian date −1. -/
theorem C09_weekday_wrong_before_jd_zero :
    ∃ f D, f = exampleTs.strftime .second (-1) (1/4) ∧
      CivilDate exampleTs.cutoff f.year f.month f.day D ∧ f.weekday ≠ D % 7 := by
  refine ⟨_, -1, rfl, (C03_reads_civil_date _ _ _ _ _).1 ?_, ?_⟩
  · decide +kernel
  · decide +kernel

end Skyfield
