import Verif.Model.Satellite
import Verif.Props.Utc

/-
C54: satellite epochs and identities.
-/
namespace Skyfield
open Spec
variable {K : Type*} [Field K] [LinearOrder K] [IsStrictOrderedRing K] [FloorRing K]

/-- **C54.** A two-digit year names the one year of 1957–2056 with those last two digits. -/
theorem C54_epoch_year (yy : ℤ) (h0 : 0 ≤ yy) (h1 : yy ≤ 99) :
    1957 ≤ satEpochYear yy ∧ satEpochYear yy ≤ 2056 ∧ satEpochYear yy % 100 = yy ∧
      ∀ y, 1957 ≤ y → y ≤ 2056 → y % 100 = yy → y = satEpochYear yy := by
  unfold satEpochYear
  split_ifs <;> refine ⟨by omega, by omega, by omega, fun y _ _ _ => by omega⟩

/-- **C54.** Different catalogue numbers get different target codes, and no code is that of a Solar System body or of the
barycenter (codes above -100000). -/
theorem C54_target (n m : ℤ) : (satTarget n = satTarget m ↔ n = m) ∧ (0 ≤ n → satTarget n ≤ -100000) := by
  unfold satTarget
  constructor
  · constructor <;> intro h <;> omega
  · intro h; omega

example : satEpochYear 57 = 1957 ∧ satEpochYear 56 = 2056 ∧ satTarget 25544 = -125544 := by decide

/-! ### Epochs -/

variable {ts : Timescale K} {L : List ℤ} {b : ℤ}

theorem julianDayFrac_floor (y m : ℤ) (d : K) (o : Option ℤ) :
    julianDayFrac y m d o = ((julianDay y m ⌊d⌋ o : ℤ) : K) + (d - ⌊d⌋) := by
  have key := julianDayFrac_intCast (K := K) y m ⌊d⌋ o
  rw [← key]
  cases o with
  | none => simp only [julianDayFrac]; ring
  | some c =>
    simp only [julianDayFrac]
    generalize 1461 * (y + (m - 1) / 12 + 4716 - if (m - 1) % 12 + 1 ≤ 2 then 1 else 0) / 4 = A
    generalize (153 * (((m - 1) % 12 + 1 + 9) % 12) + 2) / 5 = B
    generalize (38 - (y + (m - 1) / 12 + 4716 - (if (m - 1) % 12 + 1 ≤ 2 then 1 else 0) + 184) / 100 * 3 / 4) = C
    have : ((A : K) + d - 1402 + (B : K) ≥ (c : K)) ↔ ((A : K) + (⌊d⌋ : ℤ) - 1402 + (B : K) ≥ (c : K)) := by
      have e1 : ((A : K) + d - 1402 + (B : K) ≥ (c : K)) ↔ ((c - A + 1402 - B : ℤ) : K) ≤ d := by
        push_cast; constructor <;> intro h <;> linarith
      have e2 : ((A : K) + (⌊d⌋ : ℤ) - 1402 + (B : K) ≥ (c : K)) ↔ ((c - A + 1402 - B : ℤ) : K) ≤ (⌊d⌋ : ℤ) := by
        push_cast; constructor <;> intro h <;> linarith
      rw [e1, e2, Int.cast_le, Int.le_floor]
    by_cases h : (A : K) + d - 1402 + (B : K) ≥ (c : K)
    · rw [if_pos h, if_pos (this.1 h)]; ring
    · rw [if_neg h, if_neg (fun h' => h (this.2 h'))]; ring

theorem cnt_in_day (L : List ℤ) (J k : ℤ) (h0 : 0 ≤ k) (h1 : k < 86400) : cnt L (midnight J + k) = cnt L (midnight J) := by
  rw [← filter_le_eq_cnt, ← filter_le_eq_cnt]
  unfold midnight
  rw [show (86400 * J - 43200 + k + 43200) / 86400 = J by omega, show (86400 * J - 43200 + 43200) / 86400 = J by omega]

/-- `Timescale.utc` for a fractional day, and no hours, minutes or seconds. -/
theorem utc_frac (h : IsLeapTable ts L b) (y m : ℤ) (d : K) :
    ∃ t, ts.utc y m d 0 0 0 = some t ∧ t.Coherent ∧ t.ts = ts ∧
      (∃ u : ℤ, t.taiSeconds.1 = ((u + (b + cnt L u) : ℤ) : K)) ∧
      t.taiInstant = taiOf L b (julianDay y m ⌊d⌋ ts.cutoff) 0 0 ((d - ⌊d⌋) * 86400) := by
  have hf0 := Int.floor_le d
  have hf1 := Int.lt_floor_add_one d
  unfold Timescale.utc
  simp only [pyDivmod_one, julianDayFrac_floor]
  generalize julianDay y m ⌊d⌋ ts.cutoff = J
  set f := d - ⌊d⌋ with hf
  have g0 : 0 ≤ f * 86400 := by have : 0 ≤ f := by rw [hf]; linarith
                                positivity
  have g1 : f * 86400 < 86400 := by
    have : f < 1 := by rw [hf]; linarith
    linarith
  have hJ : ((J : K) + f - 1/2) * dayS = ((midnight J : ℤ) : K) + f * 86400 := by
    unfold midnight dayS; push_cast; ring
  have hk0 : 0 ≤ ⌊f * 86400⌋ := Int.floor_nonneg.2 g0
  have hk1 : ⌊f * 86400⌋ < 86400 := by
    apply Int.floor_lt.2; push_cast; exact g1
  rw [hJ, Int.floor_intCast_add, interp_utc h, cnt_in_day L J _ hk0 hk1]
  set k := ⌊f * 86400⌋ with hk
  have hk2 : (k : K) ≤ f * 86400 := Int.floor_le _
  have hk3 : f * 86400 < k + 1 := Int.lt_floor_add_one _
  have hfl : ⌊((midnight J : ℤ) : K) + f * 86400 - ((midnight J + k : ℤ) : K) + (0 * 3600 + 0 * 60 + 0)⌋ = 0 := by
    apply Int.floor_eq_iff.2
    push_cast
    constructor <;> linarith
  rw [hfl]
  refine ⟨_, rfl, ?_, rfl, ⟨midnight J + k, ?_⟩, ?_⟩
  · unfold Time.Coherent
    simp only [Time.taiSeconds, Time.taiInstant, Time.taiFraction]
    refine ⟨⟨midnight J + k + (b + cnt L (midnight J)), by push_cast; ring⟩, by push_cast; linarith, by push_cast; linarith, ?_⟩
    simp only [pyDivmod, pyFloorDiv, pyMod, dayS]; field_simp; ring
  · simp only [Time.taiSeconds, cnt_in_day L J _ hk0 hk1]
    push_cast; ring
  · simp only [Time.taiInstant, Time.taiFraction, pyDivmod, pyFloorDiv, pyMod, dayS, taiOf, taiMinusUtc_eq_cnt, midnight]
    push_cast
    field_simp
    ring

/-- **C54.** A TLE epoch is read as UTC: day 1.0 is the midnight starting 1 January of the year, and each further day of the year counts 86400
seconds of UTC.  (`cutoff`: the timescale's calendar cutoff, if set, is not later than 1956.) -/
theorem C54_tle_epoch (h : IsLeapTable ts L b) (hc : ∀ c, ts.cutoff = some c → c ≤ 2435839) (yy : ℤ) (h0 : 0 ≤ yy)
    (h1 : yy ≤ 99) (days : K) (hd : 1 ≤ days) (N : ℤ → ℤ → ℤ → ℤ) (hN : IsGregorianDayNumber N) :
    ∃ t, satEpochTle ts yy days = some t ∧ t.Coherent ∧
      t.taiInstant = taiOf L b (N (satEpochYear yy) 1 1 + (⌊days⌋ - 1)) 0 0 ((days - ⌊days⌋) * 86400) := by
  obtain ⟨y0, y1, -⟩ := C54_epoch_year yy h0 h1
  obtain ⟨t, t1, t2, -, -, t3⟩ := utc_frac h (satEpochYear yy) 1 days
  refine ⟨t, t1, t2, ?_⟩
  rw [t3]
  have hf : 1 ≤ ⌊days⌋ := Int.le_floor.2 (by exact_mod_cast hd)
  have hv : ValidDate gregorianLeap (satEpochYear yy) 1 1 := by simp [ValidDate, monthLength]
  have e1 : julianDay (satEpochYear yy) 1 ⌊days⌋ ts.cutoff = julianDay (satEpochYear yy) 1 ⌊days⌋ none := by
    cases hcut : ts.cutoff with
    | none => rfl
    | some c =>
      rw [julianDay_some, if_pos, julianDay_none]
      have := hc c hcut
      simp only [jdJ]
      omega
  rw [e1, ← C02_agrees_with_every_gregorian_count N hN _ _ _ hv]
  have := julianDay_day (satEpochYear yy) 1 1 (⌊days⌋ - 1)
  rw [show 1 + (⌊days⌋ - 1) = ⌊days⌋ by ring] at this
  rw [this]

/-- Specification: the UTC Julian date `jd` (days of 86400 s, as in the satellite's `jdsatepoch`) as TAI seconds. -/
def taiOfUtcJd (L : List ℤ) (b : ℤ) (jd : K) : K :=
  jd * 86400 + (taiMinusUtc L b ⌊jd + 1 / 2⌋ : ℤ)

/-- **C54.** The epoch of a satellite built from a `Satrec` is the UTC Julian date in its fields, provided that date is not
before the timescale's calendar cutoff. -/
theorem C54_satrec_epoch (h : IsLeapTable ts L b) (jd jdF : K) (hpos : 0 ≤ jd) (hF : 0 ≤ jdF)
    (hc : ∀ c, ts.cutoff = some c → 1794168 ≤ c ∧ c ≤ ⌊jd⌋) :
    ∃ t, satEpochSatrec ts jd jdF = some t ∧ t.Coherent ∧ t.taiInstant = taiOfUtcJd L b (jd + jdF) := by
  unfold satEpochSatrec
  simp only [pyDivmod_one]
  have hw : astypeInt ((⌊jd⌋ : ℤ) : K) = ⌊jd⌋ := by
    rw [astypeInt_of_nonneg (by exact_mod_cast Int.floor_nonneg.2 hpos), Int.floor_intCast]
  rw [hw]
  set W := ⌊jd⌋ with hW
  have hfl := Int.floor_le jd
  have hrt := C01_jd_roundtrip W
  have hvalid := C01_date_is_valid W
  simp only at hrt hvalid
  generalize computeCalendarDate W none = dt at *
  set x : K := (dt.day : K) + 1 / 2 + (jd - (W : ℤ)) + jdF with hx
  obtain ⟨t, t1, t2, -, -, t3⟩ := utc_frac h dt.year dt.month x
  refine ⟨t, t1, t2, ?_⟩
  rw [t3]
  have hx0 : (dt.day : K) ≤ x := by rw [hx]; linarith
  have hd0 : dt.day ≤ ⌊x⌋ := Int.le_floor.2 hx0
  have e1 : julianDay dt.year dt.month ⌊x⌋ ts.cutoff = julianDay dt.year dt.month ⌊x⌋ none := by
    cases hcut : ts.cutoff with
    | none => rfl
    | some c =>
      obtain ⟨c0, c1⟩ := hc c hcut
      have e2 : julianDay dt.year dt.month dt.day (some c) = W :=
        (C03_date_to_jd c c0 dt.year dt.month dt.day).2 _ C02_is_gregorian_day_number hvalid (by rw [hrt]; exact c1) |>.trans hrt
      rw [julianDay_some] at e2
      rw [julianDay_none] at hrt
      rw [julianDay_some, julianDay_none]
      have hj := jdJ_day dt.year dt.month dt.day (⌊x⌋ - dt.day)
      rw [show dt.day + (⌊x⌋ - dt.day) = ⌊x⌋ by ring] at hj
      by_cases hcc : c ≤ jdJ dt.year dt.month dt.day
      · rw [if_pos (by omega)]
      · rw [if_neg hcc] at e2
        have : corrOf dt.year dt.month = 0 := by omega
        split_ifs <;> omega
  have e3 : julianDay dt.year dt.month ⌊x⌋ none = W + (⌊x⌋ - dt.day) := by
    have := julianDay_day dt.year dt.month dt.day (⌊x⌋ - dt.day)
    rw [show dt.day + (⌊x⌋ - dt.day) = ⌊x⌋ by ring, hrt] at this
    exact this
  rw [e1, e3]
  have e4 : ⌊jd + jdF + 1 / 2⌋ = W + (⌊x⌋ - dt.day) := by
    have : jd + jdF + 1 / 2 = x + ((W - dt.day : ℤ) : K) := by rw [hx]; push_cast; ring
    rw [this, Int.floor_add_intCast]; ring
  unfold taiOfUtcJd taiOf
  rw [e4]
  have : jd + jdF = x - 1 / 2 - dt.day + (W : ℤ) := by rw [hx]; ring
  rw [this]
  push_cast
  ring

/-- **C54.** The epoch of a satellite built from an OMM record is the same UTC Julian date, for a whole part that is a multiple
of half a day (as the record's reader produces). -/
theorem C54_omm_epoch (h : IsLeapTable ts L b) (n : ℤ) (jdF : K) :
    ∃ t, satEpochOmm ts ((n : K) / 2) jdF = some t ∧ t.Coherent ∧ t.taiInstant = taiOfUtcJd L b ((n : K) / 2 + jdF) := by
  unfold satEpochOmm Timescale.utcJd
  simp only [pyDivmod_one]
  have e : (n : K) / 2 * dayS + (⌊jdF * dayS⌋ : ℤ) = ((n * 43200 + ⌊jdF * dayS⌋ : ℤ) : K) := by
    unfold dayS; push_cast; ring
  rw [e, interp_utc h]
  refine ⟨_, rfl, C05_coherent _ rfl, ?_⟩
  have hc : taiMinusUtc L b ⌊(n : K) / 2 + jdF + 1 / 2⌋ = b + cnt L (n * 43200 + ⌊jdF * dayS⌋) := by
    rw [← filter_le_eq_cnt]
    unfold taiMinusUtc
    have : ⌊(n : K) / 2 + jdF + 1 / 2⌋ = (n * 43200 + ⌊jdF * dayS⌋ + 43200) / 86400 := by
      have e2 : (n : K) / 2 + jdF + 1 / 2 = (jdF * dayS + ((n * 43200 + 43200 : ℤ) : K)) / ((86400 : ℕ) : K) := by
        unfold dayS; push_cast; field_simp; ring
      rw [e2, Int.floor_div_natCast, Int.floor_add_intCast]
      congr 1
      ring
    rw [this]
  unfold taiOfUtcJd
  rw [hc]
  simp only [Time.taiInstant, Time.taiFraction, Timescale.taiJd, normalizeJd, pyDivmod, pyFloorDiv, pyMod, dayS]
  push_cast
  field_simp
  ring

/-! ### The propagator's clock -/

theorem cnt_mono (L : List ℤ) {u v : ℤ} (h : u ≤ v) : cnt L u ≤ cnt L v := by
  induction L with
  | nil => simp [cnt]
  | cons n L ih =>
    rw [cnt_cons, cnt_cons]
    split_ifs <;> omega

theorem cnt_step (L : List ℤ) {u : ℤ} (n : ℤ) (hn : n ∈ L) (hu : midnight n = u) : cnt L (u - 1) + 1 ≤ cnt L u := by
  induction L with
  | nil => simp at hn
  | cons m L ih =>
    rw [cnt_cons, cnt_cons]
    rcases List.mem_cons.1 hn with rfl | hn
    · have := cnt_mono L (show u - 1 ≤ u by omega)
      rw [if_neg (by omega), if_pos (by omega)]
      omega
    · have := ih hn
      split_ifs <;> omega

theorem leapSeconds_of (h : IsLeapTable ts L b) (t : Time K) (hts : t.ts = ts) (u : ℤ)
    (hs : t.taiSeconds.1 = ((u + (b + cnt L u) : ℤ) : K)) : t.leapSeconds = some ((b + cnt L u : ℤ) : K) := by
  unfold Time.leapSeconds
  rw [hs, hts]
  rcases interp_tai (K := K) h (u + (b + cnt L u)) with ⟨k, h1, h2, h3⟩ | ⟨k, h1, h2, h3, n, hn, hm⟩
  · rw [h1]
    have : k = cnt L u := by
      rcases lt_trichotomy k (cnt L u) with hk | hk | hk
      · have := cnt_mono L (show u ≤ u + (b + cnt L u) - (b + k) by omega); omega
      · exact hk
      · have := cnt_mono L (show u + (b + cnt L u) - (b + k) ≤ u by omega); omega
    rw [this]
  · exfalso
    rcases lt_or_ge k (cnt L u) with hk | hk
    · have := cnt_mono L (show u ≤ u + (b + cnt L u) - (b + k) - 1 by omega); omega
    · have h4 := cnt_mono L (show u + (b + cnt L u) - (b + k) - 1 ≤ u by omega)
      have : k = cnt L u := by omega
      subst this
      have := cnt_step L n hn hm
      rw [show u + (b + cnt L u) - (b + cnt L u) = u by ring] at this
      rw [show u + (b + cnt L u) - (b + cnt L u) - 1 = u - 1 by ring] at h2
      omega

/-- **C54.** At its own epoch a satellite read from a TLE is propagated by zero time: the date handed to the propagator is the UTC Julian date of the
epoch, exactly `epochdays` days after the last midnight of the previous year. -/
theorem C54_zero_at_epoch (h : IsLeapTable ts L b) (hc : ∀ c, ts.cutoff = some c → c ≤ 2435839) (yy : ℤ) (h0 : 0 ≤ yy)
    (h1 : yy ≤ 99) (days : K) (hd : 1 ≤ days) (N : ℤ → ℤ → ℤ → ℤ) (hN : IsGregorianDayNumber N) :
    ∃ t w f, satEpochTle ts yy days = some t ∧ sgp4Date t = some (w, f) ∧
      w + f = (N (satEpochYear yy) 1 1 : K) - 3 / 2 + days := by
  obtain ⟨t, t1, t2, t3⟩ := C54_tle_epoch h hc yy h0 h1 days hd N hN
  obtain ⟨t', s1, s2, s3, ⟨u, s4⟩, s5⟩ := utc_frac h (satEpochYear yy) 1 days
  have : t' = t := by
    unfold satEpochTle at t1
    rw [t1] at s1
    exact (Option.some.inj s1).symm
  subst this
  have hl := leapSeconds_of h t' s3 u s4
  refine ⟨t', t'.whole, _, t1, by unfold sgp4Date; rw [hl]; rfl, ?_⟩
  -- the day the epoch falls in fixes TAI-UTC
  obtain ⟨-, r0, r1, hsum⟩ := s2
  have hsum' := hsum
  rw [s4, t3] at hsum'
  have hcnt : b + cnt L u = taiMinusUtc L b (N (satEpochYear yy) 1 1 + (⌊days⌋ - 1)) := by
    generalize N (satEpochYear yy) 1 1 + (⌊days⌋ - 1) = D at *
    unfold taiOf at hsum'
    rw [taiMinusUtc_eq_cnt] at hsum' ⊢
    have f0 : 0 ≤ (days - ⌊days⌋) * 86400 := by have := Int.floor_le days; nlinarith
    have f1 : (days - ⌊days⌋) * 86400 < 86400 := by have := Int.lt_floor_add_one days; linarith
    have hm : ((midnight D : ℤ) : K) = (D : K) * 86400 - 43200 := by unfold midnight; push_cast; ring
    -- u + cnt u + r = midnight D + f + cnt (midnight D)
    have hlo : midnight D + cnt L (midnight D) ≤ u + cnt L u := by
      have : ((midnight D + cnt L (midnight D) : ℤ) : K) < ((u + cnt L u + 1 : ℤ) : K) := by
        push_cast at hsum' ⊢; rw [hm]; linarith
      have := Int.cast_lt.1 this; omega
    have hhi : u + cnt L u < midnight D + cnt L (midnight D) + 86400 := by
      have : ((u + cnt L u : ℤ) : K) < ((midnight D + cnt L (midnight D) + 86400 : ℤ) : K) := by
        push_cast at hsum' ⊢; rw [hm]; linarith
      exact Int.cast_lt.1 this
    by_cases hge : midnight D ≤ u
    · by_cases hlt : u < midnight D + 86400
      · have := cnt_in_day L D (u - midnight D) (by omega) (by omega)
        rw [show midnight D + (u - midnight D) = u by ring] at this
        rw [this]
      · have := cnt_mono L (show midnight D ≤ u by omega)
        omega
    · have := cnt_mono L (show u ≤ midnight D by omega)
      omega
  have hinst : t'.taiInstant = (t'.whole + t'.taiFraction) * 86400 := rfl
  rw [t3] at hinst
  unfold taiOf at hinst
  rw [hcnt]
  unfold dayS
  have e : t'.whole + (t'.taiFraction - ((taiMinusUtc L b (N (satEpochYear yy) 1 1 + (⌊days⌋ - 1)) : ℤ) : K) / 86400) =
      ((t'.whole + t'.taiFraction) * 86400 - (taiMinusUtc L b (N (satEpochYear yy) 1 1 + (⌊days⌋ - 1)) : ℤ)) / 86400 := by
    field_simp; ring
  rw [e, ← hinst]
  push_cast
  field_simp
  ring

example : IsLeapTable exampleTs [2441500, 2441684, 2442049] 10 ∧ (∀ c, exampleTs.cutoff = some c → c ≤ 2435839) ∧
    (satEpochTle exampleTs 4 (264 + 1 / 2)).isSome := by
  refine ⟨exampleTs_ok, by intro c hc; revert hc; simp only [exampleTs, gregorianStart, Option.some.injEq]; omega, ?_⟩
  decide +kernel

end Skyfield
