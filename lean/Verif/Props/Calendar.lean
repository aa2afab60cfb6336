import Verif.Lemmas.Calendar

/-! Property theorems C01–C04: calendar dates and Julian day numbers. -/

namespace Skyfield
open Spec

/-! ## C01 -/

/-- Every integer day number converts to a date that exists in the Gregorian calendar. -/
theorem C01_date_is_valid (j : Int) :
    let t := computeCalendarDate j none
    ValidDate gregorianLeap t.year t.month t.day :=
  ccd_valid_greg (Or.inl rfl)

/-- Day number → date → day number is the identity, for every integer. -/
theorem C01_jd_roundtrip (j : Int) :
    let t := computeCalendarDate j none
    julianDay t.year t.month t.day none = j := by
  have h := ccd_greg (j := j) (o := none) (Or.inl rfl)
  intro t
  rw [julianDay_none, h.1, h.2]; omega

/-- Date → day number → date is the identity, for every valid date of every integer year. -/
theorem C01_date_roundtrip (y m d : Int) (hv : ValidDate gregorianLeap y m d) :
    computeCalendarDate (julianDay y m d none) none = ⟨y, m, d⟩ := by
  have h1 := C01_jd_roundtrip (julianDay y m d none)
  have h2 := C01_date_is_valid (julianDay y m d none)
  obtain ⟨a, b, c⟩ := greg_structure.inj h2 hv h1
  generalize computeCalendarDate (julianDay y m d none) none = t at *
  cases t; simp_all

example : ValidDate gregorianLeap (-4713) 11 24 ∧ julianDay (-4713) 11 24 none = 0 := by decide
example : ValidDate gregorianLeap 2000 2 29 := by decide
example : ¬ ValidDate gregorianLeap 1900 2 29 := by decide

/-! ## C02 -/

/-- The code's Gregorian day number is the astronomers' day number of the specification. -/
theorem C02_is_gregorian_day_number :
    IsGregorianDayNumber (fun y m d => julianDay y m d none) :=
  ⟨greg_structure.counts, by decide⟩

/-- …and it is the only one: any consecutive numbering with the same anchor agrees with the code
on every valid date. -/
theorem C02_agrees_with_every_gregorian_count (D : Int → Int → Int → Int)
    (hD : IsGregorianDayNumber D) (y m d : Int) (hv : ValidDate gregorianLeap y m d) :
    julianDay y m d none = D y m d := by
  refine (greg_structure.unique hD.1 2000 ?_ hv).symm
  rw [hD.2]; decide

example : IsGregorianDayNumber (fun y m d => julianDay y m d none) ∧
    ValidDate gregorianLeap 1582 10 15 := ⟨C02_is_gregorian_day_number, by decide⟩

/-- Dates order exactly as their day numbers do. -/
theorem C02_order (y m d y' m' d' : Int) (hv : ValidDate gregorianLeap y m d)
    (hv' : ValidDate gregorianLeap y' m' d') :
    julianDay y m d none < julianDay y' m' d' none ↔ DateLt y m d y' m' d' := by
  constructor
  · intro h
    by_contra hn
    have h3 : (y = y' ∧ m = m' ∧ d = d') ∨ DateLt y' m' d' y m d := by
      unfold DateLt at *; omega
    rcases h3 with ⟨rfl, rfl, rfl⟩ | h3
    · omega
    · have := greg_structure.strictMono hv' hv h3
      omega
  · exact greg_structure.strictMono hv hv'

example : ValidDate gregorianLeap 1999 12 31 ∧ ValidDate gregorianLeap 2000 1 1 ∧
    DateLt 1999 12 31 2000 1 1 := by unfold DateLt; decide

/-- The weekday index `jd % 7` (Monday = 0) that `utc_strftime` uses (skyfield/timelib.py:655)
advances by one each day and wraps after Sunday; 2000 January 1 was a Saturday (5). -/
theorem C02_weekday (y m d : Int) (hv : ValidDate gregorianLeap y m d) :
    let n := nextDay gregorianLeap y m d
    julianDay n.1 n.2.1 n.2.2 none % 7 = (julianDay y m d none % 7 + 1) % 7 ∧
    julianDay 2000 1 1 none % 7 = 5 := by
  have h := C02_is_gregorian_day_number.1 y m d hv
  simp only at h
  refine ⟨?_, by decide⟩
  rw [h]; omega

/-- The day-of-year `jd + 1 - julian_day(year, 1, 1)` that `utc_strftime` uses
(skyfield/timelib.py:653-656) is 1 on January 1 and lies in 1..366 (1..365 in common years). -/
theorem C02_day_of_year (y m d : Int) (hv : ValidDate gregorianLeap y m d) :
    let yday := julianDay y m d none + 1 - julianDay y 1 1 none
    1 ≤ yday ∧ yday ≤ (if gregorianLeap y then 366 else 365) := by
  have h1 := jdG_month_step y 1 1 (by omega)
  have h2 := jdG_month_step y 2 1 (by omega)
  have h3 := jdG_month_step y 3 1 (by omega)
  have h4 := jdG_month_step y 4 1 (by omega)
  have h5 := jdG_month_step y 5 1 (by omega)
  have h6 := jdG_month_step y 6 1 (by omega)
  have h7 := jdG_month_step y 7 1 (by omega)
  have h8 := jdG_month_step y 8 1 (by omega)
  have h9 := jdG_month_step y 9 1 (by omega)
  have h10 := jdG_month_step y 10 1 (by omega)
  have h11 := jdG_month_step y 11 1 (by omega)
  simp [monthLength] at h1 h2 h3 h4 h5 h6 h7 h8 h9 h10 h11
  obtain ⟨a, b, c, e⟩ := hv
  have hl : julianDay y m d none = julianDay y m 1 none + (d - 1) := greg_structure.lin1 y m d
  intro yday
  simp only [yday]
  cases hleap : gregorianLeap y <;> simp only [monthLength, hleap] at * <;>
  rcases twelve' ⟨a, b⟩ with h|h|h|h|h|h|h|h|h|h|h|h <;> subst h <;>
    simp at * <;> omega

/-! ## C03 -/

/-- Below the cutoff a day number reads as a valid Julian-calendar date, from the cutoff on as
the Gregorian date that is shown without a cutoff. -/
theorem C03_reads_correct_calendar (j c : Int) :
    let t := computeCalendarDate j (some c)
    (j < c → ValidDate julianLeap t.year t.month t.day ∧
      ∀ D, IsJulianDayNumber D → D t.year t.month t.day = j) ∧
    (c ≤ j → t = computeCalendarDate j none) := by
  refine ⟨fun h => ⟨ccd_valid_jul h, ?_⟩, ?_⟩
  · intro D hD
    rw [jul_structure.unique hD.1 (-4712) (by rw [hD.2]; decide) (ccd_valid_jul h)]
    exact ccd_jul h
  · intro h
    simp [computeCalendarDate, cutoffMask, h]

/-- A Julian-calendar day count exists, so the statement above is not vacuous. -/
theorem C03_julian_day_number_exists : ∃ D, IsJulianDayNumber D :=
  ⟨jdJ, jul_structure.counts, by decide⟩

/-- Feeding back the date that was read yields the same day number — for every day — exactly when
the cutoff is not before day 1794168 (AD 200 March 1 of the Gregorian calendar), i.e. not before the
calendars last agreed. -/
theorem C03_cutoff_roundtrip_iff (c : Int) :
    (∀ j, let t := computeCalendarDate j (some c)
      julianDay t.year t.month t.day (some c) = j) ↔ 1794168 ≤ c := by
  constructor
  · intro h
    by_contra hc
    have hg := ccd_greg (j := c) (o := some c) (Or.inr ⟨c, rfl, le_refl _⟩)
    have h := h c
    simp only at h hg
    rw [julianDay_some, hg.1, hg.2] at h
    have : dateCorr c < 0 := by unfold dateCorr; omega
    rw [if_neg (by omega)] at h
    omega
  · intro hc j
    rcases Int.lt_or_le j c with h | h
    · have hj := ccd_jul h
      simp only at hj ⊢
      rw [julianDay_some, hj, if_neg (by omega)]
    · have hg := ccd_greg (j := j) (o := some c) (Or.inr ⟨c, rfl, h⟩)
      simp only at hg ⊢
      have : 0 ≤ dateCorr j := by unfold dateCorr; omega
      rw [julianDay_some, hg.1, hg.2, if_pos (by omega)]
      omega

example : (1794168 : Int) ≤ gregorianStart ∧ (1794168 : Int) ≤ gregorianStartEngland := by decide

/-- FINDING (disagreement between the two functions): for an ancient cutoff the round trip fails.
E.g. with cutoff 1500000 the day 1500000 reads as a date that converts to another day. -/
theorem C03_ancient_cutoff_fails :
    let t := computeCalendarDate 1500000 (some 1500000)
    julianDay t.year t.month t.day (some 1500000) ≠ 1500000 := by decide

/-- Dates convert to the right day number under a cutoff: Julian dates before the cutoff,
Gregorian dates from the cutoff on. -/
theorem C03_date_to_jd (c : Int) (hc : 1794168 ≤ c) (y m d : Int) :
    (∀ D, IsJulianDayNumber D → ValidDate julianLeap y m d → D y m d < c →
      julianDay y m d (some c) = D y m d) ∧
    (∀ D, IsGregorianDayNumber D → ValidDate gregorianLeap y m d → c ≤ D y m d →
      julianDay y m d (some c) = D y m d) := by
  constructor
  · intro D hD hv hlt
    have he := jul_structure.unique hD.1 (-4712) (by rw [hD.2]; decide) hv
    rw [julianDay_some, ← he, if_neg (by omega)]
  · intro D hD hv hge
    have he := C02_agrees_with_every_gregorian_count D hD y m d hv
    rw [← he] at hge ⊢
    have hj := C01_date_roundtrip y m d hv
    have hg := ccd_greg (j := julianDay y m d none) (o := none) (Or.inl rfl)
    rw [hj] at hg
    simp only at hg
    have : 0 ≤ dateCorr (julianDay y m d none) := by unfold dateCorr; omega
    rw [julianDay_some, hg.2, hg.1, if_pos (by omega)]
    omega

/-- Papal reform: 1582 October 4 (Julian) is followed by 1582 October 15 (Gregorian). -/
theorem C03_papal :
    computeCalendarDate (gregorianStart - 1) (some gregorianStart) = ⟨1582, 10, 4⟩ ∧
    computeCalendarDate gregorianStart (some gregorianStart) = ⟨1582, 10, 15⟩ := by decide

/-- English reform: 1752 September 2 (Julian) is followed by 1752 September 14 (Gregorian). -/
theorem C03_english :
    computeCalendarDate (gregorianStartEngland - 1) (some gregorianStartEngland) = ⟨1752, 9, 2⟩ ∧
    computeCalendarDate gregorianStartEngland (some gregorianStartEngland) = ⟨1752, 9, 14⟩ := by
  decide

/-! ## C04 -/

/-- Months overflow into years, with or without a cutoff. -/
theorem C04_month_overflow (y m d k : Int) (o : Option Int) :
    julianDay y (m + 12 * k) d o = julianDay (y + k) m d o := julianDay_overflow y m d k o

/-- Days are added linearly: any day offset moves the day number by exactly that much. -/
theorem C04_day_overflow (y m d k : Int) :
    julianDay y m (d + k) none = julianDay y m d none + k := julianDay_day y m d k

/-- In terms of dates: day `d + k` of a month names the date `k` days after day `d`. -/
theorem C04_day_overflow_date (y m d : Int) (k : Nat) (hv : ValidDate gregorianLeap y m d) :
    computeCalendarDate (julianDay y m (d + k) none) none =
      (fun t : Date => let n := nextDay gregorianLeap t.year t.month t.day; ⟨n.1, n.2.1, n.2.2⟩)^[k]
        ⟨y, m, d⟩ := by
  induction k with
  | zero => simpa using C01_date_roundtrip y m d hv
  | succ k ih =>
    rw [Function.iterate_succ_apply', ← ih]
    have e : julianDay y m (d + ((k + 1 : Nat) : Int)) none = julianDay y m (d + k) none + 1 := by
      rw [show d + ((k + 1 : Nat) : Int) = (d + k) + 1 by omega]; exact julianDay_day ..
    rw [e]
    generalize julianDay y m (d + k) none = j
    have hval := C01_date_is_valid j
    have hn := C02_is_gregorian_day_number.1 _ _ _ hval
    simp only at hval hn ⊢
    rw [C01_jd_roundtrip j] at hn
    have hv2 := nextDay_valid _ _ _ _ hval
    have := C01_date_roundtrip _ _ _ hv2
    rw [hn] at this
    exact this

example : computeCalendarDate (julianDay 1999 14 60 none) none = ⟨2000, 3, 31⟩ := by decide

end Skyfield

namespace Skyfield
open Spec

/-- Summary of C01–C03: with any cutoff, a day number reads as the civil date it is, and as no
other. -/
theorem C03_reads_civil_date (o : Option Int) (y m d D : Int) :
    computeCalendarDate D o = ⟨y, m, d⟩ ↔ CivilDate o y m d D := by
  have greg : ∀ D, computeCalendarDate D none = ⟨y, m, d⟩ ↔
      ValidDate gregorianLeap y m d ∧ ∃ N, IsGregorianDayNumber N ∧ N y m d = D := by
    intro D
    constructor
    · intro h
      have h1 := C01_date_is_valid D
      have h2 := C01_jd_roundtrip D
      rw [h] at h1 h2
      exact ⟨h1, _, C02_is_gregorian_day_number, h2⟩
    · rintro ⟨hv, N, hN, rfl⟩
      rw [← C02_agrees_with_every_gregorian_count N hN y m d hv]
      exact C01_date_roundtrip y m d hv
  cases o with
  | none => exact greg D
  | some c =>
    have hr := C03_reads_correct_calendar D c
    rcases Int.lt_or_le D c with hlt | hge
    · have hr := hr.1 hlt
      constructor
      · intro h
        rw [h] at hr
        obtain ⟨N, hN⟩ := C03_julian_day_number_exists
        exact Or.inl ⟨hlt, hr.1, N, hN, hr.2 N hN⟩
      · rintro (⟨-, hv, N, hN, hD⟩ | ⟨h, -⟩)
        · have e := hr.2 N hN
          have hu : ∀ y m d, ValidDate julianLeap y m d → N y m d = jdJ y m d := fun y m d hv =>
            jul_structure.unique hN.1 (-4712) (by rw [hN.2]; decide) hv
          rw [hu _ _ _ hr.1] at e
          rw [hu _ _ _ hv] at hD
          obtain ⟨h1, h2, h3⟩ := jul_structure.inj hr.1 hv (e.trans hD.symm)
          rw [← h1, ← h2, ← h3]
        · omega
    · rw [hr.2 hge]
      rw [greg D]
      constructor
      · rintro ⟨hv, h⟩; exact Or.inr ⟨hge, hv, h⟩
      · rintro (⟨h, -⟩ | ⟨-, h⟩)
        · omega
        · exact h

/-- A cutoff for which the two conversions agree (none, or not before the calendars last
coincided — both named constants qualify). -/
def GoodCutoff (o : Option Int) : Prop := ∀ c, o = some c → 1794168 ≤ c

/-- A civil date converts to its day number. -/
theorem C03_civil_date_to_jd (o : Option Int) (ho : GoodCutoff o) (y m d D : Int)
    (h : CivilDate o y m d D) : julianDay y m d o = D := by
  cases o with
  | none =>
    obtain ⟨hv, N, hN, rfl⟩ := h
    exact C02_agrees_with_every_gregorian_count N hN y m d hv
  | some c =>
    have hd := C03_date_to_jd c (ho c rfl) y m d
    rcases h with ⟨h1, hv, N, hN, rfl⟩ | ⟨h1, hv, N, hN, rfl⟩
    · exact hd.1 N hN hv h1
    · exact hd.2 N hN hv h1

example : GoodCutoff none ∧ GoodCutoff (some gregorianStart) ∧
    CivilDate (some gregorianStart) 1582 10 4 2299160 := by
  refine ⟨(by intro c h; cases h), (by intro c h; cases h; decide), ?_⟩
  exact (C03_reads_civil_date _ _ _ _ _).1 (by decide)

end Skyfield
