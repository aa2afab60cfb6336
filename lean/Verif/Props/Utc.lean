import Verif.Lemmas.Utc
import Verif.Props.Calendar
import Mathlib.Data.Rat.Floor
import Mathlib.Tactic.NormNum

/-
C05–C08: UTC.  Specification in `Spec/Utc.lean` and `Spec/Calendar.lean`.
Everything here holds over any ordered field with a floor (ℚ, ℝ), every leap second table
(`IsLeapTable ts L b`: leap seconds inserted just before the days `L`, TAI−UTC = `b` before them).
-/
namespace Skyfield
open Spec
set_option linter.unusedSectionVars false
variable {K : Type*} [Field K] [LinearOrder K] [IsStrictOrderedRing K] [FloorRing K]
variable {ts : Timescale K} {L : List ℤ} {b : ℤ}

/-- A concrete timescale with the first three real leap seconds (1972 July 1, 1973 and 1974
January 1), used in the examples. -/
def exampleTs : Timescale ℚ where
  deltaT := fun _ => 50
  leapDates := [2441499 + 1/2, 2441683 + 1/2, 2442048 + 1/2]
  leapOffsets := [11, 12, 13]
  cutoff := some gregorianStart

theorem exampleTs_ok : IsLeapTable exampleTs [2441500, 2441684, 2442049] 10 where
  dates := by simp [exampleTs]; norm_num
  offsets := by simp [exampleTs, List.range_succ]; norm_num
  sorted := by decide
  nonempty := by decide

theorem exampleTs_cutoff : GoodCutoff exampleTs.cutoff := by
  intro c h
  simp only [exampleTs, Option.some.injEq] at h
  subst h; decide

/-- C05 (instant).  A time built from UTC calendar fields is the instant which those fields
denote; hours, minutes and seconds may be out of range, and simply count on from midnight. -/
theorem C05_utc_instant (h : IsLeapTable ts L b) (hc : GoodCutoff ts.cutoff) {y m d D : ℤ}
    (hd : CivilDate ts.cutoff y m d D) (hh mi : ℤ) (s : K) :
    ∃ t, ts.utc y m (d : K) hh mi s = some t ∧ t.Coherent ∧ t.ts = ts ∧
      t.taiInstant = taiOf L b D hh mi s := by
  have hJ := C03_civil_date_to_jd _ hc _ _ _ _ hd
  obtain ⟨t, h1, h2, h3, h4⟩ := utc_some h y m d hh mi s
  refine ⟨t, h1, h2, h3, ?_⟩
  rw [h4, hJ, ← taiMinusUtc_eq_cnt]
  unfold taiOf
  push_cast
  ring

/-- C05 (round trip).  Reading UTC back from a time built from a valid UTC reading — 23:59:60.x
of a day that ends in a leap second included — gives that very reading. -/
theorem C05_utc_roundtrip (h : IsLeapTable ts L b) (hc : GoodCutoff ts.cutoff) {y m d D : ℤ}
    (hd : CivilDate ts.cutoff y m d D) {hh mi : ℤ} {s : K} (hv : ValidUtc L D hh mi s) :
    (ts.utc y m (d : K) hh mi s).bind (·.utcTuple 0) = some ⟨y, m, d, hh, mi, s, D⟩ := by
  obtain ⟨t, h1, h2, rfl, h4⟩ := C05_utc_instant h hc hd hh mi s
  obtain ⟨r, r1, r2, r3, r4⟩ := utcTuple_spec t h2 h 0
  rw [h1, Option.bind_some, r1]
  rw [h4, add_zero] at r3
  obtain ⟨e1, e2, e3, e4⟩ := taiOf_inj r2 hv r3
  rw [e1, (C03_reads_civil_date _ _ _ _ _).2 hd] at r4
  obtain ⟨_, _, _, _, _, _, _⟩ := r
  simp_all

/-- C05 (every instant).  Whatever way a time was made, its UTC fields form an existing civil date
and an existing time of that day, and they denote exactly that time's instant. -/
theorem C05_utc_denotes (t : Time K) (ht : t.Coherent) (h : IsLeapTable t.ts L b) :
    ∃ r, t.utcTuple 0 = some r ∧ CivilDate t.ts.cutoff r.year r.month r.day r.jd ∧
      ValidUtc L r.jd r.hour r.minute r.second ∧
      taiOf L b r.jd r.hour r.minute r.second = t.taiInstant := by
  obtain ⟨r, r1, r2, r3, r4⟩ := utcTuple_spec t ht h 0
  exact ⟨r, r1, (C03_reads_civil_date _ _ _ _ _).1 r4, r2, by rw [r3, add_zero]⟩

/-- Times that store no exact UTC seconds of their own (all constructors except `utc`) satisfy
the `Coherent` hypothesis used above; `C05_utc_instant` gives it for `utc`. -/
theorem C05_coherent (t : Time K) (h : t.taiSeconds? = none) : t.Coherent := coherent_of_none t h

/-- The hypotheses of `C05_utc_denotes` and of the theorems below hold of, e.g., `ts.tt_jd(...)`. -/
example : Time.Coherent ({ ts := exampleTs, whole := 2451545, ttFraction := 1/3 } : Time ℚ) ∧
    IsLeapTable exampleTs [2441500, 2441684, 2442049] 10 :=
  ⟨C05_coherent _ rfl, exampleTs_ok⟩

/-- 1972-06-30 23:59:60.25, a leap second, survives. -/
example : (exampleTs.utc 1972 6 (30 : ℤ) (23 : ℤ) (59 : ℤ) (60 + 1/4)).bind (·.utcTuple 0) =
    some ⟨1972, 6, 30, 23, 59, 60 + 1/4, 2441499⟩ :=
  C05_utc_roundtrip exampleTs_ok exampleTs_cutoff
    ((C03_reads_civil_date _ _ _ _ _).1 (by decide))
    ⟨by norm_num, by norm_num, by norm_num, by norm_num, by norm_num,
      Or.inr ⟨rfl, rfl, by norm_num, by decide⟩⟩

/-- C06.  The second that is reported reaches 60 exactly inside an inserted leap second. -/
theorem C06_second_60_iff (t : Time K) (ht : t.Coherent) (h : IsLeapTable t.ts L b) :
    ∃ r, t.utcTuple 0 = some r ∧ (60 ≤ r.second ↔ InLeapSecond L b t.taiInstant) ∧
      r.second < 61 := by
  obtain ⟨r, r1, r2, r3, r4⟩ := utcTuple_spec t ht h 0
  rw [add_zero] at r3
  have hv := r2
  obtain ⟨v1, v2, v3, v4, v5, v6⟩ := r2
  refine ⟨r, r1, ⟨?_, ?_⟩, ?_⟩
  · intro h60
    rcases v6 with v6 | ⟨e1, e2, e3, hm⟩
    · linarith
    · refine ⟨r.jd + 1, hm, ?_, ?_⟩ <;>
      · rw [e1, e2, taiOf_leap h.sorted hm] at r3
        linarith
  · rintro ⟨n, hn, hlo, hhi⟩
    have hn' : (n - 1) + 1 ∈ L := by rwa [sub_add_cancel]
    have key := taiOf_leap (K := K) (b := b) h.sorted hn'
      (60 + (t.taiInstant - (taiOf L b n 0 0 (0 : K) - 1)))
    rw [sub_add_cancel] at key
    have hv2 : ValidUtc L (n - 1) 23 59 (60 + (t.taiInstant - (taiOf L b n 0 0 (0 : K) - 1))) :=
      ⟨by norm_num, by norm_num, by norm_num, by norm_num, by linarith,
        Or.inr ⟨rfl, rfl, by linarith, hn'⟩⟩
    obtain ⟨-, -, -, e⟩ := taiOf_inj (b := b) hv hv2 (by rw [r3, key]; ring)
    rw [e]; linarith
  · rcases v6 with v6 | ⟨-, -, v6, -⟩ <;> linarith

/-- The instant of 1972-06-30 23:59:60.25 is in a leap second; that of 1972-07-01 00:00:00 and
that of 1972-06-30 23:59:59.75 are not. -/
example : InLeapSecond [2441500, 2441684, 2442049] 10
    (taiOf [2441500, 2441684, 2442049] 10 2441499 23 59 (60 + 1/4 : ℚ)) :=
  ⟨2441500, by decide, by norm_num [taiOf, taiMinusUtc], by norm_num [taiOf, taiMinusUtc]⟩

/-- C07 (forwards).  A later valid UTC reading denotes a strictly later instant. -/
theorem C07_later_reading_is_later (h : IsLeapTable ts L b) (hc : GoodCutoff ts.cutoff)
    {y m d D hh mi y' m' d' D' hh' mi' : ℤ} {s s' : K}
    (hd : CivilDate ts.cutoff y m d D) (hd' : CivilDate ts.cutoff y' m' d' D')
    (hv : ValidUtc L D hh mi s) (hv' : ValidUtc L D' hh' mi' s')
    (hlt : UtcLt D hh mi s D' hh' mi' s') :
    ∃ t t', ts.utc y m (d : K) hh mi s = some t ∧ ts.utc y' m' (d' : K) hh' mi' s' = some t' ∧
      t.taiInstant < t'.taiInstant := by
  obtain ⟨t, h1, -, -, h4⟩ := C05_utc_instant h hc hd hh mi s
  obtain ⟨t', h1', -, -, h4'⟩ := C05_utc_instant h hc hd' hh' mi' s'
  exact ⟨t, t', h1, h1', by rw [h4, h4']; exact taiOf_lt hv hv' hlt⟩

/-- C07 (backwards).  A strictly later instant has a strictly later UTC reading. -/
theorem C07_later_instant_reads_later (t t' : Time K) (ht : t.Coherent) (ht' : t'.Coherent)
    (h : IsLeapTable t.ts L b) (h' : IsLeapTable t'.ts L b) (hlt : t.taiInstant < t'.taiInstant) :
    ∃ r r', t.utcTuple 0 = some r ∧ t'.utcTuple 0 = some r' ∧
      UtcLt r.jd r.hour r.minute r.second r'.jd r'.hour r'.minute r'.second := by
  obtain ⟨r, r1, r2, r3, r4⟩ := utcTuple_spec t ht h 0
  obtain ⟨r', r1', r2', r3', r4'⟩ := utcTuple_spec t' ht' h' 0
  refine ⟨r, r', r1, r1', ?_⟩
  rw [add_zero] at r3 r3'
  rcases utcLt_trichotomy r.jd r.hour r.minute r.second r'.jd r'.hour r'.minute r'.second with
    hl | he | hl
  · exact hl
  · obtain ⟨e1, e2, e3, e4⟩ := he
    rw [e1, e2, e3, e4, r3'] at r3
    linarith
  · have := taiOf_lt (b := b) r2' r2 hl
    linarith

/-- Day order used in C07 is calendar order: with no cutoff, earlier civil dates have smaller day
numbers. -/
theorem C07_date_order {y m d D y' m' d' D' : ℤ} (hd : CivilDate none y m d D)
    (hd' : CivilDate none y' m' d' D') : D < D' ↔ DateLt y m d y' m' d' := by
  have e := C03_civil_date_to_jd none (by intro c h; cases h) _ _ _ _ hd
  have e' := C03_civil_date_to_jd none (by intro c h; cases h) _ _ _ _ hd'
  rw [← e, ← e']
  have := C02_order y m d y' m' d' hd.1 hd'.1
  tauto

/-- Two times built from readings on either side of a leap second. -/
example : UtcLt (K := ℚ) 2441499 23 59 (60 + 1/4) 2441500 0 0 0 := Or.inl (by norm_num)

end Skyfield
