import Verif.Props.UtcText
import Verif.Model.Datetimes
import Mathlib.Tactic.Ring
import Mathlib.Tactic.Linarith
import Mathlib.Tactic.LinearCombination
import Mathlib.Tactic.NormNum

/-! Property theorems C78: Python datetimes in any time zone. -/
namespace Skyfield
open Spec

variable {K : Type*} [Field K] [LinearOrder K] [IsStrictOrderedRing K] [FloorRing K]
variable {L : List ℤ} {b : ℤ} {ts : Timescale K}

/-- The day number of UTC moment `v`. -/
def utcDay (v : ℤ) : ℤ := 1721426 + v / 86400000000

/-- What TAI, in seconds since Julian date 0.0, is at UTC moment `v` (microseconds since
0001-01-01 00:00 by the UTC clock): day 1721426 begins at Julian date 1721425.5, and TAI is ahead
of UTC by the table's number of seconds for that day. -/
def taiAt (L : List ℤ) (b : ℤ) (v : ℤ) : K :=
  (1721426 * 86400 - 43200 : ℤ) + (v : K) / 1000000 + (taiMinusUtc L b (utcDay v) : ℤ)

/-- Day `D` is in the Gregorian part of the timescale's calendar. -/
def Gregorian (ts : Timescale K) (D : ℤ) : Prop := ∀ c, ts.cutoff = some c → c ≤ D

theorem wallMicros_of_shows {dt : PyDatetime} {u : ℤ} (h : ShowsClock dt u) :
    wallMicros dt = u := by
  obtain ⟨-, -, -, -, -, -, -, -, -, -, D, hD, rfl⟩ := h
  unfold wallMicros
  rw [C03_civil_date_to_jd none (by intro c h; cases h) _ _ _ _ hD]

theorem year_in_range {y m d D : ℤ} (h : CivilDate none y m d D) :
    1721426 ≤ D ∧ D < 1721426 + 3652059 ↔ 1 ≤ y ∧ y ≤ 9999 := by
  have h1 : CivilDate none 1 1 1 1721426 := (C03_reads_civil_date _ _ _ _ _).1 (by decide)
  have h2 : CivilDate none 10000 1 1 5373485 := (C03_reads_civil_date _ _ _ _ _).1 (by decide)
  have a1 := C07_date_order h h1
  have a2 := C07_date_order h h2
  obtain ⟨⟨v1, v2, v3, v4⟩, -⟩ := h
  unfold DateLt at a1 a2
  omega

theorem shows_in_range {dt : PyDatetime} {u : ℤ} (h : ShowsClock dt u) :
    0 ≤ u ∧ u < datetimeSpan := by
  obtain ⟨h1, h2, h3, h4, h5, h6, h7, h8, h9, h10, D, hD, rfl⟩ := h
  have := (year_in_range hD).2 ⟨h1, h2⟩
  unfold datetimeSpan
  omega

/-- Python's date arithmetic, as modelled, is right: the datetime for clock reading `u` shows
`u`, whenever `u` is in range. -/
theorem ofWallMicros_ok {u : ℤ} (h : 0 ≤ u ∧ u < datetimeSpan) (tz : Option TzOffset) :
    ∃ dt, ofWallMicros u tz = .ok dt ∧ dt.tz = tz ∧ ShowsClock dt u := by
  unfold ofWallMicros
  rw [if_pos h]
  have hD : CivilDate none (computeCalendarDate (1721426 + u / 86400000000) none).year
      (computeCalendarDate (1721426 + u / 86400000000) none).month
      (computeCalendarDate (1721426 + u / 86400000000) none).day
      (1721426 + u / 86400000000) := (C03_reads_civil_date _ _ _ _ _).1 rfl
  have hy := (year_in_range hD).1 (by unfold datetimeSpan at h; omega)
  exact ⟨_, rfl, rfl, hy.1, hy.2, by dsimp only; omega, by dsimp only; omega, by dsimp only; omega,
    by dsimp only; omega, by dsimp only; omega, by dsimp only; omega, by dsimp only; omega,
    by dsimp only; omega, _, hD, by dsimp only; omega⟩

theorem shows_unique {dt dt' : PyDatetime} {u : ℤ} (h : ShowsClock dt u) (h' : ShowsClock dt' u)
    (htz : dt.tz = dt'.tz) : dt = dt' := by
  obtain ⟨h1, h2, h3, h4, h5, h6, h7, h8, h9, h10, D, hD, e⟩ := h
  obtain ⟨g1, g2, g3, g4, g5, g6, g7, g8, g9, g10, D', hD', e'⟩ := h'
  have hDD : D = D' := by omega
  subst hDD
  have k := ((C03_reads_civil_date _ _ _ _ _).2 hD).symm.trans
    ((C03_reads_civil_date _ _ _ _ _).2 hD')
  rw [Date.mk.injEq] at k
  cases dt; cases dt'
  simp only [PyDatetime.mk.injEq] at *
  exact ⟨k.1, k.2.1, k.2.2, by omega, by omega, by omega, by omega, htz⟩

/-- `astimezone` names the same moment, on the other zone's clock. -/
theorem astimezone_ok {dt : PyDatetime} {v : ℤ} {tz : TzOffset} (hs : ShowsClock dt (v + tz.offset))
    (hv : 0 ≤ v ∧ v < datetimeSpan) (z : Zone)
    (hz : 0 ≤ v + z.offset v ∧ v + z.offset v < datetimeSpan) :
    ∃ d, astimezone dt tz z = .ok d ∧ d.tz = some ⟨z.isUtc, z.offset v⟩ ∧
      ShowsClock d (v + z.offset v) := by
  unfold astimezone
  rw [wallMicros_of_shows hs, add_sub_cancel_right]
  obtain ⟨d, d1, d2, d3⟩ := ofWallMicros_ok hv (some ⟨true, 0⟩)
  rw [d1]
  simp only [wallMicros_of_shows d3]
  exact ofWallMicros_ok hz _

theorem astimezone_overflow {dt : PyDatetime} {v : ℤ} {tz : TzOffset}
    (hs : ShowsClock dt (v + tz.offset)) (z : Zone)
    (hv : ¬ (0 ≤ v ∧ v < datetimeSpan) ∨ ¬ (0 ≤ v + z.offset v ∧ v + z.offset v < datetimeSpan)) :
    astimezone dt tz z = .error .overflow := by
  unfold astimezone
  rw [wallMicros_of_shows hs, add_sub_cancel_right]
  by_cases h0 : 0 ≤ v ∧ v < datetimeSpan
  · obtain ⟨d, d1, d2, d3⟩ := ofWallMicros_ok h0 (some ⟨true, 0⟩)
    rw [d1]
    simp only [wallMicros_of_shows d3]
    unfold ofWallMicros
    rw [if_neg (hv.resolve_left (not_not.2 h0))]
  · have : ofWallMicros v (some ⟨true, 0⟩) = .error .overflow := by
      unfold ofWallMicros; rw [if_neg h0]
    rw [this]

/-- The UTC clock reading at moment `v`, as a datetime. -/
theorem utcTuple_of_names {dt : PyDatetime} {v : ℤ} (h : NamesUtc dt v)
    (hv : 0 ≤ v ∧ v < datetimeSpan) :
    ∃ u, datetimeToUtcTuple dt = .ok u ∧ u.tz = some ⟨true, 0⟩ ∧ ShowsClock u v := by
  obtain ⟨⟨iu, off⟩, h1, h2, h3⟩ := h
  unfold datetimeToUtcTuple
  rw [h1]
  dsimp only at *
  cases iu with
  | true =>
    obtain rfl := h2 rfl
    rw [if_neg (by simp)]
    refine ⟨dt, rfl, h1, by simpa using h3⟩
  | false =>
    rw [if_pos rfl]
    obtain ⟨d, d1, d2, d3⟩ := astimezone_ok (tz := ⟨false, off⟩) h3 hv utcZone
      (by simpa [utcZone] using hv)
    exact ⟨d, d1, d2, by simpa [utcZone] using d3⟩

/-- C78 (same moment).  Two aware datetimes that name the same moment — whatever their zones —
give exactly the same answer from `from_datetime`: the same time, or the same exception. -/
theorem C78_same_moment (ts : Timescale K) {dt dt' : PyDatetime} {v : ℤ} (h : NamesUtc dt v)
    (h' : NamesUtc dt' v) : ts.ofDatetime dt = ts.ofDatetime dt' := by
  unfold Timescale.ofDatetime
  by_cases hv : 0 ≤ v ∧ v < datetimeSpan
  · obtain ⟨u, u1, u2, u3⟩ := utcTuple_of_names h hv
    obtain ⟨u', u1', u2', u3'⟩ := utcTuple_of_names h' hv
    rw [u1, u1', shows_unique u3 u3' (u2.trans u2'.symm)]
  · have key : ∀ {d : PyDatetime}, NamesUtc d v → datetimeToUtcTuple d = .error .overflow := by
      rintro d ⟨⟨iu, off⟩, h1, h2, h3⟩
      unfold datetimeToUtcTuple
      rw [h1]
      dsimp only at *
      cases iu with
      | true =>
        obtain rfl := h2 rfl
        rw [add_zero] at h3
        exact absurd (shows_in_range h3) hv
      | false =>
        rw [if_pos rfl]
        exact astimezone_overflow (tz := ⟨false, off⟩) h3 utcZone (Or.inl hv)
    rw [key h, key h']

theorem civil_of_gregorian {y m d D : ℤ} (h : CivilDate none y m d D) (hg : Gregorian ts D) :
    CivilDate ts.cutoff y m d D := by
  cases hc : ts.cutoff with
  | none => exact h
  | some c => exact Or.inr ⟨hg c hc, h⟩

theorem utc_of_shows (h : IsLeapTable ts L b) (hc : GoodCutoff ts.cutoff) {u : PyDatetime} {v : ℤ}
    (hu : ShowsClock u v) (hg : Gregorian ts (utcDay v)) :
    ∃ t, ts.utcOfTuple u = .ok t ∧ t.Coherent ∧ t.ts = ts ∧ t.taiInstant = taiAt L b v := by
  obtain ⟨h1, h2, h3, h4, h5, h6, h7, h8, h9, h10, D, hD, hv⟩ := hu
  have e : utcDay v = D := by unfold utcDay; omega
  rw [e] at hg
  obtain ⟨t, t1, t2, t3, t4⟩ := C05_utc_instant h hc (civil_of_gregorian hD hg) u.hour u.minute
    ((u.second : K) + u.micro / 1000000)
  unfold Timescale.utcOfTuple Timescale.fromDatetime
  rw [t1]
  refine ⟨t, rfl, t2, t3, ?_⟩
  rw [t4]
  unfold taiOf taiAt
  rw [e, hv]
  push_cast
  ring

/-- C78 (moment).  `from_datetime` of an aware datetime gives the time of the moment that it
names: the local clock less the offset, read as UTC. -/
theorem C78_moment (h : IsLeapTable ts L b) (hc : GoodCutoff ts.cutoff) {dt : PyDatetime} {v : ℤ}
    (hd : NamesUtc dt v) (hv : 0 ≤ v ∧ v < datetimeSpan) (hg : Gregorian ts (utcDay v)) :
    ∃ t, ts.ofDatetime dt = .ok t ∧ t.Coherent ∧ t.ts = ts ∧ t.taiInstant = taiAt L b v := by
  obtain ⟨u, u1, u2, u3⟩ := utcTuple_of_names hd hv
  unfold Timescale.ofDatetime
  rw [u1]
  exact utc_of_shows h hc u3 hg

/-- C78 (refusals).  A naive datetime is refused, and so is one that names a moment outside the
years 1 to 9999 of UTC. -/
theorem C78_refused (ts : Timescale K) (dt : PyDatetime) :
    (dt.tz = none → ts.ofDatetime dt = .error .naive) ∧
      ∀ v, NamesUtc dt v → ¬ (0 ≤ v ∧ v < datetimeSpan) → ts.ofDatetime dt = .error .overflow := by
  constructor
  · intro h
    simp [Timescale.ofDatetime, datetimeToUtcTuple, h]
  · rintro v ⟨⟨iu, off⟩, h1, h2, h3⟩ hv
    unfold Timescale.ofDatetime datetimeToUtcTuple
    rw [h1]
    dsimp only at *
    cases iu with
    | true =>
      obtain rfl := h2 rfl
      rw [add_zero] at h3
      exact absurd (shows_in_range h3) hv
    | false =>
      simp only [if_true, astimezone_overflow (tz := ⟨false, off⟩) h3 utcZone (Or.inl hv)]

theorem taiMinusUtc_mono {D D' : ℤ} (h : D ≤ D') : taiMinusUtc L b D ≤ taiMinusUtc L b D' := by
  unfold taiMinusUtc
  have : (L.filter (· ≤ D)).length ≤ (L.filter (· ≤ D')).length := by
    rw [← List.countP_eq_length_filter, ← List.countP_eq_length_filter]
    apply List.countP_mono_left
    intro x _ hx
    simp only [decide_eq_true_eq] at *
    omega
  omega

/-- C78 (elapsed time).  Between two aware datetimes, in whatever zones, pass the microseconds by
which their UTC readings differ, and the leap seconds inserted between the two days; so a later
datetime is a later time. -/
theorem C78_elapsed (h : IsLeapTable ts L b) (hc : GoodCutoff ts.cutoff) {dt dt' : PyDatetime}
    {v v' : ℤ} (hd : NamesUtc dt v) (hd' : NamesUtc dt' v') (hv : 0 ≤ v ∧ v < datetimeSpan)
    (hv' : 0 ≤ v' ∧ v' < datetimeSpan) (hg : Gregorian ts (utcDay v)) (hlt : v < v') :
    ∃ t t', ts.ofDatetime dt = .ok t ∧ ts.ofDatetime dt' = .ok t' ∧
      t'.taiInstant - t.taiInstant = ((v' - v : ℤ) : K) / 1000000 +
        ((taiMinusUtc L b (utcDay v') - taiMinusUtc L b (utcDay v) : ℤ) : K) ∧
      t.taiInstant < t'.taiInstant := by
  have hday : utcDay v ≤ utcDay v' := by unfold utcDay; omega
  obtain ⟨t, t1, -, -, t4⟩ := C78_moment h hc hd hv hg
  obtain ⟨t', t1', -, -, t4'⟩ := C78_moment h hc hd' hv' (fun c e => (hg c e).trans hday)
  have hm := taiMinusUtc_mono (L := L) (b := b) hday
  have e : t'.taiInstant - t.taiInstant = ((v' - v : ℤ) : K) / 1000000 +
        ((taiMinusUtc L b (utcDay v') - taiMinusUtc L b (utcDay v) : ℤ) : K) := by
    rw [t4, t4']; unfold taiAt; push_cast; ring
  refine ⟨t, t', t1, t1', e, sub_pos.1 ?_⟩
  rw [e]
  have a1 : (0 : K) < ((v' - v : ℤ) : K) := by exact_mod_cast sub_pos.2 hlt
  have a2 : (0 : K) ≤ ((taiMinusUtc L b (utcDay v') - taiMinusUtc L b (utcDay v) : ℤ) : K) := by
    exact_mod_cast sub_nonneg.2 hm
  positivity

/-- A zone whose own flag is honest: the object `utc` has offset zero. -/
def Zone.Honest (z : Zone) : Prop := z.isUtc = true → ∀ v, z.offset v = 0

theorem astimezone_utc {dt : PyDatetime} {v leap : ℤ} {t : Time K} {z : Zone}
    (hs : ShowsClock dt v) (ht : t.utcDatetime = .ok (dt, leap)) :
    (0 ≤ v + z.offset v ∧ v + z.offset v < datetimeSpan →
      ∃ d, t.astimezoneAndLeapSecond z = .ok (d, leap) ∧ d.tz = some ⟨z.isUtc, z.offset v⟩ ∧
        ShowsClock d (v + z.offset v)) ∧
    (¬ (0 ≤ v + z.offset v ∧ v + z.offset v < datetimeSpan) →
      t.astimezoneAndLeapSecond z = .error .overflow) := by
  unfold Time.astimezoneAndLeapSecond
  rw [ht]
  have hs' : ShowsClock dt (v + (⟨true, 0⟩ : TzOffset).offset) := by simpa using hs
  have hv := shows_in_range hs
  constructor
  · intro hz
    obtain ⟨d, d1, d2, d3⟩ := astimezone_ok hs' hv z hz
    simp only [d1]
    cases z.normalizes with
    | false => exact ⟨d, rfl, d2, d3⟩
    | true =>
      unfold Zone.normalize
      rw [d2]
      obtain ⟨d', e1, e2, e3⟩ := astimezone_ok (tz := ⟨z.isUtc, z.offset v⟩) d3 hv z hz
      simp only [e1]
      exact ⟨d', rfl, e2, e3⟩
  · intro hz
    simp only [astimezone_overflow hs' z (Or.inr hz)]

/-- C78 (round trip).  An aware datetime turned into a time and back into a datetime of its own
zone is unchanged, and the leap second value is 0. -/
theorem C78_roundtrip (h : IsLeapTable ts L b) (hc : GoodCutoff ts.cutoff) {dt : PyDatetime} {v : ℤ}
    (hd : NamesUtc dt v) (hv : 0 ≤ v ∧ v < datetimeSpan) (hg : Gregorian ts (utcDay v)) (z : Zone)
    (hz : dt.tz = some ⟨z.isUtc, z.offset v⟩) :
    ∃ t, ts.ofDatetime dt = .ok t ∧ t.astimezoneAndLeapSecond z = .ok (dt, 0) := by
  obtain ⟨u, u1, u2, u3⟩ := utcTuple_of_names hd hv
  obtain ⟨h1, h2, h3, h4, h5, h6, h7, h8, h9, h10, D, hD, hvD⟩ := id u3
  have eD : utcDay v = D := by unfold utcDay; omega
  have r := C08_datetime_roundtrip h hc (civil_of_gregorian hD (eD ▸ hg)) ⟨h3, h4⟩ ⟨h5, h6⟩
    ⟨h7, h8⟩ ⟨h9, h10⟩
  obtain ⟨tz, k1, k2, k3⟩ := hd
  rw [hz] at k1
  obtain rfl := Option.some.inj k1
  have hrange := shows_in_range k3
  unfold Timescale.ofDatetime
  rw [u1]
  unfold Timescale.utcOfTuple
  cases e : ts.fromDatetime u.year u.month u.day u.hour u.minute u.second u.micro with
  | none => rw [e] at r; simp at r
  | some t =>
    rw [e, Option.bind_some] at r
    refine ⟨t, by simp only [e], ?_⟩
    have hu : t.utcDatetime = .ok (u, 0) := by
      unfold Time.utcDatetime
      rw [r]
      dsimp only
      rw [if_pos ⟨h1, h2, hD.1⟩, ← u2]
    obtain ⟨d, d1, d2, d3⟩ := (astimezone_utc (z := z) u3 hu).1 hrange
    rw [d1, shows_unique d3 k3 (d2.trans hz.symm)]

/-- C78 (reading).  Whenever `astimezone_and_leap_second(tz)` answers, the datetime carries the
zone's offset for its moment `v`; the leap second value is 0 or 1, and 1 only in the last second
of a UTC day that ends with a leap second; and that moment — plus the leap second — is the time's
own, to half a microsecond.  The last two hold on the Gregorian side of the timescale's
calendar. -/
theorem C78_reading (t : Time K) (ht : t.Coherent) (h : IsLeapTable t.ts L b)
    (hc : GoodCutoff t.ts.cutoff) (z : Zone) (hz : z.Honest) {dt : PyDatetime} {leap : ℤ}
    (hok : t.astimezoneAndLeapSecond z = .ok (dt, leap)) :
    ∃ v, NamesUtc dt v ∧ 0 ≤ v ∧ v < datetimeSpan ∧ dt.tz = some ⟨z.isUtc, z.offset v⟩ ∧
      (leap = 0 ∨ leap = 1) ∧
      (Gregorian t.ts (utcDay v) →
        (leap = 1 → utcDay v + 1 ∈ L ∧ v % 86400000000 / 1000000 = 86399) ∧
        |(taiAt L b v : K) + leap - t.taiInstant| ≤ 1/2 / 1000000) := by
  obtain ⟨f, f1, f2, f3, f4, f5, f6, D, fD, fv, -, fn, -⟩ := C08_datetime_nearest t ht h
  have hu : ∃ u, t.utcDatetime = .ok (u, f.leapSecond) ∧ u.tz = some ⟨true, 0⟩ ∧
      ∃ v, ShowsClock u v ∧ ∃ D', CivilDate none f.year f.month f.day D' ∧
      v = (D' - 1721426) * 86400000000 + f.hour * 3600000000 + f.minute * 60000000 +
        f.second * 1000000 + f.micro := by
    have hu : t.utcDatetime =
        if 1 ≤ f.year ∧ f.year ≤ 9999 ∧ ValidDate gregorianLeap f.year f.month f.day then
          .ok (⟨f.year, f.month, f.day, f.hour, f.minute, f.second, f.micro, some ⟨true, 0⟩⟩,
            f.leapSecond)
        else .error (upgradeDatetimeException f) := by
      unfold Time.utcDatetime; rw [f1]
    unfold Time.astimezoneAndLeapSecond at hok
    rw [hu] at hok ⊢
    by_cases hy : 1 ≤ f.year ∧ f.year ≤ 9999 ∧ ValidDate gregorianLeap f.year f.month f.day
    · rw [if_pos hy]
      have hD' : CivilDate none f.year f.month f.day (julianDay f.year f.month f.day none) :=
        ⟨hy.2.2, _, C02_is_gregorian_day_number, rfl⟩
      exact ⟨_, rfl, rfl, _, ⟨hy.1, hy.2.1, fv.1, fv.2.1, fv.2.2.1, fv.2.2.2.1, f4, f5, f2,
        by dsimp only; omega, _, hD', rfl⟩, _, hD', rfl⟩
    · rw [if_neg hy] at hok
      simp at hok
  obtain ⟨u, u1, u2, v, hs, D', hD', hv⟩ := hu
  have hr := shows_in_range hs
  have eD : utcDay v = D' := by
    obtain ⟨v1, v2, v3, v4, -⟩ := fv
    unfold utcDay; omega
  have hin : 0 ≤ v + z.offset v ∧ v + z.offset v < datetimeSpan := by
    by_contra hn
    rw [(astimezone_utc (z := z) hs u1).2 hn] at hok
    cases hok
  obtain ⟨d, d1, d2, d3⟩ := (astimezone_utc (z := z) hs u1).1 hin
  rw [d1] at hok
  obtain ⟨rfl, rfl⟩ := Prod.mk.inj (Except.ok.inj hok)
  have hDD : Gregorian t.ts (utcDay v) → D = D' := by
    intro hg
    rw [eD] at hg
    have a1 := C03_civil_date_to_jd _ hc _ _ _ _ fD
    have a2 := C03_civil_date_to_jd _ hc _ _ _ _ (civil_of_gregorian hD' hg)
    omega
  refine ⟨v, ⟨_, d2, fun e => hz e v, d3⟩, hr.1, hr.2, d2, by tauto, fun hg => ⟨?_, ?_⟩⟩
  · intro h1
    have hs59 : f.second = 59 := by omega
    obtain ⟨v1, v2, v3, v4, v5, v6⟩ := fv
    rw [eD, ← hDD hg]
    rcases v6 with v6 | ⟨e1, e2, -, e3⟩
    · exfalso
      rw [h1, hs59] at v6
      have : (0 : K) ≤ (f.micro : K) / 1000000 := by
        have : (0 : K) ≤ (f.micro : K) := by exact_mod_cast f2
        positivity
      push_cast at v6
      linarith
    · exact ⟨e3, by omega⟩
  · have : (taiAt L b v : K) + f.leapSecond = taiOf L b D f.hour f.minute
        (((f.second + f.leapSecond : ℤ) : K) + f.micro / 1000000) := by
      unfold taiAt taiOf
      rw [eD, hDD hg, hv]
      push_cast
      ring
    rw [this]
    convert fn using 2
    norm_num

/-- C78 (there and back).  Turn a time into a datetime of any zone and that into a time again: the
result is within half a microsecond of the original; in a leap second, which a datetime cannot
express, it is one second early. -/
theorem C78_back (t : Time K) (ht : t.Coherent) (h : IsLeapTable t.ts L b)
    (hcut : t.ts.cutoff = none) (z : Zone) (hz : z.Honest) {dt : PyDatetime} {leap : ℤ}
    (hok : t.astimezoneAndLeapSecond z = .ok (dt, leap)) :
    ∃ t', t.ts.ofDatetime dt = .ok t' ∧ |t'.taiInstant + leap - t.taiInstant| ≤ 1/2 / 1000000 ∧
      (leap = 0 ∨ leap = 1) := by
  have hc : GoodCutoff t.ts.cutoff := by rw [hcut]; intro c hc; cases hc
  have hg : ∀ D, Gregorian t.ts D := by intro D c e; rw [hcut] at e; cases e
  obtain ⟨v, h1, h2, h3, h4, h6, h7⟩ := C78_reading t ht h hc z hz hok
  obtain ⟨t', t1, -, -, t4⟩ := C78_moment h hc h1 ⟨h2, h3⟩ (hg _)
  refine ⟨t', t1, ?_, h6⟩
  rw [t4]
  exact (h7 (hg _)).2

/-- C78 (`utc()` arguments).  `ts.utc(datetime)` is `from_datetime`, `ts.utc(date)` is the
midnight UTC that begins that date, `ts.utc(list)` is `from_datetimes` unless the list is empty,
which raises `IndexError`. -/
theorem C78_utc_arguments (ts : Timescale K) :
    (∀ dt, ts.utcCall (.datetime dt) = (ts.ofDatetime dt).map fun t => [t]) ∧
    (∀ y m d, ts.utcCall (.date y m d) =
      match ts.utc y m (d : K) (0 : K) (0 : K) (0 : K) with
      | none => .error .emptyTable
      | some t => .ok [t]) ∧
    (∀ dts, dts ≠ [] → ts.utcCall (.datetimes dts) = ts.ofDatetimes dts) ∧
    ts.utcCall (.datetimes []) = .error .index := by
  refine ⟨fun _ => rfl, ?_, ?_, rfl⟩
  · intro y m d
    unfold Timescale.utcCall Timescale.ofDatetime datetimeToUtcTuple
    dsimp only
    rw [if_neg (by simp)]
    dsimp only
    unfold Timescale.utcOfTuple Timescale.fromDatetime
    dsimp only
    simp only [Int.cast_zero, zero_div, add_zero]
    cases ts.utc y m (d : K) (0 : K) (0 : K) (0 : K) <;> rfl
  · rintro (_ | ⟨d, ds⟩) h
    · exact absurd rfl h
    · rfl

theorem mapM_ok_forall {A B E : Type*} (f : A → Except E B) (l : List A) (r : List B) :
    l.mapM f = .ok r ↔ List.Forall₂ (fun a b => f a = .ok b) l r := by
  induction l generalizing r with
  | nil => cases r <;> simp [pure, Except.pure]
  | cons a l ih =>
    rw [List.mapM_cons]
    cases ha : f a with
    | error e =>
      constructor
      · intro h; simp [bind, Except.bind] at h
      · intro h; cases h with | cons h1 _ => rw [ha] at h1; cases h1
    | ok b =>
      cases hl : l.mapM f with
      | error e =>
        constructor
        · intro h; simp [bind, Except.bind] at h
        · intro h
          cases h with
          | cons h1 h2 => rw [← ih, hl] at h2; cases h2
      | ok bs =>
        constructor
        · intro h
          simp only [bind, Except.bind, pure, Except.pure, Except.ok.injEq] at h
          subst h
          exact .cons ha ((ih bs).1 hl)
        · intro h
          cases h with
          | cons h1 h2 =>
            rw [← ih, hl] at h2
            rw [ha] at h1
            cases h1; cases h2
            rfl

/-- C78 (lists).  `from_datetimes` of a nonempty list is `from_datetime` of each element, in
order; it answers exactly when each of them does. -/
theorem C78_list (ts : Timescale K) (dts : List PyDatetime) (h : dts ≠ []) (times : List (Time K)) :
    ts.ofDatetimes dts = .ok times ↔ List.Forall₂ (fun d t => ts.ofDatetime d = .ok t) dts times := by
  have step : ∀ d t, ts.ofDatetime d = .ok t ↔
      ∃ u, datetimeToUtcTuple d = .ok u ∧ ts.utcOfTuple u = .ok t := by
    intro d t
    unfold Timescale.ofDatetime
    cases datetimeToUtcTuple d <;> simp
  simp only [step]
  unfold Timescale.ofDatetimes
  cases hu : dts.mapM datetimeToUtcTuple with
  | error e =>
    constructor
    · intro h; cases h
    · intro h2
      exfalso
      have : ∃ us, dts.mapM datetimeToUtcTuple = .ok us := by
        clear hu h step
        induction h2 with
        | nil => exact ⟨[], rfl⟩
        | cons h1 _ ih =>
          obtain ⟨us, e⟩ := ih
          obtain ⟨u, e1, -⟩ := h1
          exact ⟨u :: us, by rw [List.mapM_cons, e1, e]; rfl⟩
      obtain ⟨us, e'⟩ := this
      rw [hu] at e'; cases e'
  | ok us =>
    have f := (mapM_ok_forall _ _ _).1 hu
    cases us with
    | nil => cases f; exact absurd rfl h
    | cons u us =>
      dsimp only
      rw [mapM_ok_forall]
      clear h hu step
      generalize u :: us = us at f
      induction f generalizing times with
      | nil => cases times <;> simp
      | cons h1 _ ih =>
        constructor
        · intro h
          cases h with
          | cons g1 g2 => exact .cons ⟨_, h1, g1⟩ ((ih _).1 g2)
        · intro h
          cases h with
          | cons g1 g2 =>
            obtain ⟨u', e1, e2⟩ := g1
            rw [h1] at e1
            cases e1
            exact .cons e2 ((ih _).2 g2)

/-- C78 (years).  With the default, always Gregorian, calendar a time has a datetime exactly when
the year of its UTC date, to the nearest microsecond, is 1 to 9999. -/
theorem C78_years (t : Time K) (ht : t.Coherent) (h : IsLeapTable t.ts L b)
    (hcut : t.ts.cutoff = none) :
    ∃ f, t.utcDatetimeAndLeapSecond = some f ∧
      ((∃ r, t.utcDatetime = .ok r) ↔ 1 ≤ f.year ∧ f.year ≤ 9999) ∧
      (f.year < 0 → t.utcDatetime = .error (.negativeYear f.year)) := by
  obtain ⟨f, f1, -, -, -, -, -, D, fD, -⟩ := C08_datetime_nearest t ht h
  rw [hcut] at fD
  refine ⟨f, f1, ?_, ?_⟩
  · unfold Time.utcDatetime
    rw [f1]
    dsimp only
    by_cases hy : 1 ≤ f.year ∧ f.year ≤ 9999 ∧ ValidDate gregorianLeap f.year f.month f.day
    · rw [if_pos hy]; simp [hy.1, hy.2.1]
    · rw [if_neg hy]
      simp only [reduceCtorEq, exists_false, false_iff]
      exact fun h => hy ⟨h.1, h.2, fD.1⟩
  · intro hy
    unfold Time.utcDatetime
    rw [f1]
    dsimp only
    rw [if_neg (by omega)]
    unfold upgradeDatetimeException
    rw [if_pos hy]

/-- C78 (finding: the wrong complaint).  February 29 of a leap year after 9999 is a date of the
Gregorian calendar, but is refused as a "Julian leap day missing from the Gregorian calendar". -/
theorem C78_wrong_complaint (h : IsLeapTable ts L b) (hcut : ts.cutoff = none) (y : ℤ)
    (hy : 9999 < y) (hleap : gregorianLeap y = true) :
    ValidDate gregorianLeap y 2 29 ∧
      ∃ t, ts.utcCall (.numbers y 2 ((29 : ℤ) : K) ((0 : ℤ) : K) ((0 : ℤ) : K)
          (((0 : ℤ) : K) + ((0 : ℤ) : K) / 1000000)) = .ok [t] ∧
        t.utcDatetime = .error (.julianLeapDay y) := by
  have hv : ValidDate gregorianLeap y 2 29 := by
    refine ⟨by norm_num, by norm_num, by norm_num, ?_⟩
    simp [monthLength, hleap]
  have hd : CivilDate ts.cutoff y 2 29 (julianDay y 2 29 none) := by
    rw [hcut]; exact ⟨hv, _, C02_is_gregorian_day_number, rfl⟩
  have hc : GoodCutoff ts.cutoff := by rw [hcut]; intro c hc; cases hc
  have r := C08_datetime_roundtrip h hc hd (hh := 0) (mi := 0) (s := 0) (us := 0) (by norm_num)
    (by norm_num) (by norm_num) (by norm_num)
  refine ⟨hv, ?_⟩
  unfold Timescale.fromDatetime at r
  unfold Timescale.utcCall
  dsimp only
  cases e : ts.utc y 2 ((29 : ℤ) : K) ((0 : ℤ) : K) ((0 : ℤ) : K)
      (((0 : ℤ) : K) + ((0 : ℤ) : K) / 1000000) with
  | none => rw [e] at r; simp at r
  | some t =>
    rw [e, Option.bind_some] at r
    refine ⟨t, rfl, ?_⟩
    unfold Time.utcDatetime
    rw [r]
    dsimp only
    rw [if_neg (by omega)]
    unfold upgradeDatetimeException
    rw [if_neg (by dsimp only; omega), if_pos ⟨rfl, rfl⟩]

/-- C78 (finding: the Julian side).  Python's datetimes are proleptic Gregorian, but with a Julian
calendar cutoff their fields are read as Julian before it: the consecutive days 1500 February 28
and March 1 of Python become times two days apart. -/
theorem C78_julian_side (h : IsLeapTable ts L b) (hcut : ts.cutoff = some gregorianStart) :
    NamesUtc ⟨1500, 2, 28, 0, 0, 0, 0, some ⟨true, 0⟩⟩ (547556 * 86400000000) ∧
    NamesUtc ⟨1500, 3, 1, 0, 0, 0, 0, some ⟨true, 0⟩⟩ (547557 * 86400000000) ∧
    ∃ t t', ts.ofDatetime ⟨1500, 2, 28, 0, 0, 0, 0, some ⟨true, 0⟩⟩ = .ok t ∧
      ts.ofDatetime ⟨1500, 3, 1, 0, 0, 0, 0, some ⟨true, 0⟩⟩ = .ok t' ∧
      2 * 86400 ≤ t'.taiInstant - t.taiInstant := by
  have n : ∀ m d D : ℤ, computeCalendarDate D none = ⟨1500, m, d⟩ →
      NamesUtc ⟨1500, m, d, 0, 0, 0, 0, some ⟨true, 0⟩⟩ ((D - 1721426) * 86400000000) := by
    intro m d D hD
    refine ⟨_, rfl, fun _ => rfl, by norm_num, by norm_num, by norm_num, by norm_num, by norm_num,
      by norm_num, by norm_num, by norm_num, by norm_num, by norm_num, D,
      (C03_reads_civil_date _ _ _ _ _).1 hD, by ring⟩
  have hc : GoodCutoff ts.cutoff := by
    rw [hcut]; intro c hc; obtain rfl := Option.some.inj hc; decide
  have g : ∀ m d D : ℤ, computeCalendarDate D (some gregorianStart) = ⟨1500, m, d⟩ →
      ∃ t, ts.ofDatetime ⟨1500, m, d, 0, 0, 0, 0, some ⟨true, 0⟩⟩ = .ok t ∧
        t.taiInstant = taiOf L b D 0 0 (((0 : ℤ) : K) + ((0 : ℤ) : K) / 1000000) := by
    intro m d D hD
    obtain ⟨t, t1, -, -, t4⟩ := C05_utc_instant h hc
      (hcut ▸ (C03_reads_civil_date _ _ _ _ _).1 hD) 0 0
      (((0 : ℤ) : K) + ((0 : ℤ) : K) / 1000000)
    refine ⟨t, ?_, t4⟩
    unfold Timescale.ofDatetime datetimeToUtcTuple Timescale.utcOfTuple Timescale.fromDatetime
    simp [-Int.cast_zero, t1]
  obtain ⟨t, t1, t2⟩ := g 2 28 2268991 (by decide)
  obtain ⟨t', t1', t2'⟩ := g 3 1 2268993 (by decide)
  refine ⟨n 2 28 2268982 (by decide), n 3 1 2268983 (by decide), t, t', t1, t1', ?_⟩
  rw [t2, t2']
  have hm : taiMinusUtc L b 2268991 ≤ taiMinusUtc L b 2268993 := taiMinusUtc_mono (by norm_num)
  have : (taiMinusUtc L b 2268991 : K) ≤ (taiMinusUtc L b 2268993 : K) := by exact_mod_cast hm
  unfold taiOf
  push_cast
  linarith

/-! Concrete cases of the hypotheses above. -/

/-- Eastern time in 2024: daylight time between March 10 and November 3. -/
def exampleZone : Zone where
  isUtc := false
  offset := fun v => if 63845650800000000 ≤ v ∧ v < 63866210400000000 then -14400000000
    else -18000000000
  normalizes := true

/-- 2024-07-04 12:00 EDT. -/
def exampleNoon : PyDatetime := ⟨2024, 7, 4, 12, 0, 0, 0, some ⟨false, -14400000000⟩⟩

theorem exampleNoon_names : NamesUtc exampleNoon 63855705600000000 :=
  ⟨_, rfl, by decide, by decide, by decide, by decide, by decide, by decide, by decide, by decide,
    by decide, by decide, by decide, 2460496, (C03_reads_civil_date _ _ _ _ _).1 (by decide),
    by decide⟩

theorem exampleTs_gregorian : Gregorian exampleTs (utcDay 63855705600000000) := by
  intro c h
  simp only [exampleTs, Option.some.injEq] at h
  subst h; decide

example : ∃ t, exampleTs.ofDatetime exampleNoon = .ok t ∧
    t.astimezoneAndLeapSecond exampleZone = .ok (exampleNoon, 0) :=
  C78_roundtrip exampleTs_ok exampleTs_cutoff exampleNoon_names (by decide) exampleTs_gregorian
    exampleZone (by decide)

/-- The same moment in UTC. -/
example : exampleTs.ofDatetime exampleNoon =
    exampleTs.ofDatetime ⟨2024, 7, 4, 16, 0, 0, 0, some ⟨true, 0⟩⟩ :=
  C78_same_moment _ exampleNoon_names
    ⟨_, rfl, by decide, by decide, by decide, by decide, by decide, by decide, by decide, by decide,
      by decide, by decide, by decide, 2460496, (C03_reads_civil_date _ _ _ _ _).1 (by decide),
      by decide⟩

/-- A quarter of the way into the leap second that ended June 1972, on a clock in New York. -/
example : ∀ t, exampleTs.utc 1972 6 30 23 59 (60 + 1/4) = some t →
    t.astimezoneAndLeapSecond exampleZone =
      .ok (⟨1972, 6, 30, 18, 59, 59, 250000, some ⟨false, -18000000000⟩⟩, 1) := by
  intro t ht
  have : (exampleTs.utc 1972 6 30 23 59 (60 + 1/4)).map
      (fun t => decide (t.astimezoneAndLeapSecond exampleZone =
        .ok (⟨1972, 6, 30, 18, 59, 59, 250000, some ⟨false, -18000000000⟩⟩, 1))) = some true := by
    decide +kernel
  rw [ht] at this
  simpa using this

/-- The first hour of year 1 in Tokyo is in year 0 of UTC. -/
example : exampleTs.ofDatetime ⟨1, 1, 1, 0, 30, 0, 0, some ⟨false, 32400000000⟩⟩ =
    .error .overflow := (C78_refused _ _).2 (-30600000000)
  ⟨_, rfl, by decide, by decide, by decide, by decide, by decide, by decide, by decide, by decide,
    by decide, by decide, by decide, 1721426, (C03_reads_civil_date _ _ _ _ _).1 (by decide),
    by decide⟩ (by decide)

/-- The default, always Gregorian, calendar. -/
def exampleTsNone : Timescale ℚ := { exampleTs with cutoff := none }

theorem exampleTsNone_ok : IsLeapTable exampleTsNone [2441500, 2441684, 2442049] 10 :=
  ⟨exampleTs_ok.dates, exampleTs_ok.offsets, exampleTs_ok.sorted, exampleTs_ok.nonempty⟩

/-- A third of a day past a J2000 noon of TT, in New York and back. -/
example : ∃ t', exampleTsNone.ofDatetime
      ⟨2000, 1, 1, 14, 59, 14, 816000, some ⟨false, -18000000000⟩⟩ = .ok t' ∧
    |t'.taiInstant + (0 : ℤ) -
      ({ ts := exampleTsNone, whole := 2451545, ttFraction := 1/3 } : Time ℚ).taiInstant| ≤
        1/2 / 1000000 :=
  let ⟨t', h1, h2, _⟩ := C78_back ({ ts := exampleTsNone, whole := 2451545, ttFraction := 1/3 } :
      Time ℚ) (C05_coherent _ rfl) exampleTsNone_ok rfl exampleZone (by intro h; cases h)
      (by decide +kernel)
  ⟨t', h1, h2⟩

end Skyfield
