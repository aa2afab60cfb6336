import Verif.Model.Settings
import Verif.Spec.Calendar
import Verif.Props.UtcText
import Verif.Props.Utc
import Mathlib.Tactic.Linarith

/-
C96: settings of a timescale changed while times are in use.
-/
namespace Skyfield
open Spec
set_option linter.unusedSectionVars false

variable {K : Type} [Field K] [LinearOrder K] [IsStrictOrderedRing K] [FloorRing K]
variable {polar : Option (PolarTable K) → K → K → Option (K × K × K)} {g : K → K → K}
variable {L : List ℤ} {b : ℤ}

/-- Specification: the calendar cutoff in force after a program, if it was `c` at its start: the one assigned last. -/
def cutoffAfter (c : Option ℤ) : List (TimescaleUse K) → Option ℤ
  | [] => c
  | .setCutoff c' :: uses => cutoffAfter c' uses
  | _ :: uses => cutoffAfter c uses

/-- What a time object is, apart from anything cached: the numbers its constructor stored. -/
def TimeObject.stored (o : TimeObject K) : K × K × Option K × Option (K × K) × Option K × Option K :=
  (o.time.whole, o.time.ttFraction, o.time.taiFraction?, o.time.taiSeconds?, o.time.tdbFraction?, o.time.ut1Fraction?)

private theorem run_nil (s : TimescaleState K) : s.run polar g [] = s := rfl

private theorem run_cons (s : TimescaleState K) (u : TimescaleUse K) (us : List (TimescaleUse K)) :
    s.run polar g (u :: us) = (s.step polar g u).1.run polar g us := rfl

private theorem run_append (s : TimescaleState K) (a c : List (TimescaleUse K)) :
    s.run polar g (a ++ c) = (s.run polar g a).run polar g c := by
  unfold TimescaleState.run; rw [List.foldl_append]

private theorem cutoffAfter_append (c : Option ℤ) (x y : List (TimescaleUse K)) :
    cutoffAfter c (x ++ y) = cutoffAfter (cutoffAfter c x) y := by
  induction x generalizing c with
  | nil => rfl
  | cons u x ih => cases u <;> exact ih _

private theorem set_stored {l : List (TimeObject K)} {i : ℕ} {o : TimeObject K} (h : l[i]? = some o)
    (v : Option (UtcTuple K)) (j : ℕ) :
    (l.set i { o with utc := v })[j]?.map TimeObject.stored = l[j]?.map TimeObject.stored := by
  rw [List.getElem?_set]
  by_cases hij : i = j
  · subst hij
    rw [if_pos rfl, h]
    obtain ⟨hl, -⟩ := List.getElem?_eq_some_iff.1 h
    rw [if_pos hl]; rfl
  · rw [if_neg hij]

/-- One step: the leap second tables and ΔT stay; the cutoff changes only by assignment; the times that exist keep what
they stored. -/
private theorem step_keeps (s : TimescaleState K) (u : TimescaleUse K) :
    (s.step polar g u).1.ts = { s.ts with cutoff := cutoffAfter s.ts.cutoff [u] } ∧
      ∀ (j : ℕ) (o : TimeObject K), s.times[j]? = some o →
        ∃ o' : TimeObject K, (s.step polar g u).1.times[j]? = some o' ∧ o'.stored = o.stored ∧
          (∀ v, o.utc = some v → o'.utc = some v) := by
  have push : ∀ (t : Time K) (j : ℕ) (o : TimeObject K), s.times[j]? = some o →
      ∃ o' : TimeObject K, (s.push t).times[j]? = some o' ∧ o'.stored = o.stored ∧ (∀ v, o.utc = some v → o'.utc = some v) := by
    intro t j o h
    refine ⟨o, ?_, rfl, fun v hv => hv⟩
    show (s.times ++ [_])[j]? = some o
    rw [List.getElem?_append_left (List.getElem?_eq_some_iff.1 h).1]; exact h
  have same : ∀ (j : ℕ) (o : TimeObject K), s.times[j]? = some o →
      ∃ o' : TimeObject K, s.times[j]? = some o' ∧ o'.stored = o.stored ∧ (∀ v, o.utc = some v → o'.utc = some v) :=
    fun j o h => ⟨o, h, rfl, fun v hv => hv⟩
  cases u with
  | setCutoff c => exact ⟨rfl, same⟩
  | installPolar rows =>
    show (match installPolarMotionTable s.ts rows with
      | none => (s, TimescaleAnswer.raised) | some p => ({ s with polar := some p }, .done)).1.ts = _ ∧ _
    simp only [TimescaleState.step]
    cases installPolarMotionTable s.ts rows <;> exact ⟨rfl, same⟩
  | makeUtc y m d h mi sec =>
    simp only [TimescaleState.step]
    cases s.ts.utc y m d h mi sec with
    | none => exact ⟨rfl, same⟩
    | some t => exact ⟨rfl, push t⟩
  | makeTt y m d h mi sec => exact ⟨rfl, push _⟩
  | makeTtJd jd f => exact ⟨rfl, push _⟩
  | add i x =>
    simp only [TimescaleState.step]
    cases s.times[i]? with
    | none => exact ⟨rfl, same⟩
    | some t => exact ⟨rfl, push _⟩
  | readUtc i =>
    simp only [TimescaleState.step]
    cases hi : s.times[i]? with
    | none => exact ⟨rfl, same⟩
    | some o =>
      simp only [TimescaleState.utcAttr]
      cases ho : o.utc with
      | some v => exact ⟨rfl, same⟩
      | none =>
        simp only
        cases (o.now s).utcTuple 0 with
        | none => exact ⟨rfl, same⟩
        | some v =>
          refine ⟨rfl, fun j o1 h1 => ?_⟩
          show ∃ o', (s.times.set i { o with utc := some v })[j]? = some o' ∧ _
          rw [List.getElem?_set]
          by_cases hij : i = j
          · subst hij
            rw [if_pos rfl, if_pos (List.getElem?_eq_some_iff.1 hi).1]
            rw [hi] at h1
            obtain rfl := Option.some.inj h1
            exact ⟨_, rfl, rfl, fun w hw => by rw [ho] at hw; cases hw⟩
          · rw [if_neg hij]
            exact same j o1 h1
  | readIso i p => exact ⟨rfl, same⟩
  | readUtcStrftime i u => exact ⟨rfl, same⟩
  | readTtCalendar i => exact ⟨rfl, same⟩
  | readTtStrftime i u => exact ⟨rfl, same⟩
  | readTt i => exact ⟨rfl, same⟩
  | readPolar i => exact ⟨rfl, same⟩

private theorem run_keeps (s : TimescaleState K) (us : List (TimescaleUse K)) :
    (s.run polar g us).ts = { s.ts with cutoff := cutoffAfter s.ts.cutoff us } ∧
      ∀ (j : ℕ) (o : TimeObject K), s.times[j]? = some o →
        ∃ o' : TimeObject K, (s.run polar g us).times[j]? = some o' ∧ o'.stored = o.stored ∧
          (∀ v, o.utc = some v → o'.utc = some v) := by
  induction us generalizing s with
  | nil => exact ⟨rfl, fun j o h => ⟨o, h, rfl, fun v hv => hv⟩⟩
  | cons u us ih =>
    rw [run_cons]
    obtain ⟨a1, a2⟩ := step_keeps (polar := polar) (g := g) s u
    obtain ⟨b1, b2⟩ := ih (s.step polar g u).1
    refine ⟨?_, fun j o h => ?_⟩
    · rw [b1, a1, show u :: us = [u] ++ us from rfl, cutoffAfter_append]
    · obtain ⟨o1, h1, h2, h3⟩ := a2 j o h
      obtain ⟨o2, h4, h5, h6⟩ := b2 j o1 h1
      exact ⟨o2, h4, h5.trans h2, fun v hv => h6 v (h3 v hv)⟩

/-- C96 (settings).  After any program the cutoff is the one assigned last; the leap second tables and ΔT are what they
were. -/
theorem C96_cutoff (s : TimescaleState K) (uses : List (TimescaleUse K)) :
    (s.run polar g uses).ts = { s.ts with cutoff := cutoffAfter s.ts.cutoff uses } :=
  (run_keeps s uses).1

/-- C96 (times stay).  Nothing that a program does afterwards — new settings, reads, further times — moves a time that
exists: its TT, TAI, TDB and UT1 are still the numbers they were when it was made. -/
theorem C96_times_stay (s : TimescaleState K) (uses : List (TimescaleUse K)) (i : ℕ) (o : TimeObject K)
    (h : s.times[i]? = some o) :
    ∃ o' : TimeObject K, (s.run polar g uses).times[i]? = some o' ∧ (o'.now (s.run polar g uses)).tt = (o.now s).tt ∧
      (o'.now (s.run polar g uses)).tai = (o.now s).tai ∧ (o'.now (s.run polar g uses)).tdb g = (o.now s).tdb g ∧
      (o'.now (s.run polar g uses)).ut1 = (o.now s).ut1 ∧
      (o'.now (s.run polar g uses)).toordinal = (o.now s).toordinal := by
  obtain ⟨h1, h2⟩ := run_keeps (polar := polar) (g := g) s uses
  obtain ⟨o', h3, h4, -⟩ := h2 i o h
  refine ⟨o', h3, ?_⟩
  obtain ⟨⟨_, w, f, a, sec, d, u⟩, c⟩ := o
  obtain ⟨⟨_, w', f', a', sec', d', u'⟩, c'⟩ := o'
  simp only [TimeObject.stored, Prod.mk.injEq] at h4
  obtain ⟨rfl, rfl, rfl, rfl, rfl, rfl⟩ := h4
  simp only [TimeObject.now, h1]
  exact ⟨rfl, rfl, rfl, rfl, rfl⟩

/-- Times made with a good leap second table are coherent. -/
private theorem utc_coherent {ts : Timescale K} (h : IsLeapTable ts L b) (y m : ℤ) (d hh mi s : K) (t : Time K)
    (ht : ts.utc y m d hh mi s = some t) : t.Coherent := by
  unfold Timescale.utc at ht
  simp only [pyDivmod_one, interp_utc h] at ht
  obtain rfl := Option.some.inj ht
  unfold Time.Coherent
  simp only [Time.taiSeconds, Time.taiInstant, Time.taiFraction]
  generalize (julianDayFrac y m d ts.cutoff - 1/2) * dayS = X
  obtain ⟨Y, hY⟩ : ∃ Y, Y = X - ↑⌊X⌋ + (hh * 3600 + mi * 60 + s) := ⟨_, rfl⟩
  rw [← hY]
  refine ⟨⟨⌊X⌋ + (b + cnt L ⌊X⌋) + ⌊Y⌋, by push_cast; ring⟩, ?_, ?_, ?_⟩
  · have := Int.floor_le Y; linarith
  · have := Int.lt_floor_add_one Y; linarith
  · simp only [pyDivmod, pyFloorDiv, pyMod, dayS]; field_simp; ring

private theorem leap_cutoff {ts : Timescale K} (h : IsLeapTable ts L b) (c : Option ℤ) :
    IsLeapTable { ts with cutoff := c } L b := ⟨h.dates, h.offsets, h.sorted, h.nonempty⟩

private theorem coherent_ts {t : Time K} (h : t.Coherent) (ts : Timescale K) :
    Time.Coherent { t with ts := ts } := h

/-- Every time that a program makes is coherent. -/
private theorem run_coherent (s : TimescaleState K) (h : IsLeapTable s.ts L b)
    (hc : ∀ o ∈ s.times, o.time.Coherent) (uses : List (TimescaleUse K)) :
    ∀ o ∈ (s.run polar g uses).times, o.time.Coherent := by
  induction uses generalizing s with
  | nil => exact hc
  | cons u us ih =>
    rw [run_cons]
    refine ih _ ?_ ?_
    · rw [(step_keeps s u).1]; exact leap_cutoff h _
    · have push : ∀ t : Time K, t.Coherent → ∀ o ∈ (s.push t).times, o.time.Coherent := by
        intro t ht o ho
        rcases List.mem_append.1 (show o ∈ s.times ++ [⟨t, none⟩] from ho) with ho | ho
        · exact hc o ho
        · obtain rfl := List.mem_singleton.1 ho; exact ht
      cases u with
      | setCutoff c => exact hc
      | installPolar rows =>
        simp only [TimescaleState.step]
        cases installPolarMotionTable s.ts rows <;> exact hc
      | makeUtc y m d hh mi sec =>
        simp only [TimescaleState.step]
        cases ht : s.ts.utc y m d hh mi sec with
        | none => exact hc
        | some t => exact push t (utc_coherent h _ _ _ _ _ _ _ ht)
      | makeTt y m d hh mi sec => exact push _ (coherent_of_none _ rfl)
      | makeTtJd jd f => exact push _ (coherent_of_none _ rfl)
      | add i x =>
        simp only [TimescaleState.step]
        cases s.times[i]? with
        | none => exact hc
        | some o => exact push _ (coherent_of_none _ rfl)
      | readUtc i =>
        simp only [TimescaleState.step]
        cases hi : s.times[i]? with
        | none => exact hc
        | some o =>
          simp only [TimescaleState.utcAttr]
          cases ho : o.utc with
          | some v => exact hc
          | none =>
            simp only
            cases (o.now s).utcTuple 0 with
            | none => exact hc
            | some v =>
              intro o1 h1
              rcases List.mem_or_eq_of_mem_set h1 with h1 | rfl
              · exact hc o1 h1
              · exact hc o (List.mem_of_getElem? hi)
      | readIso i p => exact hc
      | readUtcStrftime i u => exact hc
      | readTtCalendar i => exact hc
      | readTtStrftime i u => exact hc
      | readTt i => exact hc
      | readPolar i => exact hc

/-- A timescale as `load.timescale()` gives it: a leap second table, and no times made yet. -/
structure NewTimescale (s : TimescaleState K) (L : List ℤ) (b : ℤ) : Prop where
  table : IsLeapTable s.ts L b
  none : s.times = []

/-- C96 (methods follow the settings).  A time was made by a program; whatever the program did then, the calendar
methods answer for the time's own instant, in the calendar with the cutoff that is in force now — not the one that was
in force when the time was made. -/
theorem C96_methods_follow {s : TimescaleState K} (hs : NewTimescale s L b) (before after : List (TimescaleUse K))
    (i : ℕ) (o : TimeObject K) (h : (s.run polar g before).times[i]? = some o) :
    let now := s.run polar g (before ++ after)
    let c := cutoffAfter s.ts.cutoff (before ++ after)
    (∀ p, ∃ f, (now.step polar g (.readIso i p)).2 = .iso f ∧ 0 ≤ f.fraction ∧ f.fraction < 10 ^ p ∧
      NearestReading c L b (10 ^ p) o.time.taiInstant f.year f.month f.day f.hour f.minute
        ((f.second : K) + f.fraction / 10 ^ p)) ∧
    (∃ (x : CalendarTuple K) (D : ℤ), (now.step polar g (.readTtCalendar i)).2 = .calendar x ∧
      CivilDate c x.year x.month x.day D ∧ 0 ≤ x.hour ∧ x.hour ≤ 23 ∧ 0 ≤ x.minute ∧ x.minute ≤ 59 ∧ 0 ≤ x.second ∧
      x.second < 60 ∧ (D : K) - 1/2 + (3600 * x.hour + 60 * x.minute + x.second) / 86400 = o.time.tt) ∧
    (∃ (f : StrftimeFields) (D : ℤ), (now.step polar g (.readTtStrftime i .second)).2 = .text f ∧
      CivilDate c f.year f.month f.day D ∧ 0 ≤ f.hour ∧ f.hour ≤ 23 ∧ 0 ≤ f.minute ∧ f.minute ≤ 59 ∧ 0 ≤ f.second ∧
      f.second ≤ 59 ∧
      |(D : K) - 1/2 + (3600 * f.hour + 60 * f.minute + f.second) / 86400 - o.time.tt| ≤ 1/2 / 86400) ∧
    (now.step polar g (.readTt i)).2 = .number o.time.tt ∧
    (now.step polar g (.readPolar i)).2 = answerOf .angles (polar now.polar o.time.tt (o.time.tdb g)) := by
  intro now c
  have hco := run_coherent (polar := polar) (g := g) s hs.table (by rw [hs.none]; simp) (before ++ after)
  obtain ⟨k1, -⟩ := run_keeps (polar := polar) (g := g) s (before ++ after)
  obtain ⟨o', h3, h4, -⟩ := (run_keeps (polar := polar) (g := g) (s.run polar g before) after).2 i o h
  rw [← run_append] at h3
  have hc' := hco o' (List.mem_of_getElem? h3)
  have hnow : now.times[i]? = some o' := h3
  have hts : now.ts = { s.ts with cutoff := c } := k1
  have eI : (o'.now now).taiInstant = o.time.taiInstant ∧ o'.time.whole = o.time.whole ∧
      o'.time.ttFraction = o.time.ttFraction ∧ o'.time.tdb g = o.time.tdb g := by
    obtain ⟨⟨_, w, f, a, sec, d, u⟩, cc⟩ := o
    obtain ⟨⟨_, w', f', a', sec', d', u'⟩, cc'⟩ := o'
    simp only [TimeObject.stored, Prod.mk.injEq] at h4
    obtain ⟨rfl, rfl, rfl, rfl, rfl, rfl⟩ := h4
    exact ⟨rfl, rfl, rfl, rfl⟩
  obtain ⟨e1, e2, e3, e4⟩ := eI
  have ett : o'.time.tt = o.time.tt := by unfold Time.tt; rw [e2, e3]
  refine ⟨fun p => ?_, ?_, ?_, ?_, ?_⟩
  · obtain ⟨f, f1, fa, fb, f2⟩ := C08_iso_nearest (L := L) (b := b) (o'.now now) (coherent_ts hc' _)
      (by show IsLeapTable now.ts L b; rw [hts]; exact leap_cutoff hs.table _) p
    refine ⟨f, ?_, fa, fb, ?_⟩
    · simp only [TimescaleState.step, hnow, Option.bind_some, f1, answerOf]
    · rw [e1] at f2
      have : (o'.now now).ts.cutoff = c := by show now.ts.cutoff = c; rw [hts]
      rwa [this] at f2
  · obtain ⟨D, D1, D2⟩ := C09_calendar_tuple o'.time.whole o'.time.ttFraction c
    refine ⟨_, D, ?_, D1, ?_⟩
    · simp only [TimescaleState.step, hnow, Option.map_some, answerOf, hts]
    · rw [← ett]; exact D2
  · obtain ⟨D, D1, D2, D3, D4, D5, D6, D7, D8, -⟩ := C09_strftime_second now.ts o'.time.whole o'.time.ttFraction
    refine ⟨_, D, ?_, ?_, D2, D3, D4, D5, D6, D7, ?_⟩
    · simp only [TimescaleState.step, hnow, Option.map_some, answerOf]
    · rw [hts] at D1 ⊢; exact D1
    · rw [← ett]; exact D8
  · simp only [TimescaleState.step, hnow, Option.map_some, answerOf, ett]
  · simp only [TimescaleState.step, hnow, Option.bind_some, ett, e4]

/-- C96 (`.utc` is read once).  The attribute `.utc` gives, at its first read, the reading of the time in the calendar
then in force; every later read gives that first answer again, whatever cutoff has been assigned in between. -/
theorem C96_utc_first {s : TimescaleState K} (hs : NewTimescale s L b) (before after : List (TimescaleUse K))
    (i : ℕ) (o : TimeObject K) (h : (s.run polar g before).times[i]? = some o) (hnew : o.utc = none) :
    ∃ r : UtcTuple K, ((s.run polar g before).step polar g (.readUtc i)).2 = .utc r ∧
      ((s.run polar g (before ++ .readUtc i :: after)).step polar g (.readUtc i)).2 = .utc r ∧
      CivilDate (cutoffAfter s.ts.cutoff before) r.year r.month r.day r.jd ∧
      ValidUtc L r.jd r.hour r.minute r.second ∧
      taiOf L b r.jd r.hour r.minute r.second = o.time.taiInstant := by
  obtain ⟨w, hw⟩ : ∃ w, w = s.run polar g before := ⟨_, rfl⟩
  have hco := run_coherent (polar := polar) (g := g) s hs.table (by rw [hs.none]; simp) before
  have hts := (run_keeps (polar := polar) (g := g) s before).1
  rw [run_append, ← hw]
  rw [← hw] at h hco hts
  have hc := hco o (List.mem_of_getElem? h)
  obtain ⟨r, r1, r2, r3, r4⟩ := C05_utc_denotes (L := L) (b := b) (o.now w) (coherent_ts hc _)
    (by show IsLeapTable w.ts L b; rw [hts]; exact leap_cutoff hs.table _)
  have st : w.step polar g (.readUtc i) =
      ({ w with times := w.times.set i { o with utc := some r } }, .utc r) := by
    simp only [TimescaleState.step, h, TimescaleState.utcAttr, hnew, r1]
  refine ⟨r, by rw [st], ?_, ?_, r3, r4⟩
  · rw [run_cons, st]
    obtain ⟨o', q1, -, q3⟩ := (run_keeps (polar := polar) (g := g)
      { w with times := w.times.set i { o with utc := some r } } after).2 i { o with utc := some r } (by
        show (w.times.set i _)[i]? = _
        rw [List.getElem?_set_self (List.getElem?_eq_some_iff.1 h).1])
    simp only [TimescaleState.step, q1, TimescaleState.utcAttr, q3 r rfl]
  · have : (o.now w).ts.cutoff = cutoffAfter s.ts.cutoff before := by show w.ts.cutoff = _; rw [hts]
    rwa [this] at r2

/-- C96 (a new time).  A time just made has nothing cached, so its first `.utc` is read in the calendar in force. -/
theorem C96_new_time (s : TimescaleState K) (t : Time K) :
    (s.push t).times[s.times.length]? = some ⟨t, none⟩ := by
  show (s.times ++ [_])[s.times.length]? = _
  simp

private theorem read_later (s : TimescaleState K) (uses : List (TimescaleUse K)) (i : ℕ) (o : TimeObject K)
    (h : s.times[i]? = some o) : ((s.run polar g uses).step polar g (.readTt i)).2 = .number o.time.tt := by
  obtain ⟨o', h1, h2, -⟩ := C96_times_stay (polar := polar) (g := g) s uses i o h
  have e : (o'.now (s.run polar g uses)).tt = o'.time.tt := rfl
  have e' : (o.now s).tt = o.time.tt := rfl
  rw [e, e'] at h2
  show answerOf _ (Option.map _ _) = _
  rw [h1, Option.map_some, h2]
  rfl

/-- C96 (new times).  `ts.tt_jd(jd, fraction)` makes a time whose TT is the sum, and `t + x` one whose TT is `x` days after that
of `t`; every later read of `.tt` says so, whatever the program does in between. -/
theorem C96_new_times_read (s : TimescaleState K) (before after : List (TimescaleUse K)) :
    let now := s.run polar g before
    let n := now.times.length
    (∀ jd f : K, ((s.run polar g (before ++ .makeTtJd jd (some f) :: after)).step polar g (.readTt n)).2 =
      .number (jd + f)) ∧
    (∀ jd : K, ((s.run polar g (before ++ .makeTtJd jd none :: after)).step polar g (.readTt n)).2 = .number jd) ∧
    ∀ (i : ℕ) (x tt : K), (now.step polar g (.readTt i)).2 = .number tt →
      ((s.run polar g (before ++ .add i x :: after)).step polar g (.readTt n)).2 = .number (tt + x) := by
  intro now n
  have dm : ∀ x : K, (pyDivmod x 1).1 + (pyDivmod x 1).2 = x := by
    intro x
    rw [pyDivmod_one]
    exact add_sub_cancel _ _
  refine ⟨fun jd f => ?_, fun jd => ?_, fun i x tt h => ?_⟩
  · rw [run_append, run_cons]
    exact read_later (polar := polar) (g := g) (now.push (now.ts.ttJd jd (some f))) after n _ (C96_new_time _ _)
  · rw [run_append, run_cons]
    have := read_later (polar := polar) (g := g) (now.push (now.ts.ttJd jd none)) after n _ (C96_new_time _ _)
    refine this.trans ?_
    congr 1
    exact dm jd
  · rw [run_append, run_cons]
    cases ho : now.times[i]? with
    | none =>
      have : (now.step polar g (.readTt i)).2 = .raised := by
        show answerOf _ (Option.map _ _) = _
        rw [ho]; rfl
      rw [this] at h
      cases h
    | some o =>
      have h' : (now.step polar g (.readTt i)).2 = .number o.time.tt := by
        show answerOf _ (Option.map _ _) = _
        rw [ho]; rfl
      rw [h'] at h
      injection h with h
      have e : (now.step polar g (.add i x)).1 = now.push ((o.now now).addNum x) := by
        show (match now.times[i]? with | none => _ | some o => _ : TimescaleState K × TimescaleAnswer K).1 = _
        rw [ho]
      rw [e]
      have := read_later (polar := polar) (g := g) (now.push ((o.now now).addNum x)) after n _ (C96_new_time _ _)
      refine this.trans ?_
      congr 1
      rw [← h]
      show o.time.whole + (pyDivmod x 1).1 + (o.time.ttFraction + (pyDivmod x 1).2) = o.time.whole + o.time.ttFraction + x
      linear_combination dm x

/-- C96 (the settings in force when it is made).  `ts.utc` with a civil date reads that date in the calendar in force
when it is called; setting the cutoff afterwards does not move the time. -/
theorem C96_made_in_force {s : TimescaleState K} (hs : NewTimescale s L b) (before after : List (TimescaleUse K))
    (hc : GoodCutoff (cutoffAfter s.ts.cutoff before)) {y m d D : ℤ}
    (hd : CivilDate (cutoffAfter s.ts.cutoff before) y m d D) (hh mi : ℤ) (sec : K) :
    let i := (s.run polar g before).times.length
    ∃ o, (s.run polar g (before ++ .makeUtc y m d hh mi sec :: after)).times[i]? = some o ∧
      o.time.taiInstant = taiOf L b D hh mi sec := by
  intro i
  obtain ⟨w, hw⟩ : ∃ w, w = s.run polar g before := ⟨_, rfl⟩
  have hts := (run_keeps (polar := polar) (g := g) s before).1
  have hi : i = w.times.length := by rw [hw]
  rw [run_append, ← hw, run_cons, hi]
  rw [← hw] at hts
  have hcut : w.ts.cutoff = cutoffAfter s.ts.cutoff before := by rw [hts]
  obtain ⟨t, t1, t2, t3, t4⟩ := C05_utc_instant (K := K) (ts := w.ts) (L := L) (b := b)
    (by rw [hts]; exact leap_cutoff hs.table _) (by rw [hcut]; exact hc) (by rw [hcut]; exact hd) hh mi sec
  have st : (w.step polar g (.makeUtc y m d hh mi sec)).1 = w.push t := by
    simp only [TimescaleState.step, t1]
  rw [st]
  obtain ⟨o', q1, q2, -⟩ := (run_keeps (polar := polar) (g := g) (w.push t) after).2 _ _ (C96_new_time w t)
  refine ⟨o', q1, ?_⟩
  rw [← t4]
  obtain ⟨⟨_, w', f', a', sec', d', u'⟩, cc'⟩ := o'
  obtain ⟨_, w1, f1, a1, sec1, d1, u1⟩ := t
  simp only [TimeObject.stored, Prod.mk.injEq] at q2
  obtain ⟨rfl, rfl, rfl, rfl, rfl, rfl⟩ := q2
  rfl

/-- A new timescale over ℚ. -/
def exampleState : TimescaleState ℚ := ⟨{ exampleTs with cutoff := none }, none, []⟩

theorem exampleState_new : NewTimescale exampleState [2441500, 2441684, 2442049] 10 := ⟨leap_cutoff exampleTs_ok none, rfl⟩

/-- The third part of `C96_new_times_read` applies: J2000, then three and a half days later. -/
example : let polar : Option (PolarTable ℚ) → ℚ → ℚ → Option (ℚ × ℚ × ℚ) := fun _ _ _ => none
    let g : ℚ → ℚ → ℚ := fun _ _ => 0
    ((exampleState.run polar g [.makeTtJd 2451545 (some 0), .add 0 (7 / 2), .setCutoff none]).step polar g (.readTt 1)).2 =
      .number (4903097 / 2) := by
  intro polar g
  obtain ⟨h1, -, -⟩ := C96_new_times_read (polar := polar) (g := g) exampleState [] []
  obtain ⟨-, -, h3⟩ := C96_new_times_read (polar := polar) (g := g) exampleState [.makeTtJd 2451545 (some 0)] [.setCutoff none]
  refine (h3 0 (7 / 2) _ (h1 2451545 0)).trans ?_
  congr 1
  norm_num

/-- C96 (finding).  So the attribute `.utc` and the methods can disagree: in this program a time is made from the
Gregorian date 1500 January 10, `.utc` is read, and then the cutoff is set as the documentation suggests.  `.utc` still
says January 10; `utc_iso()` says January 1, the date in the Julian calendar. -/
theorem C96_stale :
    let polar : Option (PolarTable ℚ) → ℚ → ℚ → Option (ℚ × ℚ × ℚ) := fun _ _ _ => none
    let g : ℚ → ℚ → ℚ := fun _ _ => 0
    let now := exampleState.run polar g [.makeUtc 1500 1 10 0 0 0, .readUtc 0, .setCutoff (some 2299161)]
    (now.step polar g (.readUtc 0)).2 = .utc ⟨1500, 1, 10, 0, 0, 0, 2268933⟩ ∧
    (now.step polar g (.readIso 0 0)).2 = .iso ⟨1500, 1, 1, 0, 0, 0, 0⟩ := by
  intro polar g now
  obtain ⟨o, o1, o2⟩ := C96_made_in_force (polar := polar) (g := g) exampleState_new [] [] (fun c h => by cases h)
    (y := 1500) (m := 1) (d := 10) (D := 2268933) ((C03_reads_civil_date _ _ _ _ _).1 (by decide)) 0 0 0
  have v : ValidUtc (K := ℚ) [2441500, 2441684, 2442049] 2268933 0 0 0 :=
    ⟨by norm_num, by norm_num, by norm_num, by norm_num, by norm_num, Or.inl (by norm_num)⟩
  simp only [List.nil_append] at o1
  have ho : o.utc = none := by
    obtain ⟨t, t1, -⟩ := utc_some exampleState_new.table 1500 1 10 (0 : ℚ) 0 0
    have : (exampleState.run polar g [.makeUtc 1500 1 ((10 : ℤ) : ℚ) ((0 : ℤ) : ℚ) ((0 : ℤ) : ℚ) 0]).times = [⟨t, none⟩] := by
      rw [run_cons, run_nil]
      simp only [TimescaleState.step, Int.cast_zero, t1, TimescaleState.push, exampleState_new.none, List.nil_append]
    rw [this] at o1
    have e := Option.some.inj (show some (⟨t, none⟩ : TimeObject ℚ) = some o from o1)
    rw [← e]
  constructor
  · obtain ⟨r, -, r2, r3, r4, r5⟩ := C96_utc_first (polar := polar) (g := g) exampleState_new
      [.makeUtc 1500 1 ((10 : ℤ) : ℚ) ((0 : ℤ) : ℚ) ((0 : ℤ) : ℚ) 0] [.setCutoff (some 2299161)] 0 o o1 ho
    rw [o2] at r5
    obtain ⟨e1, e2, e3, e4⟩ := taiOf_inj r4 v r5
    have r3 := (C03_reads_civil_date _ _ _ _ _).2 r3
    rw [e1] at r3
    have : computeCalendarDate 2268933 none = ⟨1500, 1, 10⟩ := by decide
    simp only [cutoffAfter, exampleState, this] at r3
    obtain ⟨y, m, d, hh, mi, sec, jd⟩ := r
    simp only at e1 e2 e3 e4 r2 r3
    simp only [Date.mk.injEq] at r3
    obtain ⟨rfl, rfl, rfl⟩ := r3
    subst e1 e2 e3 e4
    simpa using r2
  · obtain ⟨h, -⟩ := C96_methods_follow (polar := polar) (g := g) exampleState_new
      [.makeUtc 1500 1 ((10 : ℤ) : ℚ) ((0 : ℤ) : ℚ) ((0 : ℤ) : ℚ) 0] [.readUtc 0, .setCutoff (some 2299161)] 0 o o1
    obtain ⟨f, f1, f2, f3, D, D1, D2, D3, -, D5⟩ := h 0
    have := D5 2268933 0 0 0 ⟨0, by norm_num⟩
    rw [o2, sub_self, abs_zero, abs_nonpos_iff, sub_eq_zero] at this
    obtain ⟨e1, e2, e3, e4⟩ := taiOf_inj D2 v this
    have r3 := (C03_reads_civil_date _ _ _ _ _).2 D1
    rw [e1] at r3
    have : computeCalendarDate 2268933 (some 2299161) = ⟨1500, 1, 1⟩ := by decide
    simp only [cutoffAfter, List.cons_append, List.nil_append, this] at r3
    obtain ⟨y, m, d, hh, mi, sec, fr⟩ := f
    simp only at e1 e2 e3 e4 f1 f2 f3 r3
    simp only [Date.mk.injEq] at r3
    obtain ⟨rfl, rfl, rfl⟩ := r3
    have : fr = 0 := by simp only [pow_zero] at f3; omega
    subst this
    have hsec : sec = 0 := by simpa using e4
    subst e1 e2 e3 hsec
    simpa using f1

end Skyfield
