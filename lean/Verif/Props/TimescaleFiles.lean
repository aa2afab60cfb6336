import Verif.Model.TimescaleFiles
import Verif.Spec.TimescaleFiles
import Verif.Props.DeltaT
import Verif.Props.TimescaleData
import Verif.Props.DataFiles
import Verif.Props.UtcText
import Mathlib.Tactic

/-
C94: building a timescale from files.
-/
namespace Skyfield
open Spec

/-! ### Reading tables -/

private theorem takeWhile_mark {line : List Char} (h : '#' ∉ line) : line.takeWhile (· ≠ '#') = line := by
  rw [List.takeWhile_eq_self_iff]
  intro c hc
  simp only [ne_eq, decide_eq_true_eq]
  rintro rfl
  exact h hc

private theorem skip_words {gap rest : List Char} (h : ∀ c ∈ gap, Blank c) (hr : rest = [] ∨ rest.head? = some '#') :
    pySplit ((gap ++ rest).takeWhile (· ≠ '#')) = [] := by
  have hg : '#' ∉ gap := by
    intro hc
    have := h _ hc
    simp [Blank] at this
  have e : (gap ++ rest).takeWhile (· ≠ '#') = gap := by
    rw [List.takeWhile_append_of_pos]
    · rcases hr with rfl | hr
      · simp
      · cases rest with
        | nil => simp
        | cons c r =>
          simp only [List.head?_cons, Option.some.injEq] at hr
          subst hr
          simp
    · intro c hc
      simp only [ne_eq, decide_eq_true_eq]
      rintro rfl
      exact hg hc
  rw [e]
  exact pySplit_words (.done gap h)

private theorem table_rows {α β : Type} {Row : List Char → α → Prop} {lines : List (List Char)} {rows : List α} (t : TextTable Row lines rows)
    (read : List (List Char) → Option β) (g : α → β)
    (hrow : ∀ l r, Row l r → ∃ ws, PlainWords l ws ∧ ws ≠ [] ∧ read ws = some (g r)) : (loadtxtWords lines).mapM read = some (rows.map g) := by
  induction t with
  | nil => rfl
  | skip gap rest lines rows h hr more ih =>
    unfold loadtxtWords at ih ⊢
    rw [List.map_cons, skip_words h hr, List.filter_cons_of_neg (by simp)]
    exact ih
  | row line r lines rows h more ih =>
    obtain ⟨ws, ⟨hw, hm⟩, hne, hr⟩ := hrow _ _ h
    unfold loadtxtWords at ih ⊢
    rw [List.map_cons, takeWhile_mark hm, pySplit_words hw, List.filter_cons_of_pos (by simp [hne]), List.mapM_cons, hr, ih]
    rfl

/-! ### Julian dates -/

section
variable {K : Type} [Field K] [LinearOrder K] [IsStrictOrderedRing K] [FloorRing K]

private theorem julianDate_midnight {y m d D : ℤ} (h : CivilDate none y m d D) : (julianDate y m d 0 0 0 : K) = (D : K) - 1 / 2 := by
  simp [julianDate, C03_civil_date_to_jd none (by intro c hc; cases hc) y m d D h]

/-- **C94**: `julian_date()` of an existing date and time of day is that day's midnight plus the time that has passed since, and reading the calendar at the result
gives the same date and time back. -/
theorem C94_julian_date {y m d D : ℤ} (h : CivilDate none y m d D) {hour minute : ℤ} {second : K}
    (hv : 0 ≤ hour ∧ hour ≤ 23 ∧ 0 ≤ minute ∧ minute ≤ 59 ∧ 0 ≤ second ∧ second < 60) :
    julianDate y m d hour minute second = (D : K) - 1 / 2 + (3600 * hour + 60 * minute + second) / 86400 ∧
    calendarTuple (julianDate y m d hour minute second) 0 none = ⟨y, m, d, hour, minute, second⟩ := by
  have e : julianDate y m d hour minute second = (D : K) - 1 / 2 + (3600 * hour + 60 * minute + second) / 86400 := by
    simp only [julianDate, C03_civil_date_to_jd none (by intro c hc; cases hc) y m d D h, dayS]
    ring
  refine ⟨e, ?_⟩
  obtain ⟨D', hD', b1, b2, b3, b4, b5, b6, b7⟩ := C09_calendar_tuple (julianDate y m d hour minute second) 0 none
  rw [add_zero] at b7
  obtain ⟨e1, e2, e3, e4⟩ := calendar_fields_unique ⟨b1, b2, b3, b4, b5, b6⟩ hv (b7.trans e)
  rw [e1] at hD'
  have r1 := (C03_reads_civil_date _ _ _ _ _).2 hD'
  rw [(C03_reads_civil_date _ _ _ _ _).2 h] at r1
  generalize calendarTuple (julianDate y m d hour minute second) 0 none = c at *
  obtain ⟨_, _, _, _, _, _⟩ := c
  simp_all

/-! ### The old files -/

variable {toInt : List Char → Option ℤ} {toNum : List Char → Option K}

private theorem parse_data {lines : List (List Char)} {rows : List (ℤ × K)} (t : TextTable (DeltatDataLine toInt toNum) lines rows) (h2 : 2 ≤ rows.length) :
    parseDeltatData toInt toNum lines = some (rows.map fun r => ((r.1 : K) - 1 / 2, r.2)) := by
  have := table_rows t (deltatDataRow toInt toNum) (fun r => ((r.1 : K) - 1 / 2, r.2)) (by
    rintro l ⟨D, v⟩ ⟨a, b, c, e, y, m, d, hw, ha, hb, hc, he, hD⟩
    refine ⟨_, hw, by simp, ?_⟩
    simp [deltatDataRow, ha, hb, hc, he, julianDate_midnight hD])
  simp [parseDeltatData, this, severalRows, h2]

private theorem parse_preds {lines : List (List Char)} {rows : List (ℤ × K)} (t : PredsFile toNum lines rows) (h2 : 2 ≤ rows.length) :
    parseDeltatPreds toNum lines = some (rows.map fun r => ((r.1 : K) - 1 / 2, r.2)) := by
  cases t with
  | old header line lines rows h table =>
    have := table_rows table (deltatPredsRow toNum 0) (fun r => ((r.1 : K) - 1 / 2, r.2)) (by
      rintro l ⟨D, v⟩ ⟨a, b, others, year, q, hw, ha, hb, h0, h1, h3, hD⟩
      refine ⟨_, hw, by simp, ?_⟩
      simp [deltatPredsRow, ha, hb, C30_preds_month year q h0 h1 h3, julianDate_midnight hD])
    have h' : "YEAR".toList.isPrefixOf header = true := by simpa using h
    simp only [parseDeltatPreds, h', if_true, this]
    simp [severalRows, h2]
  | new header lines rows h table =>
    have := table_rows table (deltatPredsRow toNum 1) (fun r => ((r.1 : K) - 1 / 2, r.2)) (by
      rintro l ⟨D, v⟩ ⟨mjd, a, b, others, year, q, hw, ha, hb, h0, h1, h3, hD⟩
      refine ⟨_, hw, by simp, ?_⟩
      simp [deltatPredsRow, ha, hb, C30_preds_month year q h0 h1 h3, julianDate_midnight hD])
    have h' : ¬ "YEAR".toList.isPrefixOf header = true := by simpa using h
    simp only [parseDeltatPreds, if_neg h', this]
    simp [severalRows, h2]

private theorem month_index (i : ℕ) (name : String) (h : MonthName i name) :
    monthNames.findIdx? (· == String.ofList (name.toList.map Char.toLower)) = some i := by
  unfold MonthName at h
  rcases i with _ | _ | _ | _ | _ | _ | _ | _ | _ | _ | _ | _ | i <;> simp at h <;> subst h <;> decide

private theorem expires_date {line : List Char} {day : ℤ} (h : ExpiresLine toInt line day) :
    ∃ y m d, expiresDate toInt line = some ⟨y, m, d⟩ ∧ CivilDate none y m d day := by
  obtain ⟨rest, d, name, y, i, dn, yn, rfl, hw, ⟨a, ha, hab⟩, ⟨z, hz, hzb⟩, hd, hy, hdd, hyd, hdi, hyi, hy1, hm, hc⟩ := h
  refine ⟨yn, i + 1, dn, ?_, hc⟩
  have strip : ∀ c, Blank c → isStripChar c = true := by
    intro c hc
    simpa [isStripChar, Blank, or_assoc] using hc
  have e : ("#  File expires on".toList ++ rest).drop expiresMark.length = rest := List.drop_left
  have dd : d.all Char.isDigit = true := List.all_eq_true.mpr hdd
  have yd : y.all Char.isDigit = true := List.all_eq_true.mpr hyd
  unfold expiresDate
  simp only [e, ha, hz, pySplit_words hw, strip a hab, strip z hzb, dd, yd, hd, hy, hdi, hyi, month_index i name hm, Option.bind_eq_bind, Option.bind_some,
    C03_civil_date_to_jd none (by intro c hc; cases hc) _ _ _ _ hc, (C03_reads_civil_date none _ _ _ _).mpr hc]
  simp [hy1]

private theorem mark_iff (l : List Char) : expiresMark.isPrefixOf l = true ↔ "#  File expires on".toList <+: l := List.isPrefixOf_iff_prefix

/-- **C94**: `load('Leap_Second.dat')` says that the file can be used until 30 days after the day that is written in it. -/
theorem C94_expiration {lines : List (List Char)} {day : ℤ} {rows : List (K × K)} (h : LeapFile toInt toNum lines day rows) (h2 : 2 ≤ rows.length) :
    ∃ p, parseLeapSecondFile toInt toNum lines = some (p, parseLeapSeconds rows) ∧ CivilDate none p.year p.month p.day (day + 30) := by
  obtain ⟨before, line, table, rfl, hb, he, ht⟩ := h
  obtain ⟨y, m, d, hd, hc⟩ := expires_date he
  have hline : expiresMark.isPrefixOf line = true := by
    obtain ⟨rest, -, -, -, -, -, -, e, -⟩ := he
    exact (mark_iff line).mpr ⟨rest, e.symm⟩
  have hdrop : (before ++ line :: table).dropWhile (fun l => !expiresMark.isPrefixOf l) = line :: table := by
    rw [List.dropWhile_append_of_pos, List.dropWhile_cons_of_neg]
    · simp [hline]
    · intro l hl
      rw [Bool.not_eq_true', Bool.eq_false_iff, ne_eq, mark_iff]
      exact hb l hl
  have := table_rows ht (leapSecondRow toNum) (fun r => r) (by
    rintro l ⟨D, v⟩ ⟨a, b, c, d, e, hw, ha, hb, hc, hd, he⟩
    refine ⟨_, hw, by simp, ?_⟩
    obtain ⟨b', hb⟩ := Option.isSome_iff_exists.mp hb
    obtain ⟨c', hc⟩ := Option.isSome_iff_exists.mp hc
    obtain ⟨d', hd⟩ := Option.isSome_iff_exists.mp hd
    simp [leapSecondRow, ha, hb, hc, hd, he])
  rw [List.map_id'] at this
  have hj := C03_civil_date_to_jd none (by intro c hc; cases hc) _ _ _ _ hc
  refine ⟨computeCalendarDate (day + 30) none, ?_, (C03_reads_civil_date none _ _ _ _).mp rfl⟩
  simp only [parseLeapSecondFile, hdrop, hd, this, Option.bind_eq_bind, Option.bind_some, hj]
  simp [severalRows, h2]

/-- **C94**: a leap second file without that line is refused. -/
theorem C94_expiration_missing (lines : List (List Char)) (h : ∀ l ∈ lines, ¬ "#  File expires on".toList <+: l) :
    parseLeapSecondFile (K := K) toInt toNum lines = none := by
  have : lines.dropWhile (fun l => !expiresMark.isPrefixOf l) = [] := by
    rw [List.dropWhile_eq_nil_iff]
    intro l hl
    rw [Bool.not_eq_true', Bool.eq_false_iff, ne_eq, mark_iff]
    exact h l hl
  simp [parseLeapSecondFile, this]

/-- **C94**: a measured Delta-T file, a file of predictions, or a leap second file with a single row in its table is refused. -/
theorem C94_single_row (src : TimescaleSources K) (round7 : K → K) (s15 : List (Piece K)) (dt : Option K) (data preds leaps : List (List Char))
    (h1 : src.disk "deltat.data".toList = some data) (h2 : src.disk "deltat.preds".toList = some preds) (h3 : src.disk "Leap_Second.dat".toList = some leaps)
    (row : ℤ × K) (leap : K × K)
    (h : TextTable (DeltatDataLine toInt toNum) data [row] ∨ PredsFile toNum preds [row] ∨ ∃ day, LeapFile toInt toNum leaps day [leap]) :
    loadTimescale toInt toNum round7 s15 src dt false = none := by
  have key : timescaleTables toInt toNum round7 src false = none := by
    simp only [timescaleTables, h1, h2, h3, Bool.false_eq_true, if_false]
    rcases h with t | t | ⟨day, before, line, table, rfl, hb, he, ht⟩
    · have := table_rows t (deltatDataRow toInt toNum) (fun r => ((r.1 : K) - 1 / 2, r.2)) (by
        rintro l ⟨D, v⟩ ⟨a, b, c, e, y, m, d, hw, ha, hb, hc, he, hD⟩
        refine ⟨_, hw, by simp, ?_⟩
        simp [deltatDataRow, ha, hb, hc, he, julianDate_midnight hD])
      simp [parseDeltatData, this, severalRows]
    · have : parseDeltatPreds toNum preds = none := by
        cases t with
        | old header line lines _ h table =>
          have := table_rows table (deltatPredsRow toNum 0) (fun r => ((r.1 : K) - 1 / 2, r.2)) (by
            rintro l ⟨D, v⟩ ⟨a, b, others, year, q, hw, ha, hb, h0, h1, h3, hD⟩
            refine ⟨_, hw, by simp, ?_⟩
            simp [deltatPredsRow, ha, hb, C30_preds_month year q h0 h1 h3, julianDate_midnight hD])
          have h' : "YEAR".toList.isPrefixOf header = true := by simpa using h
          simp only [parseDeltatPreds, h', if_true, this]
          simp [severalRows]
        | new header lines _ h table =>
          have := table_rows table (deltatPredsRow toNum 1) (fun r => ((r.1 : K) - 1 / 2, r.2)) (by
            rintro l ⟨D, v⟩ ⟨mjd, a, b, others, year, q, hw, ha, hb, h0, h1, h3, hD⟩
            refine ⟨_, hw, by simp, ?_⟩
            simp [deltatPredsRow, ha, hb, C30_preds_month year q h0 h1 h3, julianDate_midnight hD])
          have h' : ¬ "YEAR".toList.isPrefixOf header = true := by simpa using h
          simp only [parseDeltatPreds, if_neg h', this]
          simp [severalRows]
      simp [this]
    · have : parseLeapSecondFile toInt toNum (before ++ line :: table) = none := by
        have hline : expiresMark.isPrefixOf line = true := by
          obtain ⟨rest, -, -, -, -, -, -, e, -⟩ := he
          exact (mark_iff line).mpr ⟨rest, e.symm⟩
        have hdrop : (before ++ line :: table).dropWhile (fun l => !expiresMark.isPrefixOf l) = line :: table := by
          rw [List.dropWhile_append_of_pos, List.dropWhile_cons_of_neg]
          · simp [hline]
          · intro l hl
            rw [Bool.not_eq_true', Bool.eq_false_iff, ne_eq, mark_iff]
            exact hb l hl
        have := table_rows ht (leapSecondRow toNum) (fun r => r) (by
          rintro l ⟨D, v⟩ ⟨a, b, c, d, e, hw, ha, hb, hc, hd, he⟩
          refine ⟨_, hw, by simp, ?_⟩
          obtain ⟨b', hb⟩ := Option.isSome_iff_exists.mp hb
          obtain ⟨c', hc⟩ := Option.isSome_iff_exists.mp hc
          obtain ⟨d', hd⟩ := Option.isSome_iff_exists.mp hd
          simp [leapSecondRow, ha, hb, hc, hd, he])
        simp only [parseLeapSecondFile, hdrop, this, Option.bind_eq_bind, Option.bind_some, List.map_id']
        simp [severalRows]
      simp [this]
  simp [loadTimescale, key]

/-! ### Which source is used -/

/-- **C94**: `load.timescale()` uses only the arrays that come with the library, whatever files there are, and does not use the network. -/
theorem C94_builtin (toInt : List Char → Option ℤ) (toNum : List Char → Option K) (round7 : K → K) (s15 : List (Piece K)) (src src' : TimescaleSources K)
    (dt : Option K) (h : src.bundled = src'.bundled) :
    loadTimescale toInt toNum round7 s15 src dt true = loadTimescale toInt toNum round7 s15 src' dt true ∧
    ∀ ts d, loadTimescale toInt toNum round7 s15 src dt true = some (ts, d) → d = false := by
  constructor
  · simp [loadTimescale, timescaleTables, h]
  · intro ts d hl
    simp only [loadTimescale, timescaleTables, if_true, Option.bind_eq_bind, Option.bind_some, Option.bind_eq_some_iff, Option.pure_def] at hl
    obtain ⟨a, -, e⟩ := hl
    simp only [Option.some.injEq, Prod.mk.injEq] at e
    exact e.2.symm

/-- **C94**: with the three old files on disk, `load.timescale(builtin=False)` uses them and nothing else: neither a newer `finals2000A.all` on disk nor the
network. -/
theorem C94_old_files_come_first (toInt : List Char → Option ℤ) (toNum : List Char → Option K) (round7 : K → K) (s15 : List (Piece K))
    (src src' : TimescaleSources K) (dt : Option K) (old : ∀ name ∈ ["deltat.data", "deltat.preds", "Leap_Second.dat"], (src.disk name.toList).isSome)
    (same : ∀ name ∈ ["deltat.data", "deltat.preds", "Leap_Second.dat"], src.disk name.toList = src'.disk name.toList) :
    loadTimescale toInt toNum round7 s15 src dt false = loadTimescale toInt toNum round7 s15 src' dt false ∧
    ∀ ts d, loadTimescale toInt toNum round7 s15 src dt false = some (ts, d) → d = false := by
  have o1 := old "deltat.data" (by simp)
  have o2 := old "deltat.preds" (by simp)
  have o3 := old "Leap_Second.dat" (by simp)
  have s1 := same "deltat.data" (by simp)
  have s2 := same "deltat.preds" (by simp)
  have s3 := same "Leap_Second.dat" (by simp)
  obtain ⟨f1, e1⟩ := Option.isSome_iff_exists.mp o1
  obtain ⟨f2, e2⟩ := Option.isSome_iff_exists.mp o2
  obtain ⟨f3, e3⟩ := Option.isSome_iff_exists.mp o3
  have t : timescaleTables toInt toNum round7 src false = timescaleTables toInt toNum round7 src' false := by
    rw [timescaleTables, timescaleTables, ← s1, ← s2, ← s3, e1, e2, e3]
    simp only [Bool.false_eq_true, if_false]
  refine ⟨by simp only [loadTimescale, t], ?_⟩
  intro ts d hl
  simp only [loadTimescale, Option.bind_eq_bind, Option.bind_eq_some_iff, Option.pure_def] at hl
  obtain ⟨⟨⟨a, b, c⟩, d'⟩, ht, x, -, e⟩ := hl
  simp only [Option.some.injEq, Prod.mk.injEq] at e
  simp only [timescaleTables, e1, e2, e3, Bool.false_eq_true, if_false, Option.bind_eq_bind, Option.bind_eq_some_iff, Option.pure_def, Option.some.injEq,
    Prod.mk.injEq] at ht
  obtain ⟨_, -, _, -, ⟨_, _⟩, -, _, -, -, h⟩ := ht
  rw [← e.2, ← h]

private theorem tables_finals (toInt : List Char → Option ℤ) (toNum : List Char → Option K) (round7 : K → K) (src : TimescaleSources K)
    (old : ∃ name ∈ ["deltat.data", "deltat.preds", "Leap_Second.dat"], src.disk name.toList = none) (lines : List (List Char)) (d : Bool)
    (h : finalsFile src = some (lines, d)) :
    timescaleTables toInt toNum round7 src false = (parseFinalsAll toNum lines).map fun rows =>
      let a := buildTimescaleArrays round7 (rows.map (·.utcMjd)) (rows.map (·.dut1))
      ((a.dailyTt.zip a.dailyDeltaT, a.leapDates.map .num, a.leapOffsets), d) := by
  obtain ⟨name, hn, hd⟩ := old
  rw [timescaleTables, if_neg (by simp)]
  split
  · next h1 h2 h3 =>
    simp only [List.mem_cons, List.not_mem_nil, or_false] at hn
    rcases hn with rfl | rfl | rfl
    · rw [hd] at h1; cases h1
    · rw [hd] at h2; cases h2
    · rw [hd] at h3; cases h3
  · rw [h]
    simp only [Option.bind_eq_bind, Option.bind_some, Option.pure_def]
    cases parseFinalsAll toNum lines <;> rfl

/-- **C94**: otherwise it uses `finals2000A.all`: from the disk if it is there, whatever else there is; only if it is not, the network is used, and what the
server delivers is read in the same way. -/
theorem C94_finals (toInt : List Char → Option ℤ) (toNum : List Char → Option K) (round7 : K → K) (s15 : List (Piece K))
    (src : TimescaleSources K) (dt : Option K) (old : ∃ name ∈ ["deltat.data", "deltat.preds", "Leap_Second.dat"], src.disk name.toList = none) :
    (∀ lines, src.disk "finals2000A.all".toList = some lines → ∀ ts d, loadTimescale toInt toNum round7 s15 src dt false = some (ts, d) → d = false) ∧
    (src.disk "finals2000A.all".toList = none → src.served = none → loadTimescale toInt toNum round7 s15 src dt false = none) ∧
    (∀ (lines : List (List Char)) (src' : TimescaleSources K), src'.disk "finals2000A.all".toList = some lines →
      (∃ name ∈ ["deltat.data", "deltat.preds", "Leap_Second.dat"], src'.disk name.toList = none) →
      (src.disk "finals2000A.all".toList = some lines →
        loadTimescale toInt toNum round7 s15 src dt false = loadTimescale toInt toNum round7 s15 src' dt false) ∧
      (src.disk "finals2000A.all".toList = none → src.served = some lines →
        loadTimescale toInt toNum round7 s15 src dt false = (loadTimescale toInt toNum round7 s15 src' dt false).map fun r => (r.1, true))) := by
  refine ⟨?_, ?_, ?_⟩
  · intro lines hl ts d h
    have e := tables_finals toInt toNum round7 src old lines false (by rw [finalsFile, hl])
    simp only [loadTimescale, e, Option.bind_eq_bind, Option.bind_eq_some_iff, Option.map_eq_some_iff, Option.pure_def] at h
    obtain ⟨⟨⟨a, b, c⟩, d'⟩, ⟨rows, -, hrows⟩, x, -, e⟩ := h
    simp only [Option.some.injEq, Prod.mk.injEq] at e hrows
    rw [← e.2, ← hrows.2]
  · intro h1 h2
    have : timescaleTables toInt toNum round7 src false = none := by
      obtain ⟨name, hn, hd⟩ := old
      rw [timescaleTables, if_neg (by simp)]
      split
      · next h1 h2 h3 =>
        simp only [List.mem_cons, List.not_mem_nil, or_false] at hn
        rcases hn with rfl | rfl | rfl
        · rw [hd] at h1; cases h1
        · rw [hd] at h2; cases h2
        · rw [hd] at h3; cases h3
      · rw [finalsFile, h1, h2]; rfl
    simp [loadTimescale, this]
  · intro lines src' hl' old'
    have e' := tables_finals toInt toNum round7 src' old' lines false (by rw [finalsFile, hl'])
    constructor
    · intro hl
      have e := tables_finals toInt toNum round7 src old lines false (by rw [finalsFile, hl])
      simp only [loadTimescale, e, e']
    · intro h1 h2
      have e := tables_finals toInt toNum round7 src old lines true (by rw [finalsFile, h1, h2]; rfl)
      simp only [loadTimescale, e, e']
      cases parseFinalsAll toNum lines with
      | none => rfl
      | some rows =>
        simp only [Option.map_some, Option.bind_eq_bind, Option.bind_some, Option.pure_def]
        rw [Option.map_bind]
        rfl

/-- **C94**: with `delta_t=...`, Delta T is that number at all times, and the leap seconds are those of the timescale without it. -/
theorem C94_delta_t (toInt : List Char → Option ℤ) (toNum : List Char → Option K) (round7 : K → K) (s15 : List (Piece K)) (src : TimescaleSources K)
    (v : K) (builtin : Bool) :
    (∀ ts d, loadTimescale toInt toNum round7 s15 src (some v) builtin = some (ts, d) → ∀ tt, ts.deltaT tt = some v) ∧
    ∀ ts d, loadTimescale toInt toNum round7 s15 src none builtin = some (ts, d) →
      ∃ ts', loadTimescale toInt toNum round7 s15 src (some v) builtin = some (ts', d) ∧ ts'.leapDates = ts.leapDates ∧ ts'.leapOffsets = ts.leapOffsets := by
  constructor
  · intro ts d h tt
    simp only [loadTimescale, initTimescale, Option.bind_eq_bind, Option.bind_eq_some_iff, Option.bind_some, Option.pure_def] at h
    obtain ⟨⟨⟨a, b, c⟩, d'⟩, ht, x, ⟨⟨y, z⟩, -, hx⟩, e⟩ := h
    simp only [Option.some.injEq, Prod.mk.injEq] at e hx
    rw [← e.1, ← hx]
    exact splinesCall_single _ _
  · intro ts d h
    simp only [loadTimescale, initTimescale, Option.bind_eq_bind, Option.bind_eq_some_iff, Option.pure_def] at h
    obtain ⟨⟨⟨a, b, c⟩, d'⟩, ht, x, ⟨f, hf, ⟨y, z⟩, hyz, hx⟩, e⟩ := h
    simp only [Option.some.injEq, Prod.mk.injEq] at e hx
    refine ⟨⟨splinesCall [⟨0, 1, v, []⟩], y, z⟩, ?_, ?_, ?_⟩
    · simp [loadTimescale, initTimescale, ht, hyz, e.2]
    · rw [← e.1, ← hx]
    · rw [← e.1, ← hx]

/-! ### The bundled arrays -/

/-- **C94**: the arrays that come with the library give the same timescale as the file they were made from. -/
theorem C94_bundled_is_the_file (toInt : List Char → Option ℤ) (toNum : List Char → Option K) (round0 round7 : K → K) (s15 : List (Piece K))
    (h0 : ∀ n : ℤ, round0 n = n) (h7 : ∀ x, ∃ n : ℤ, round7 x = (n : K) / 10 ^ 7) (h7' : ∀ n : ℤ, round7 ((n : K) / 10 ^ 7) = (n : K) / 10 ^ 7)
    (src : TimescaleSources K) (dt : Option K) (lines : List (List Char)) (rows : List (FinalsRow K)) (hr : parseFinalsAll toNum lines = some rows)
    (hb : src.bundled = saveIers round0 (buildTimescaleArrays round7 (rows.map (·.utcMjd)) (rows.map (·.dut1))))
    (old : ∃ name ∈ ["deltat.data", "deltat.preds", "Leap_Second.dat"], src.disk name.toList = none)
    (hd : src.disk "finals2000A.all".toList = some lines) :
    loadTimescale toInt toNum round7 s15 src dt true = loadTimescale toInt toNum round7 s15 src dt false := by
  obtain ⟨A, hA⟩ : ∃ A, A = buildTimescaleArrays round7 (rows.map (·.utcMjd)) (rows.map (·.dut1)) := ⟨_, rfl⟩
  have e1 : (openIers round7 src.bundled).dailyTt = A.dailyTt := by
    rw [hb, ← hA]
    simp only [openIers, saveIers]
    apply List.ext_getElem
    · simp
    · intro i h1 h2
      simp
  have e2 : (openIers round7 src.bundled).dailyDeltaT = A.dailyDeltaT := by
    rw [hb, ← hA]
    simp only [openIers, saveIers, List.map_map]
    have : ∀ d ∈ A.dailyDeltaT, ∃ n : ℤ, d = (n : K) / 10 ^ 7 := by
      intro d hd
      rw [hA] at hd
      simp only [buildTimescaleArrays] at hd
      obtain ⟨i, hi, rfl⟩ := List.mem_iff_getElem.mp hd
      rw [List.getElem_zipWith]
      exact h7 _
    conv_rhs => rw [← List.map_id A.dailyDeltaT]
    apply List.map_congr_left
    intro d hd
    obtain ⟨n, rfl⟩ := this d hd
    simp only [Function.comp, id]
    rw [div_mul_cancel₀ _ (by positivity), h0, h7']
  have e3 : (openIers round7 src.bundled).leapDates = A.leapDates := by rw [hb, ← hA]; rfl
  have e4 : (openIers round7 src.bundled).leapOffsets = A.leapOffsets := by rw [hb, ← hA]; rfl
  have t : timescaleTables toInt toNum round7 src true = timescaleTables toInt toNum round7 src false := by
    obtain ⟨name, hn, hx⟩ := old
    simp only [timescaleTables, Bool.false_eq_true, if_false, if_true, e1, e2, e3, e4, finalsFile, hd, hr, ← hA, Option.bind_eq_bind, Option.bind_some]
    split
    · next h1 h2 h3 =>
      simp only [List.mem_cons, List.not_mem_nil, or_false] at hn
      rcases hn with rfl | rfl | rfl
      · rw [hx] at h1; cases h1
      · rw [hx] at h2; cases h2
      · rw [hx] at h3; cases h3
    · rfl
  simp only [loadTimescale, t]

/-! ### The table of older versions -/

/-- **C94**: the table of older versions: with bundled and recent rows in order of date, the result is in order of date; it holds all recent rows, exactly the
bundled rows that are earlier than these, and one row a century before and one after, on the parabola -20 + 32 ((J - 1820)/100)². -/
theorem C94_old_table (bundled recent : List (K × K)) (b0 r0 : K × K) (hb : bundled.head? = some b0) (hr : recent.head? = some r0)
    (sb : bundled.Pairwise fun a b => a.1 < b.1) (sr : recent.Pairwise fun a b => a.1 < b.1) (h : b0.1 - 36524 < r0.1) :
    ∃ table first last, buildDeltaTTable bundled recent = some table ∧ table.Pairwise (fun a b => a.1 < b.1) ∧
      (∀ p, p ∈ table ↔ p = first ∨ (p ∈ bundled ∧ p.1 < r0.1) ∨ p ∈ recent ∨ p = last) ∧
      first.1 = b0.1 - 36524 ∧ (∀ r, recent.getLast? = some r → last.1 = r.1 + 36524) ∧
      ∀ p, p = first ∨ p = last → p.2 = -20 + 32 * (((p.1 - 1721045) / 365.25 - 1820) / 100) ^ 2 := by
  have hrne : recent ≠ [] := by rintro rfl; simp at hr
  obtain ⟨l, hl⟩ : ∃ l, recent.getLast? = some l := ⟨_, List.getLast?_eq_getLast_of_ne_nil hrne⟩
  have htake : bundled.take (searchsortedLeft (bundled.map Prod.fst) r0.1) = bundled.filter fun p => decide (p.1 < r0.1) := by
    clear hb
    induction bundled with
    | nil => rfl
    | cons x xs ih =>
      rw [List.pairwise_cons] at sb
      have ih := ih sb.2
      unfold searchsortedLeft at ih ⊢
      rw [List.map_cons]
      by_cases hx : x.1 < r0.1
      · rw [List.filter_cons_of_pos (by simpa using hx), List.filter_cons_of_pos (by simpa using hx), List.length_cons, List.take_succ_cons, ih]
      · have none : ∀ y ∈ xs, ¬ y.1 < r0.1 := fun y hy hlt => hx ((sb.1 y hy).trans hlt)
        rw [List.filter_cons_of_neg (by simpa using hx), List.filter_cons_of_neg (by simpa using hx)]
        have e1 : (xs.map Prod.fst).filter (fun z => decide (z < r0.1)) = [] := by
          rw [List.filter_eq_nil_iff]
          intro z hz
          obtain ⟨y, hy, rfl⟩ := List.mem_map.mp hz
          simpa using none y hy
        have e2 : xs.filter (fun p => decide (p.1 < r0.1)) = [] := by
          rw [List.filter_eq_nil_iff]
          intro y hy
          simpa using none y hy
        rw [e1, e2]
        rfl
  have hfirst : ∀ p ∈ recent, r0.1 ≤ p.1 := by
    intro p hp
    cases recent with
    | nil => cases hp
    | cons x xs =>
      simp only [List.head?_cons, Option.some.injEq] at hr
      subst hr
      exact sorted_first_le _ _ sr p hp
  have hlast : ∀ p ∈ recent, p.1 ≤ l.1 := by
    intro p hp
    obtain ⟨ys, rfl⟩ := List.getLast?_eq_some_iff.1 hl
    rw [List.pairwise_append] at sr
    rcases List.mem_append.mp hp with hp | hp
    · exact (sr.2.2 p hp l (by simp)).le
    · rw [List.mem_singleton.mp hp]
  have hold : ∀ p ∈ bundled, b0.1 ≤ p.1 := by
    intro p hp
    cases bundled with
    | nil => cases hp
    | cons x xs =>
      simp only [List.head?_cons, Option.some.injEq] at hb
      subst hb
      exact sorted_first_le _ _ sb p hp
  have hlr : l ∈ recent := List.mem_of_getLast? hl
  refine ⟨[(b0.1 - 36524, parabola2004.eval (ttToJ (b0.1 - 36524)))] ++ bundled.filter (fun p => decide (p.1 < r0.1)) ++ recent ++
      [(l.1 + 36524, parabola2004.eval (ttToJ (l.1 + 36524)))], (b0.1 - 36524, parabola2004.eval (ttToJ (b0.1 - 36524))), (l.1 + 36524, parabola2004.eval (ttToJ (l.1 + 36524))), ?_, ?_, ?_, rfl, ?_, ?_⟩
  · simp only [buildDeltaTTable, hr, hb, hl, Option.bind_eq_bind, Option.bind_some, htake, Option.pure_def]
  · rw [List.pairwise_append, List.pairwise_append, List.pairwise_append]
    refine ⟨⟨⟨by simp, sb.filter _, ?_⟩, sr, ?_⟩, by simp, ?_⟩
    · intro a ha b hb
      rw [List.mem_singleton.mp ha]
      have := hold b (List.mem_of_mem_filter hb)
      simp only
      linarith
    · intro a ha b hb
      have := hfirst b hb
      rcases List.mem_append.mp ha with ha | ha
      · rw [List.mem_singleton.mp ha]
        simp only
        linarith
      · have := (List.mem_filter.mp ha).2
        simp only [decide_eq_true_eq] at this
        linarith
    · intro a ha b hb
      rw [List.mem_singleton.mp hb]
      have hl0 := hfirst l hlr
      simp only
      rcases List.mem_append.mp ha with ha | ha
      · rcases List.mem_append.mp ha with ha | ha
        · rw [List.mem_singleton.mp ha]
          simp only
          linarith
        · have := (List.mem_filter.mp ha).2
          simp only [decide_eq_true_eq] at this
          linarith
      · have := hlast a ha
        linarith
  · intro p
    simp only [List.mem_append, List.mem_singleton, List.mem_filter, decide_eq_true_eq, or_assoc]
  · intro r hr'
    rw [hl] at hr'
    cases hr'
    rfl
  · have e : ∀ x : K, parabola2004.eval (ttToJ x) = -20 + 32 * (((x - 1721045) / 365.25 - 1820) / 100) ^ 2 := by
      intro x
      simp only [parabola2004, Piece.eval, horner, List.foldl_cons, List.foldl_nil, ttToJ]
      norm_num
      ring
    rintro p (rfl | rfl)
    · exact e _
    · exact e _

end

/-! ### From the files to Delta T -/

/-- **C94**: with the three old files on disk, `load.timescale(builtin=False)` gives a timescale whose Delta T has the measured value at the midnight that begins
each measured day, the predicted value at that of each later predicted day, and no jumps; its leap seconds are the rows of the leap second file after the
first. -/
theorem C94_old_files (toInt : List Char → Option ℤ) (toNum : List Char → Option ℝ) (round7 : ℝ → ℝ) (src : TimescaleSources ℝ)
    (first : Piece ℝ) (rest : List (Piece ℝ)) (hchain : (first :: rest).IsChain fun p q => p.lower < q.lower ∧ p.eval q.lower = q.eval q.lower)
    (hcubic : ∀ p ∈ first :: rest, p.cs.length = 3 ∧ p.lower < p.upper)
    (data preds leaps : List (List Char)) (h1 : src.disk "deltat.data".toList = some data) (h2 : src.disk "deltat.preds".toList = some preds)
    (h3 : src.disk "Leap_Second.dat".toList = some leaps)
    (rows later : List (ℤ × ℝ)) (day : ℤ) (row : ℝ × ℝ) (leapRows : List (ℝ × ℝ))
    (hd : TextTable (DeltatDataLine toInt toNum) data rows) (hp : PredsFile toNum preds later) (hl : LeapFile toInt toNum leaps day (row :: leapRows))
    (n1 : 2 ≤ rows.length) (n2 : 2 ≤ later.length) (n3 : leapRows ≠ [])
    (s1 : rows.Pairwise fun a b => a.1 < b.1) (s2 : later.Pairwise fun a b => a.1 < b.1)
    (start : ∀ r, rows.head? = some r → first.lower < ((r.1 : ℝ) - 1 / 2 - 1721045) / (36525 / 100)) :
    ∃ (ts : LoadedTimescale ℝ) (f : ℝ → ℝ), loadTimescale toInt toNum round7 (first :: rest) src none false = some (ts, false) ∧
      (∀ tt, ts.deltaT tt = some (f tt)) ∧ Continuous f ∧
      (∀ r ∈ rows, f ((r.1 : ℝ) - 1 / 2) = r.2) ∧
      (∀ r ∈ later, (∀ m ∈ rows, m.1 < r.1) → f ((r.1 : ℝ) - 1 / 2) = r.2) ∧
      ts.leapDates = leapRows.map (fun r => r.1 + 2400000.5) ∧ ts.leapOffsets = leapRows.map (·.2) := by
  obtain ⟨p, hpl, -⟩ := C94_expiration hl (by
    cases leapRows with
    | nil => exact absurd rfl n3
    | cons a l => simp)
  have pd := parse_data hd n1
  have pp := parse_preds hp n2
  obtain ⟨g, hg⟩ : ∃ g : ℤ × ℝ → ℝ × ℝ, g = fun r => ((r.1 : ℝ) - 1 / 2, r.2) := ⟨_, rfl⟩
  rw [← hg] at pd pp
  have sorted_map : ∀ l : List (ℤ × ℝ), l.Pairwise (fun a b => a.1 < b.1) → ((l.map g).map Prod.fst).Pairwise (· < ·) := by
    intro l h
    rw [List.map_map, List.pairwise_map]
    refine h.imp ?_
    intro a b hab
    have : (a.1 : ℝ) < b.1 := by exact_mod_cast hab
    simp only [hg, Function.comp]
    linarith
  have rne : rows ≠ [] := by rintro rfl; simp at n1
  have hlast : (rows.map g).getLast? = some (g (rows.getLast rne)) := by
    rw [List.getLast?_map, List.getLast?_eq_getLast_of_ne_nil rne]
    rfl
  obtain ⟨legacy, hsorted⟩ := C30_legacy_delta_t (rows.map g) (later.map g) _ hlast (sorted_map rows s1) (sorted_map later s2)
  obtain ⟨table, htable⟩ : ∃ table, table = rows.map g ++ (later.map g).filter fun p => decide ((g (rows.getLast rne)).1 < p.1) := ⟨_, rfl⟩
  rw [← htable] at legacy hsorted
  obtain ⟨r0, rs, rfl⟩ := List.exists_cons_of_ne_nil rne
  obtain ⟨tail, htail⟩ : ∃ tail, table = g r0 :: tail := by
    rw [htable, List.map_cons, List.cons_append]
    exact ⟨_, rfl⟩
  have st := start r0 rfl
  obtain ⟨d, f, hb, hf, hcont, hmem, -, -⟩ := C13_no_jumps first rest (g r0).1 (tail.map Prod.fst) (g r0).2 (tail.map Prod.snd) (by simp)
    (by rw [htail, List.map_cons] at hsorted; exact hsorted) hchain hcubic (by simpa [hg] using st)
  have hb' : buildDeltaT (first :: rest) (table.map Prod.fst) (table.map Prod.snd) = some d := by
    rw [htail]
    exact hb
  have hmem' : ∀ p ∈ table, f p.1 = p.2 := by
    intro p hp
    apply hmem p
    rw [htail] at hp
    have : ((g r0).1 :: tail.map Prod.fst).zip ((g r0).2 :: tail.map Prod.snd) = g r0 :: tail := by
      rw [List.zip_cons_cons, List.zip_map', List.map_id'']
      intro x
      rfl
    rw [this]
    exact hp
  have lp := C30_legacy_leaps row leapRows
  have tt : timescaleTables toInt toNum round7 src false = some ((table, parseLeapSeconds (row :: leapRows)), false) := by
    rw [timescaleTables, if_neg (by simp), h1, h2, h3]
    simp only [pd, pp, hpl, legacy, Option.bind_eq_bind, Option.bind_some, Option.pure_def]
  refine ⟨⟨d.call, leapRows.map (fun r => r.1 + 24000005 / 10), leapRows.map Prod.snd⟩, f, ?_, hf, hcont, ?_, ?_, ?_, rfl⟩
  · simp only [loadTimescale, tt, initTimescale, hb', lp, Option.bind_eq_bind, Option.bind_some, Option.pure_def, Option.map_some]
  · intro r hr
    have := hmem' (g r) (by rw [htable]; exact List.mem_append.mpr (Or.inl (List.mem_map_of_mem hr)))
    simpa [hg] using this
  · intro r hr hlt
    have := hmem' (g r) (by
      rw [htable]
      refine List.mem_append.mpr (Or.inr (List.mem_filter.mpr ⟨List.mem_map_of_mem hr, ?_⟩))
      have := hlt _ (List.getLast_mem rne)
      have : (((r0 :: rs).getLast rne).1 : ℝ) < r.1 := by exact_mod_cast this
      simp only [hg, decide_eq_true_eq]
      linarith)
    simpa [hg] using this
  · apply List.map_congr_left
    intro r _
    norm_num

/-! ### Concrete cases -/

example : (julianDate 2016 2 1 0 0 0 : ℚ) = 2457419.5 ∧ calendarTuple (julianDate 2016 2 1 12 34 (56 : ℚ)) 0 none = ⟨2016, 2, 1, 12, 34, 56⟩ := by
  have h : CivilDate none 2016 2 1 2457420 := (C03_reads_civil_date _ _ _ _ _).1 (by decide)
  refine ⟨?_, (C94_julian_date h (by norm_num)).2⟩
  rw [julianDate_midnight h]
  norm_num

/-- A reader of a few numbers. -/
def exampleInt (w : List Char) : Option ℤ :=
  [("2016", 2016), ("2017", 2017), ("2", 2), ("1", 1), ("3", 3), ("28", 28), ("2026", 2026), ("July", 0)].lookup (String.ofList w)

/-- The same for real numbers. -/
noncomputable def exampleNum (w : List Char) : Option ℝ :=
  ([("68.1577", (68.1577 : ℝ)), ("68.2", 68.2), ("2016.75", (2016 : ℤ) + (3 : ℤ) / 4), ("2017.00", (2017 : ℤ) + (0 : ℤ) / 4), ("68.5", 68.5),
    ("68.6", 68.6), ("41317.0", 41317), ("41499.0", 41499), ("1", 1), ("7", 7), ("1972", 1972), ("10", 10), ("11", 11)] : List (String × ℝ)).lookup (String.ofList w)

private theorem strip_blank (c : Char) : isStripChar c = true ↔ Blank c := by
  simp [isStripChar, Blank, or_assoc]

/-- The words that the program finds are the words of the line. -/
theorem words_pySplit (l : List Char) : Words l (pySplit l) := by
  have key : ∀ n (l : List Char), l.length < n → Words l (wordsOf n l) := by
    intro n
    induction n with
    | zero => intro l h; omega
    | succ n ih =>
      intro l h
      have e := (List.takeWhile_append_dropWhile (p := isStripChar) (l := l)).symm
      have hg : ∀ c ∈ l.takeWhile isStripChar, Blank c := fun c hc => (strip_blank c).mp (List.mem_takeWhile_imp hc)
      have hlen : (l.dropWhile isStripChar).length ≤ l.length := (List.dropWhile_sublist _).length_le
      rw [wordsOf]
      cases hd : l.dropWhile isStripChar with
      | nil =>
        rw [hd, List.append_nil] at e
        rw [e]
        exact .done _ hg
      | cons c r =>
        simp only
        have hc : isStripChar c = false := by
          have := List.head?_dropWhile_not isStripChar l
          rw [hd] at this
          simpa using this
        obtain ⟨w, hw⟩ : ∃ w, w = (c :: r).takeWhile fun c => !isStripChar c := ⟨_, rfl⟩
        obtain ⟨rest, hrest⟩ : ∃ rest, rest = (c :: r).dropWhile fun c => !isStripChar c := ⟨_, rfl⟩
        have e2 : c :: r = w ++ rest := by rw [hw, hrest, List.takeWhile_append_dropWhile]
        have hwne : w ≠ [] := by rw [hw]; simp [hc]
        have hlt : rest.length < n := by
          have h1 : (c :: r).length = w.length + rest.length := by rw [e2, List.length_append]
          have h2 : 1 ≤ w.length := List.length_pos_iff.mpr hwne
          rw [hd] at hlen
          omega
        rw [← hw, ← hrest]
        rw [hd, e2, ← List.append_assoc] at e
        generalize l.takeWhile isStripChar = gap at e hg
        rw [e]
        refine .word gap w rest _ hg hwne ?_ ?_ (ih rest hlt)
        · intro d hd
          rw [hw] at hd
          have := List.mem_takeWhile_imp hd
          rw [← strip_blank]
          simpa using this
        · cases hr : rest with
          | nil => exact Or.inl rfl
          | cons d t =>
            refine Or.inr ⟨d, t, rfl, ?_⟩
            have := List.head?_dropWhile_not (fun c => !isStripChar c) (c :: r)
            rw [← hrest, hr] at this
            rw [← strip_blank]
            simpa using this
  exact key _ l (by omega)

/-- Three small files. -/
def exampleDisk : FileName → Option (List (List Char)) := fun name =>
  [("deltat.data", [" 2016  2  1  68.1577\n", " 2016  3  1  68.2\n"]),
   ("deltat.preds", ["   MJD        YEAR    TT-UT Pred\n", " 57662.000  2016.75   68.5\n", " 57754.000  2017.00   68.6\n"]),
   ("Leap_Second.dat", ["#  Value of TAI-UTC\n", "#  File expires on 28 June 2026\n", "#\n", "  41317.0    1  1 1972       10\n", "  41499.0    1  7 1972       11\n"])]
  |>.lookup (String.ofList name) |>.map (·.map String.toList)

private theorem plain_of {l : List Char} {ws : List (List Char)} (h : pySplit l = ws) (hm : '#' ∉ l) : PlainWords l ws := ⟨h ▸ words_pySplit l, hm⟩

example (round7 : ℝ → ℝ) (bundled : BundledIers ℝ) : ∃ (ts : LoadedTimescale ℝ) (f : ℝ → ℝ),
    loadTimescale exampleInt exampleNum round7 [⟨-720, 0, 0, [0, -1, 3]⟩, ⟨0, 1900, 0, [0, 1, 2]⟩] ⟨bundled, exampleDisk, none⟩ none false = some (ts, false) ∧
      (∀ tt, ts.deltaT tt = some (f tt)) ∧ f 2457419.5 = 68.1577 ∧ f 2457754.5 = 68.6 ∧ ts.leapDates = [2441499.5] ∧ ts.leapOffsets = [11] := by
  obtain ⟨ts, f, h1, h2, -, h3, h4, h5, h6⟩ := C94_old_files exampleInt exampleNum round7 ⟨bundled, exampleDisk, none⟩ ⟨-720, 0, 0, [0, -1, 3]⟩
    [⟨0, 1900, 0, [0, 1, 2]⟩] (by norm_num [Piece.eval, horner]) (by simp)
    [" 2016  2  1  68.1577\n".toList, " 2016  3  1  68.2\n".toList]
    ["   MJD        YEAR    TT-UT Pred\n".toList, " 57662.000  2016.75   68.5\n".toList, " 57754.000  2017.00   68.6\n".toList]
    ["#  Value of TAI-UTC\n".toList, "#  File expires on 28 June 2026\n".toList, "#\n".toList, "  41317.0    1  1 1972       10\n".toList,
      "  41499.0    1  7 1972       11\n".toList]
    (by simp only; decide) (by simp only; decide) (by simp only; decide)
    [(2457420, 68.1577), (2457449, 68.2)] [(2457663, 68.5), (2457755, 68.6)] 2461220 (41317, 10) [(41499, 11)]
    (by
      refine .row _ _ _ _ ⟨"2016".toList, "2".toList, "1".toList, "68.1577".toList, 2016, 2, 1, plain_of (by decide) (by decide), by decide, by decide, by decide,
        ?_, (C03_reads_civil_date _ _ _ _ _).1 (by decide)⟩ (.row _ _ _ _ ⟨"2016".toList, "3".toList, "1".toList, "68.2".toList, 2016, 3, 1,
        plain_of (by decide) (by decide), by decide, by decide, by decide, ?_, (C03_reads_civil_date _ _ _ _ _).1 (by decide)⟩ .nil)
      · simp [exampleNum, List.lookup]
      · simp [exampleNum, List.lookup])
    (by
      refine .new _ _ _ (by decide) (.row _ _ _ _ ⟨"57662.000".toList, "2016.75".toList, "68.5".toList, [], 2016, 3, plain_of (by decide) (by decide), ?_, ?_,
        by decide, by decide, by decide, (C03_reads_civil_date _ _ _ _ _).1 (by decide)⟩
        (.row _ _ _ _ ⟨"57754.000".toList, "2017.00".toList, "68.6".toList, [], 2017, 0, plain_of (by decide) (by decide), ?_, ?_,
        by decide, by decide, by decide, (C03_reads_civil_date _ _ _ _ _).1 (by decide)⟩ .nil))
      all_goals simp [exampleNum, List.lookup])
    (by
      refine ⟨["#  Value of TAI-UTC\n".toList], "#  File expires on 28 June 2026\n".toList, _, rfl, by decide, ?_, ?_⟩
      · exact ⟨" 28 June 2026\n".toList, "28".toList, "June", "2026".toList, 5, 28, 2026, by decide, by
          rw [show ["28".toList, "June".toList, "2026".toList] = pySplit " 28 June 2026\n".toList by decide]
          exact words_pySplit _, ⟨' ', by decide, by simp [Blank]⟩, ⟨'\n', by decide, by simp [Blank]⟩, by decide, by decide, by decide, by decide, by decide,
          by decide, by decide, by unfold MonthName; decide, (C03_reads_civil_date _ _ _ _ _).1 (by decide)⟩
      · refine .skip [] "#\n".toList _ _ (by simp) (Or.inr (by decide)) (.row _ _ _ _ ⟨"41317.0".toList, "1".toList, "1".toList, "1972".toList, "10".toList,
          plain_of (by decide) (by decide), ?_, ?_, ?_, ?_, ?_⟩ (.row _ _ _ _ ⟨"41499.0".toList, "1".toList, "7".toList, "1972".toList, "11".toList,
          plain_of (by decide) (by decide), ?_, ?_, ?_, ?_, ?_⟩ .nil))
        all_goals simp [exampleNum, List.lookup])
    (by simp) (by simp) (by simp) (by simp) (by simp) (by
      intro r hr
      simp only [List.head?_cons, Option.some.injEq] at hr
      subst hr
      norm_num)
  refine ⟨ts, f, h1, h2, ?_, ?_, ?_, ?_⟩
  · have := h3 (2457420, 68.1577) (by simp)
    norm_num at this ⊢
    exact this
  · have := h4 (2457755, 68.6) (by simp) (by simp)
    norm_num at this ⊢
    exact this
  · rw [h5]; norm_num
  · rw [h6]; rfl

/-- With a Delta T of one's own. -/
example (round7 : ℝ → ℝ) : ∃ ts, loadTimescale exampleInt exampleNum round7 [] ⟨⟨[2441684.5], [432000000], [2441499.5], [11]⟩, exampleDisk, none⟩ (some 69.2) true
    = some (ts, false) ∧ ∀ tt, ts.deltaT tt = some 69.2 := by
  have e : ∃ ts, loadTimescale exampleInt exampleNum round7 [] ⟨⟨[2441684.5], [432000000], [2441499.5], [11]⟩, exampleDisk, none⟩ (some 69.2) true
      = some (ts, false) := by
    simp [loadTimescale, timescaleTables, openIers, initTimescale, timescaleLeaps, MaybeInf.isInf, MaybeInf.num?]
  obtain ⟨ts, h⟩ := e
  exact ⟨ts, h, (C94_delta_t exampleInt exampleNum round7 [] _ 69.2 true).1 ts false h⟩

/-- Bundled rows up to 1973 and recent ones from there on. -/
example : ∃ table, buildDeltaTTable [((2441000 : ℚ), 41), (2441700, 43)] [(2441684, 43), (2441714, 44)] = some table ∧
    table.Pairwise (fun a b => a.1 < b.1) ∧ ((2441700 : ℚ), (43 : ℚ)) ∉ table := by
  obtain ⟨table, first, last, h1, h2, h3, h4, h5, -⟩ := C94_old_table [((2441000 : ℚ), 41), (2441700, 43)] [(2441684, 43), (2441714, 44)] (2441000, 41)
    (2441684, 43) rfl rfl (by norm_num) (by norm_num) (by norm_num)
  refine ⟨table, h1, h2, ?_⟩
  rw [h3]
  have := h5 (2441714, 44) rfl
  rintro (h | h | h | h)
  · rw [← h] at h4; norm_num at h4
  · norm_num at h
  · norm_num at h
  · rw [← h] at this; norm_num at this

end Skyfield
