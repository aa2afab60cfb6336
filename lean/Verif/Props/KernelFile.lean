import Verif.Model.KernelFile
import Verif.Spec.KernelFile
import Verif.Props.Calendar
import Verif.Props.UtcText
import Mathlib.Tactic

/-
C92: what an open ephemeris file prints, returns and refuses.
-/
namespace Skyfield
open Spec

private theorem read_go (names : ℤ → Option String) (segs : List ReportSegment) (ids : ℕ → String)
    (hid : ∀ s ∈ segs, s.filename = ids s.ephemeris) (e : Option ℕ) (a b : Option ℚ) (file : String) (d : ℚ × ℚ)
    (he : ∀ i, e = some i → file = ids i) (ha : ∀ x, a = some x → d.1 = x) (hb : ∀ x, b = some x → d.2 = x) :
    readReport file d (reportGo names e a b segs) = segs.map fun s => (s.filename, (s.startJd, s.endJd), s.center, s.target) := by
  induction segs generalizing e a b file d with
  | nil => rfl
  | cons s segs ih =>
    have hrec := ih (fun s hs => hid s (by simp [hs])) (some s.ephemeris) (some s.startJd) (some s.endJd) s.filename (s.startJd, s.endJd)
      (by rintro i ⟨⟩; exact hid s (by simp)) (by rintro x ⟨⟩; rfl) (by rintro x ⟨⟩; rfl)
    have hd : ¬ (a ≠ some s.startJd ∨ b ≠ some s.endJd) → d = (s.startJd, s.endJd) := by
      intro h
      push Not at h
      exact Prod.ext (ha _ h.1) (hb _ h.2)
    have hf : ¬ (e ≠ some s.ephemeris) → file = s.filename := by
      intro h
      push Not at h
      rw [he _ h, hid s (by simp)]
    rw [reportGo, List.map_cons]
    by_cases h1 : e ≠ some s.ephemeris <;> by_cases h2 : a ≠ some s.startJd ∨ b ≠ some s.endJd
    · rw [if_pos h1, if_pos h2]
      simp only [List.cons_append, List.nil_append, readReport, formatSegment, hrec]
    · rw [if_pos h1, if_neg h2]
      simp only [List.cons_append, List.nil_append, readReport, formatSegment, hd h2, hrec]
    · rw [if_neg h1, if_pos h2]
      simp only [List.cons_append, List.nil_append, readReport, formatSegment, hf h1, hrec]
    · rw [if_neg h1, if_neg h2]
      simp only [List.nil_append, readReport, formatSegment, hf h1, hd h2, hrec]

/-- **C92**: who reads a printed report from the top finds every segment, in order, under the name of its own file and with its own dates,
whichever kernels the segments were gathered from. -/
theorem C92_report_read_back (names : ℤ → Option String) (segs : List ReportSegment) (ids : ℕ → String)
    (hid : ∀ s ∈ segs, s.filename = ids s.ephemeris) (file : String) (d : ℚ × ℚ) :
    readReport file d (kernelReport names segs) = segs.map fun s => (s.filename, (s.startJd, s.endJd), s.center, s.target) :=
  read_go names segs ids hid none none none file d (by simp) (by simp) (by simp)

private theorem go_heading (names : ℤ → Option String) (e : ℕ) (a b : Option ℚ) (segs : List ReportSegment) (f : String) :
    ReportLine.heading true f ∉ reportGo names (some e) a b segs := by
  induction segs generalizing e a b with
  | nil => simp [reportGo]
  | cons s segs ih =>
    rw [reportGo]
    simp only [List.mem_append, List.mem_cons, not_or, formatSegment]
    refine ⟨⟨?_, ?_⟩, by simp, ih _ _ _⟩
    · split <;> simp
    · split <;> simp

/-- **C92**: a report begins with the heading `Segments from ...`, the dates and the first segment, and no later heading says `Segments`. -/
theorem C92_report_first (names : ℤ → Option String) (s : ReportSegment) (segs : List ReportSegment) :
    ∃ p q rest, kernelReport names (s :: segs) = .heading true s.filename :: .dates s.startJd s.endJd p q :: formatSegment names s :: rest ∧
      ∀ f, ReportLine.heading true f ∉ rest := by
  refine ⟨computeCalendarDate (pyInt s.startJd) none, computeCalendarDate (pyInt s.endJd) none,
    reportGo names (some s.ephemeris) (some s.startJd) (some s.endJd) segs, by simp [kernelReport, reportGo],
    fun f => go_heading names _ _ _ segs f⟩

/-- **C92**: after a segment, a heading is printed exactly if the next segment comes from another kernel, and dates exactly if they differ. -/
theorem C92_report_next (names : ℤ → Option String) (before after : List ReportSegment) (r s : ReportSegment) :
    ∃ p q, kernelReport names (before ++ r :: s :: after) = kernelReport names (before ++ [r]) ++
      ((if r.ephemeris ≠ s.ephemeris then [ReportLine.heading false s.filename] else []) ++
       (if (r.startJd, r.endJd) ≠ (s.startJd, s.endJd) then [ReportLine.dates s.startJd s.endJd p q] else []) ++
       [formatSegment names s]) ++ reportGo names (some s.ephemeris) (some s.startJd) (some s.endJd) after := by
  have key : ∀ e a b, reportGo names e a b (before ++ r :: s :: after) = reportGo names e a b (before ++ [r]) ++
      ((if r.ephemeris ≠ s.ephemeris then [ReportLine.heading false s.filename] else []) ++
       (if (r.startJd, r.endJd) ≠ (s.startJd, s.endJd) then [ReportLine.dates s.startJd s.endJd
        (computeCalendarDate (pyInt s.startJd) none) (computeCalendarDate (pyInt s.endJd) none)] else []) ++
       [formatSegment names s]) ++ reportGo names (some s.ephemeris) (some s.startJd) (some s.endJd) after := by
    induction before with
    | nil =>
      intro e a b
      simp only [List.nil_append, reportGo, List.append_assoc, List.cons_append, ne_eq, Option.some.injEq,
        Prod.mk.injEq, not_and_or, reduceCtorEq, decide_false]
    | cons x before ih =>
      intro e a b
      rw [List.cons_append, List.cons_append, reportGo, reportGo, ih]
      simp only [List.append_assoc, List.cons_append]
  exact ⟨_, _, key _ _ _⟩

private theorem go_dates {names : ℤ → Option String} {e : Option ℕ} {a b : Option ℚ} {segs : List ReportSegment} {x y : ℚ} {p q : Date}
    (h : ReportLine.dates x y p q ∈ reportGo names e a b segs) :
    p = computeCalendarDate (pyInt x) none ∧ q = computeCalendarDate (pyInt y) none := by
  induction segs generalizing e a b with
  | nil => simp [reportGo] at h
  | cons s segs ih =>
    rw [reportGo] at h
    simp only [List.mem_append, List.mem_cons, formatSegment, reduceCtorEq, false_or] at h
    rcases h with (h | h) | h
    · split at h <;> simp at h
    · split at h
      · simp at h
        obtain ⟨rfl, rfl, rfl, rfl⟩ := h
        exact ⟨rfl, rfl⟩
      · simp at h
    · exact ih h

private theorem go_names {names : ℤ → Option String} {e : Option ℕ} {a b : Option ℚ} {segs : List ReportSegment} {c t : ℤ} {x y : String}
    (h : ReportLine.segment c t x y ∈ reportGo names e a b segs) :
    x = (match names c with | some n => n | none => "unknown") ∧ y = (match names t with | some n => n | none => "unknown") := by
  induction segs generalizing e a b with
  | nil => simp [reportGo] at h
  | cons s segs ih =>
    rw [reportGo] at h
    simp only [List.mem_append, List.mem_cons, formatSegment] at h
    rcases h with (h | h) | h | h
    · split at h <;> simp at h
    · split at h <;> simp at h
    · rw [ReportLine.segment.injEq] at h
      obtain ⟨rfl, rfl, rfl, rfl⟩ := h
      constructor
      · cases names s.center <;> rfl
      · cases names s.target <;> rfl
    · exact ih h

/-- **C92**: beside the number of each body stands its own name, or `unknown` if it has none. -/
theorem C92_report_names (names : ℤ → Option String) (segs : List ReportSegment) (center target : ℤ) (centerName targetName : String)
    (h : ReportLine.segment center target centerName targetName ∈ kernelReport names segs) :
    centerName = (match names center with | some n => n | none => "unknown") ∧
      targetName = (match names target with | some n => n | none => "unknown") :=
  go_names h

private theorem civil_iff (n m : ℤ) (p : Date) (h : p = computeCalendarDate n none) : CivilDate none p.year p.month p.day m ↔ m = n := by
  have h1 := (C03_reads_civil_date none p.year p.month p.day n).mp (by rw [← h])
  constructor
  · intro h2
    obtain ⟨_, N, hN, e⟩ := h1
    obtain ⟨hv, N', hN', e'⟩ := h2
    rw [← e, ← e', ← C02_agrees_with_every_gregorian_count N hN _ _ _ hv, ← C02_agrees_with_every_gregorian_count N' hN' _ _ _ hv]
  · rintro rfl
    exact h1

/-- **C92** (finding): which date a report prints for a Julian date `x`: the right one when `x` is positive and lies between noon and midnight, the day
before when it lies between midnight and noon — as the ends of JPL's ephemerides do. -/
theorem C92_report_date (names : ℤ → Option String) (segs : List ReportSegment) (x y : ℚ) (p q : Date)
    (h : ReportLine.dates x y p q ∈ kernelReport names segs) :
    (0 ≤ x → Int.fract x < 1 / 2 → CivilDate none p.year p.month p.day (dayOf x)) ∧
    (0 ≤ x → 1 / 2 ≤ Int.fract x → CivilDate none p.year p.month p.day (dayOf x - 1)) ∧
    (0 ≤ y → Int.fract y < 1 / 2 → CivilDate none q.year q.month q.day (dayOf y)) ∧
    (0 ≤ y → 1 / 2 ≤ Int.fract y → CivilDate none q.year q.month q.day (dayOf y - 1)) := by
  obtain ⟨hp, hq⟩ := go_dates h
  have lo : ∀ z : ℚ, Int.fract z < 1 / 2 → dayOf z = ⌊z⌋ := by
    intro z hz
    rw [dayOf, Int.floor_eq_iff]
    have := Int.floor_add_fract z
    have := Int.fract_nonneg z
    constructor <;> linarith
  have hi : ∀ z : ℚ, 1 / 2 ≤ Int.fract z → dayOf z - 1 = ⌊z⌋ := by
    intro z hz
    have : dayOf z = ⌊z⌋ + 1 := by
      rw [dayOf, Int.floor_eq_iff]
      have := Int.floor_add_fract z
      have := Int.fract_lt_one z
      push_cast
      constructor <;> linarith
    omega
  refine ⟨fun h0 h1 => ?_, fun h0 h1 => ?_, fun h0 h1 => ?_, fun h0 h1 => ?_⟩
  · rw [civil_iff _ _ _ hp, pyInt, if_pos h0, lo x h1]
  · rw [civil_iff _ _ _ hp, pyInt, if_pos h0, hi x h1]
  · rw [civil_iff _ _ _ hq, pyInt, if_pos h0, lo y h1]
  · rw [civil_iff _ _ _ hq, pyInt, if_pos h0, hi y h1]

/-- **C92**: for dates before the year -4712 (negative Julian dates), the report is right between midnight and noon, and a day late between noon and
midnight. -/
theorem C92_report_date_negative (names : ℤ → Option String) (segs : List ReportSegment) (x y : ℚ) (p q : Date)
    (h : ReportLine.dates x y p q ∈ kernelReport names segs) (hx : x < 0) :
    (1 / 2 ≤ Int.fract x ∨ Int.fract x = 0 → CivilDate none p.year p.month p.day (dayOf x)) ∧
    (0 < Int.fract x → Int.fract x < 1 / 2 → CivilDate none p.year p.month p.day (dayOf x + 1)) := by
  obtain ⟨hp, -⟩ := go_dates h
  have f := Int.floor_add_fract x
  have f1 := Int.fract_lt_one x
  have f0 := Int.fract_nonneg x
  refine ⟨fun h1 => ?_, fun h1 h2 => ?_⟩
  · rw [civil_iff _ _ _ hp, pyInt, if_neg (not_le.mpr hx)]
    rcases h1 with h1 | h1
    · have a : ⌈x⌉ = ⌊x⌋ + 1 := by
        rw [Int.ceil_eq_iff]; push_cast; constructor <;> linarith
      have b : dayOf x = ⌊x⌋ + 1 := by
        rw [dayOf, Int.floor_eq_iff]; push_cast; constructor <;> linarith
      rw [a, b]
    · have a : ⌈x⌉ = ⌊x⌋ := by
        rw [Int.ceil_eq_iff]; constructor <;> linarith
      have b : dayOf x = ⌊x⌋ := by
        rw [dayOf, Int.floor_eq_iff]; constructor <;> linarith
      rw [a, b]
  · rw [civil_iff _ _ _ hp, pyInt, if_neg (not_le.mpr hx)]
    have a : ⌈x⌉ = ⌊x⌋ + 1 := by
      rw [Int.ceil_eq_iff]; push_cast; constructor <;> linarith
    have b : dayOf x = ⌊x⌋ := by
      rw [dayOf, Int.floor_eq_iff]; constructor <;> linarith
    rw [a, b]

section
variable {K : Type*} [Field K] [LinearOrder K] [FloorRing K]
variable {V M : Type*}

/-- **C92**: a kernel opens exactly if all its segments have types 2 and 3, and it then offers them all, in order. -/
theorem C92_open (segs : List (SpkSegment K V M)) :
    ((openKernel segs).isSome ↔ ∀ s ∈ segs, s.dataType = 2 ∨ s.dataType = 3) ∧
    ∀ l, openKernel segs = some l → l.map (·.2) = segs ∧
      ∀ x ∈ l, (x.1 = .position ↔ x.2.dataType = 2) ∧ (x.1 = .positionVelocity ↔ x.2.dataType = 3) := by
  induction segs with
  | nil =>
    refine ⟨by simp [openKernel], ?_⟩
    rintro l ⟨⟩
    simp
  | cons s segs ih =>
    have step : openKernel (s :: segs) = (segmentKind s).bind fun k => (openKernel segs).map fun l => (k, s) :: l := by
      unfold openKernel
      rw [List.mapM_cons]
      cases segmentKind s with
      | none => rfl
      | some k => cases List.mapM (fun s => Option.map (fun k => (k, s)) (segmentKind s)) segs <;> rfl
    rw [step]
    constructor
    · rw [List.forall_mem_cons, ← ih.1]
      unfold segmentKind
      by_cases h2 : s.dataType = 2
      · simp [h2]
      · by_cases h3 : s.dataType = 3
        · simp [h3]
        · simp [h2, h3]
    · intro l hl
      rw [Option.bind_eq_some_iff] at hl
      obtain ⟨k, hk, hl⟩ := hl
      rw [Option.map_eq_some_iff] at hl
      obtain ⟨l', hl', rfl⟩ := hl
      obtain ⟨i1, i2⟩ := ih.2 l' hl'
      refine ⟨by simp [i1], ?_⟩
      rw [List.forall_mem_cons]
      refine ⟨?_, i2⟩
      unfold segmentKind at hk
      split at hk
      · next h => cases hk; simp [h]
      · next h =>
        split at hk
        · next h' => cases hk; simp [h']
        · cases hk

variable [IsStrictOrderedRing K] [AddCommGroup V] [Module K V]

/-- **C92**: a segment of either type returns the body's position in au and its velocity in au per day, at the TDB of the time. -/
theorem C92_segment_units (g : K → K → K) (s : SpkSegment K V M) (covered : K → Prop) (p v : K → V) (hs : DescribesBody s covered p v)
    (kind : SegmentKind) (hk : segmentKind s = some kind) (t : Time K) (ht : covered (t.whole + t.tdbFraction g)) :
    segmentAt g kind s t = .ok ((1495978707 / 10 : K)⁻¹ • p (t.whole + t.tdbFraction g),
      (1495978707 / 10 : K)⁻¹ • v (t.whole + t.tdbFraction g)) := by
  obtain ⟨h2, h3⟩ := hs _ _ ht
  unfold segmentKind at hk
  split at hk
  · next h =>
    cases hk
    unfold segmentAt
    rw [h2 h]
    rfl
  · split at hk
    · next h =>
      cases hk
      obtain ⟨w, e, hv⟩ := h3 h
      unfold segmentAt
      rw [e]
      rw [hv, smul_smul, mul_comm, ← div_eq_mul_inv]
      rfl
    · cases hk

private theorem tdbDate_of (g : K → K → K) (ts : Timescale K) (jd : K) :
    let t := ts.tdbJd g jd none
    t.whole + t.tdbFraction g = jd ∧ CivilDate ts.cutoff (t.tdbDate g).year (t.tdbDate g).month (t.tdbDate g).day ⌊jd + 1 / 2⌋ := by
  intro t
  have e : t.whole + t.tdbFraction g = jd := by
    simp only [t, Timescale.tdbJd, Time.tdbFraction, normalizeJd, pyDivmod, pyFloorDiv, pyMod]
    ring
  refine ⟨e, ?_⟩
  obtain ⟨D, hD, h0, h1, m0, m1, s0, s1, hsum⟩ := C09_calendar_tuple t.whole (t.tdbFraction g) t.ts.cutoff
  have : ⌊jd + 1 / 2⌋ = D := by
    rw [e] at hsum
    obtain ⟨c, hc⟩ : ∃ c, c = calendarTuple t.whole (t.tdbFraction g) t.ts.cutoff := ⟨_, rfl⟩
    rw [← hc] at h0 h1 m0 m1 s0 s1 hsum
    have a0 : (0 : K) ≤ c.hour := by exact_mod_cast h0
    have a1 : (c.hour : K) ≤ 23 := by exact_mod_cast h1
    have b0 : (0 : K) ≤ c.minute := by exact_mod_cast m0
    have b1 : (c.minute : K) ≤ 59 := by exact_mod_cast m1
    have q0 : 0 ≤ (3600 * (c.hour : K) + 60 * c.minute + c.second) / 86400 := by positivity
    have q1 : (3600 * (c.hour : K) + 60 * c.minute + c.second) / 86400 < 1 := by
      rw [div_lt_one (by norm_num)]
      linarith
    rw [Int.floor_eq_iff]
    constructor <;> linarith
  rw [this]
  exact hD

/-- **C92**: asked outside its dates, a segment of type 2 raises an `EphemerisRangeError` whose message has the dates of the segment's two ends, whose
times are those ends, and which hands on the mask and the segment. -/
theorem C92_range_error (g : K → K → K) (s : SpkSegment K V M) (hs : s.dataType = 2) (t : Time K) (mask : M)
    (h : s.computeAndDifferentiate t.whole (t.tdbFraction g) = .error mask) :
    ∃ kind first last t0 t1, segmentKind s = some kind ∧ segmentAt g kind s t = .error (.range first last t0 t1 mask s) ∧
      t0.tdb g = s.startJd ∧ t1.tdb g = s.endJd ∧
      CivilDate t.ts.cutoff first.year first.month first.day ⌊s.startJd + 1 / 2⌋ ∧
      CivilDate t.ts.cutoff last.year last.month last.day ⌊s.endJd + 1 / 2⌋ := by
  have a := tdbDate_of g t.ts s.startJd
  have b := tdbDate_of g t.ts s.endJd
  refine ⟨.position, _, _, _, _, by rw [segmentKind, if_pos hs], ?_, a.1, b.1, a.2, b.2⟩
  unfold segmentAt
  simp only [h, SpkSegment.timeRange]

omit [IsStrictOrderedRing K] in
/-- **C92** (finding): a segment of type 3 raises jplephem's own error instead, which has neither times nor segment. -/
theorem C92_range_error_type_3 (g : K → K → K) (s : SpkSegment K V M) (hs : s.dataType = 3) (t : Time K) (mask : M)
    (h : s.compute t.whole (t.tdbFraction g) = .error mask) :
    ∃ kind, segmentKind s = some kind ∧ segmentAt g kind s t = .error (.outOfRange mask) := by
  refine ⟨.positionVelocity, by rw [segmentKind, if_neg (by omega), if_pos hs], ?_⟩
  unfold segmentAt
  simp only [h]

end

/-! ### Names and closing -/

section
variable {T V : Type*}

private theorem names_go (cs : List ℤ) (pairs : List (ℤ × String)) (d : ℤ → Option (List String)) (code : ℤ) :
    pairs.foldl (fun d p => if p.1 ∈ cs then appendName d p.1 p.2 else d) d code =
      if code ∈ cs ∧ (pairs.filter fun p => p.1 = code) ≠ [] then
        some ((d code).getD [] ++ (pairs.filter fun p => p.1 = code).map (·.2))
      else d code := by
  induction pairs generalizing d with
  | nil => simp
  | cons p pairs ih =>
    rw [List.foldl_cons, ih]
    by_cases hc : code ∈ cs
    · by_cases hp : p.1 = code
      · subst hp
        by_cases hf : (pairs.filter fun q => q.1 = p.1) = []
        · simp [hc, hf, appendName]
        · simp [hc, hf, appendName]
      · have hp' : ¬ code = p.1 := fun h => hp h.symm
        have hd : (if p.1 ∈ cs then appendName d p.1 p.2 else d) code = d code := by
          split
          · simp [appendName, hp']
          · rfl
        rw [hd, List.filter_cons_of_neg (by simpa using hp)]
    · have hd : (if p.1 ∈ cs then appendName d p.1 p.2 else d) code = d code := by
        split
        · next h =>
          have : ¬ code = p.1 := fun e => hc (e ▸ h)
          simp [appendName, this]
        · rfl
      simp only [hc, false_and, if_false]
      exact hd

/-- **C92**: `names()` lists, for each body of the kernel that has a name, all its names in the order of the table, and nothing else. -/
theorem C92_names (pairs : List (ℤ × String)) (segs : List (Segment T V)) (code : ℤ) (l : List String) :
    kernelNames pairs segs code = some l ↔
      (∃ s ∈ segs, s.center = code ∨ s.target = code) ∧ l ≠ [] ∧ l = (pairs.filter fun p => p.1 = code).map (·.2) := by
  have hc : code ∈ codes segs ↔ ∃ s ∈ segs, s.center = code ∨ s.target = code := by
    simp only [codes, List.mem_append, List.mem_map]
    constructor
    · rintro (⟨s, h, e⟩ | ⟨s, h, e⟩)
      · exact ⟨s, h, Or.inl e⟩
      · exact ⟨s, h, Or.inr e⟩
    · rintro ⟨s, h, e | e⟩
      · exact Or.inl ⟨s, h, e⟩
      · exact Or.inr ⟨s, h, e⟩
  rw [kernelNames, names_go, ← hc]
  by_cases h : code ∈ codes segs
  · by_cases hf : (pairs.filter fun p => p.1 = code) = []
    · simp [h, hf]
    · rw [if_pos ⟨h, hf⟩]
      simp only [Option.getD_none, List.nil_append, Option.some.injEq, h, true_and]
      constructor
      · rintro rfl
        exact ⟨by simpa using hf, rfl⟩
      · rintro ⟨-, rfl⟩
        rfl
  · rw [if_neg (fun x => h x.1)]
    simp [h]

/-- **C92**: the last of the names is the one that is printed with the body. -/
theorem C92_printed_name (pairs : List (ℤ × String)) (segs : List (Segment T V)) (code : ℤ) (l : List String)
    (h : kernelNames pairs segs code = some l) : codeName pairs code = l.getLast? := by
  obtain ⟨-, -, rfl⟩ := (C92_names pairs segs code l).mp h
  rw [codeName, ← List.head?_filter, List.getLast?_map, List.getLast?_eq_head?_reverse, List.filter_reverse]

/-- **C92**: every name that is listed can be used to ask for its body, when no two bodies share the name. -/
theorem C92_names_decode (pairs : List (ℤ × String)) (segs : List (Segment T V)) (code : ℤ) (l : List String) (name : String)
    (h : kernelNames pairs segs code = some l) (hn : name ∈ l) (hu : ∀ p ∈ pairs, p.2 = name → p.1 = code) (typed : String)
    (ht : typed.toUpper = name) :
    decode (nameCode pairs) segs (.name typed) = .ok code ∧ kernelContains (nameCode pairs) segs (.name typed) = true := by
  obtain ⟨hs, -, rfl⟩ := (C92_names pairs segs code l).mp h
  have hc : code ∈ codes segs := by
    obtain ⟨s, hs, e | e⟩ := hs
    · exact List.mem_append.mpr (Or.inl (List.mem_map.mpr ⟨s, hs, e⟩))
    · exact List.mem_append.mpr (Or.inr (List.mem_map.mpr ⟨s, hs, e⟩))
  obtain ⟨p, hp, rfl⟩ := List.mem_map.mp hn
  have e : nameCode pairs p.2 = some code := by
    rw [nameCode]
    cases hf : pairs.reverse.find? fun q => q.2 = p.2 with
    | none =>
      rw [List.find?_eq_none] at hf
      have := hf p (by simpa using (List.mem_filter.mp hp).1)
      simp at this
    | some q =>
      have h1 := List.mem_of_find?_eq_some hf
      have h2 := List.find?_some hf
      rw [Option.map_some, hu q (by simpa using h1) (by simpa using h2)]
  simp [decode, kernelContains, ht, e, hc]

/-- **C92**: after `close()`, until segments are added, the kernel has no segments: every target is refused and none is contained, the report is empty
and no names are listed. -/
theorem C92_closed (pairs : List (ℤ × String)) (segs : List (Segment T V)) (before : List (KernelUse T V)) (asked : List TargetArg) (fuel : ℕ)
    (arg : TargetArg) :
    let now := segmentsAfter segs (before ++ .close :: asked.map .ask)
    lookup (nameCode pairs) now fuel arg = some (.error .missing) ∧ kernelContains (nameCode pairs) now arg = false ∧
      (∀ code, kernelNames pairs now code = none) ∧ now = [] := by
  intro now
  have hn : now = [] := by
    simp only [now, segmentsAfter, List.foldl_append, List.foldl_cons, KernelUse.segments]
    induction asked with
    | nil => rfl
    | cons a asked ih => simpa [KernelUse.segments] using ih
  rw [hn]
  refine ⟨?_, ?_, ?_, rfl⟩
  · unfold lookup decode
    cases arg with
    | code n => simp [codes]
    | name s => cases h : nameCode pairs s.toUpper <;> simp [codes, h]
  · cases arg with
    | code n => simp [kernelContains, codes]
    | name s => cases h : nameCode pairs s.toUpper <;> simp [kernelContains, codes, h]
  · intro code
    rw [kernelNames, names_go]
    simp [codes]

/-- **C92**: a segment that is added counts at once, also after closing. -/
theorem C92_added (pairs : List (ℤ × String)) (segs : List (Segment T V)) (before : List (KernelUse T V)) (s : Segment T V) :
    let now := segmentsAfter segs (before ++ [.append s])
    decode (nameCode pairs) now (.code s.target) = .ok s.target ∧ decode (nameCode pairs) now (.code s.center) = .ok s.center := by
  intro now
  have hn : now = segmentsAfter segs before ++ [s] := by
    simp [now, segmentsAfter, List.foldl_append, KernelUse.segments]
  rw [hn]
  simp [decode, codes]

end

/-! ### Concrete cases -/

/-- The first two segments of `de421.bsp`, and one of another file with the same dates. -/
def reportExample : List ReportSegment :=
  [⟨0, "de421.bsp", 2414864 + 1 / 2, 2471184 + 1 / 2, 0, 1⟩, ⟨0, "de421.bsp", 2414864 + 1 / 2, 2471184 + 1 / 2, 0, 2⟩,
   ⟨1, "mine.bsp", 2414864 + 1 / 2, 2471184 + 1 / 2, 4, 499⟩]

example : readReport "" (0, 0) (kernelReport (fun _ => none) reportExample) =
    reportExample.map fun s => (s.filename, (s.startJd, s.endJd), s.center, s.target) :=
  C92_report_read_back _ reportExample (fun i => if i = 0 then "de421.bsp" else "mine.bsp") (by decide) "" (0, 0)

/-- The documentation's own example prints 1899-07-28 for a file that begins on 1899-07-29. -/
example : ∃ q, ReportLine.dates (2414864 + 1 / 2) (2471184 + 1 / 2) ⟨1899, 7, 28⟩ q ∈ kernelReport (fun _ => none) reportExample ∧
    CivilDate none 1899 7 29 (dayOf (2414864 + 1 / 2)) := by
  have f1 : pyInt (2414864 + 1 / 2) = 2414864 := by norm_num [pyInt, Int.floor_eq_iff]
  have f2 : dayOf (2414864 + 1 / 2) = 2414865 := by norm_num [dayOf]
  refine ⟨computeCalendarDate (pyInt (2471184 + 1 / 2)) none, ?_, ?_⟩
  · have : (⟨1899, 7, 28⟩ : Date) = computeCalendarDate (pyInt (2414864 + 1 / 2)) none := by rw [f1]; decide
    rw [this]
    simp [kernelReport, reportExample, reportGo]
  · rw [f2]
    exact (C03_reads_civil_date none 1899 7 29 2414865).mp (by decide)

/-- A segment of type 2 that covers the days 0 to 10: a body moving at 1 km per day. -/
def segmentExample : SpkSegment ℚ ℚ Unit where
  dataType := 2
  center := 0
  target := 1
  startJd := 0
  endJd := 10
  computeAndDifferentiate := fun w f => if 0 ≤ w + f ∧ w + f ≤ 10 then .ok (w + f, 1) else .error ()
  compute := fun _ _ => .error ()

/-- The same of type 3. -/
def segmentExample3 : SpkSegment ℚ ℚ Unit :=
  { segmentExample with
    dataType := 3
    compute := fun w f => if 0 ≤ w + f ∧ w + f ≤ 10 then .ok (w + f, 1 / 86400) else .error () }

example : DescribesBody segmentExample (fun x => 0 ≤ x ∧ x ≤ 10) (fun x => x) (fun _ => 1) ∧
    DescribesBody segmentExample3 (fun x => 0 ≤ x ∧ x ≤ 10) (fun x => x) (fun _ => 1) := by
  constructor
  · intro w f h
    refine ⟨fun _ => ?_, fun h3 => by simp [segmentExample] at h3⟩
    simp [segmentExample, h]
  · intro w f h
    refine ⟨fun h3 => by simp [segmentExample3] at h3, fun _ => ⟨1 / 86400, by simp [segmentExample3, h], by norm_num⟩⟩

example : ((openKernel [segmentExample, segmentExample3]).isSome) := by
  rw [(C92_open _).1]
  simp [segmentExample, segmentExample3]

example (w f : ℚ) (h : 10 < w + f) : segmentExample.computeAndDifferentiate w f = .error () := by
  simp only [segmentExample]
  rw [if_neg (by intro x; linarith [x.2])]

/-- Part of the table of names. -/
def namesExample : List (ℤ × String) := [(0, "SSB"), (0, "SOLAR SYSTEM BARYCENTER"), (399, "EARTH"), (301, "MOON")]

/-- A kernel with one segment from the barycenter to the Moon. -/
def namedKernel : List (Segment ℚ ℚ) := [⟨0, 301, fun _ => true, fun _ => none⟩]

example : kernelNames namesExample namedKernel 0 = some ["SSB", "SOLAR SYSTEM BARYCENTER"] ∧
    kernelNames namesExample namedKernel 399 = none ∧ codeName namesExample 0 = some "SOLAR SYSTEM BARYCENTER" := by
  have h := (C92_names namesExample namedKernel 0 ["SSB", "SOLAR SYSTEM BARYCENTER"]).mpr (by simp [namedKernel, namesExample])
  refine ⟨h, ?_, by rw [C92_printed_name _ _ _ _ h]; rfl⟩
  cases e : kernelNames namesExample namedKernel 399 with
  | none => rfl
  | some l =>
    obtain ⟨hs, -⟩ := (C92_names _ _ _ _).mp e
    simp [namedKernel] at hs

end Skyfield
