import Verif.Spec.PolarMotion
import Verif.Model.PolarMotion
import Verif.Props.Utc
import Verif.Props.DeltaT
import Verif.Props.FramesOfDate

/-
C80: polar motion data are read, dated, interpolated and applied as published.
-/
namespace Skyfield
open Spec

/-! ### Reading the file -/

section parse
variable {K : Type*} [Field K] [LinearOrder K] [FloorRing K]

theorem match_any {n : ℕ} {a r : List Char} (ps : List RegexPiece) (h : a.length = n) :
    matchPieces (.any n :: ps) (a ++ r) = matchPieces ps r := by
  subst h
  simp [matchPieces]

theorem match_group {n : ℕ} {a r : List Char} (ps : List RegexPiece) (h : a.length = n) :
    matchPieces (.group n :: ps) (a ++ r) = (matchPieces ps r).map (a :: ·) := by
  subst h
  simp [matchPieces]

theorem match_space {r : List Char} (ps : List RegexPiece) : matchPieces (.space :: ps) (' ' :: r) = matchPieces ps r := by
  simp [matchPieces]

theorem match_number {n : ℕ} {a r : List Char} (ps : List RegexPiece) (h : a.length = n) (hn : 2 ≤ n) :
    matchPieces (.number n :: ps) (a ++ r) = if HasNumber a then (matchPieces ps r).map (a :: ·) else none := by
  subst h
  have e : (a ++ r)[1]? = a[1]? := List.getElem?_append_left (by omega)
  simp only [matchPieces, e]
  rw [if_pos (by simp)]
  simp only [List.take_left', List.drop_left']
  obtain ⟨c, hc⟩ : ∃ c, a[1]? = some c := ⟨a[1]'(by omega), by simp⟩
  rw [hc]
  simp only
  by_cases hd : c.isDigit = true
  · rw [if_pos hd, if_pos ⟨c, hc, hd⟩]
  · rw [if_neg hd, if_neg]
    rintro ⟨c', hc', hd'⟩
    rw [hc] at hc'
    cases hc'
    exact hd hd'

/-- **C80.** A line written with the published columns is read at exactly those columns if it has its three numbers, and otherwise
passed over. -/
theorem C80_line (l : FinalsLine) (h : l.WellFormed) :
    matchPieces finalsRegex l.text =
      if HasNumber l.x ∧ HasNumber l.y ∧ HasNumber l.dut1 then some [' ' :: l.mjd, l.x, l.y, l.dut1] else none := by
  unfold finalsRegex FinalsLine.text
  simp only [List.append_assoc]
  rw [match_any _ h.date]
  rw [show [' '] ++ (l.mjd ++ ([' '] ++ ([l.flag] ++ ([' '] ++ (l.x ++ (l.xError ++ ([' '] ++ (l.y ++ (l.yError ++ ([' ', ' '] ++
    ([l.dutFlag] ++ (l.dut1 ++ l.rest)))))))))))) = (' ' :: l.mjd) ++ ([' '] ++ ([l.flag] ++ ([' '] ++ (l.x ++ (l.xError ++ ([' '] ++
      (l.y ++ (l.yError ++ ([' ', ' '] ++ ([l.dutFlag] ++ (l.dut1 ++ l.rest))))))))))) from rfl]
  rw [match_group _ (by simp [h.mjd])]
  rw [List.singleton_append, match_space, match_any (n := 1) (a := [l.flag]) _ rfl, List.singleton_append, match_space,
    match_number _ h.x (by norm_num), match_any _ h.xError, List.singleton_append, match_space,
    match_number _ h.y (by norm_num), match_any _ h.yError, List.cons_append, match_space, List.singleton_append, match_space,
    match_any (n := 1) (a := [l.dutFlag]) _ rfl, match_number _ h.dut1 (by norm_num)]
  by_cases h1 : HasNumber l.x <;> by_cases h2 : HasNumber l.y <;> by_cases h3 : HasNumber l.dut1 <;>
    simp [h1, h2, h3, matchPieces]

/-- The number of characters that a piece takes. -/
def RegexPiece.width : RegexPiece → ℕ
  | .any n => n
  | .space => 1
  | .group n => n
  | .number n => n

/-- **C80.** A line that is too short, such as one cut off before the end of UT1-UTC, is passed over. -/
theorem C80_short_line (l : List Char) (h : l.length < 68) : matchPieces finalsRegex l = none := by
  have key : ∀ (ps : List RegexPiece) (l : List Char),
      l.length < (ps.map RegexPiece.width).sum →
      matchPieces ps l = none := by
    intro ps
    induction ps with
    | nil => intro l h; simp at h
    | cons p ps ih =>
      intro l h
      simp only [List.map_cons, List.sum_cons] at h
      cases p with
      | any n =>
        simp only [RegexPiece.width] at h
        simp only [matchPieces]
        by_cases hn : n ≤ l.length
        · rw [if_pos hn]; exact ih _ (by simp only [List.length_drop]; omega)
        · rw [if_neg hn]
      | space =>
        simp only [RegexPiece.width] at h
        cases l with
        | nil => rfl
        | cons c r =>
          simp only [matchPieces]
          rw [ih r (by simp only [List.length_cons] at h; omega)]
          simp
      | group n =>
        simp only [RegexPiece.width] at h
        simp only [matchPieces]
        by_cases hn : n ≤ l.length
        · rw [if_pos hn, ih _ (by simp only [List.length_drop]; omega)]; rfl
        · rw [if_neg hn]
      | number n =>
        simp only [RegexPiece.width] at h
        simp only [matchPieces]
        by_cases hn : n ≤ l.length
        · rw [if_pos hn, ih _ (by simp only [List.length_drop]; omega)]
          cases l[1]? with
          | none => rfl
          | some c => simp
        · rw [if_neg hn]
  exact key _ _ (by simpa [finalsRegex, RegexPiece.width] using h)

/-- **C80.** A file of such lines is read as the rows of its complete lines, in order. -/
theorem C80_file (readFloat : List Char → Option K) (lines : List FinalsLine) (hw : ∀ l ∈ lines, l.WellFormed)
    (value : FinalsLine → FinalsRow K)
    (hv : ∀ l ∈ lines, HasNumber l.x → HasNumber l.y → HasNumber l.dut1 →
      readFloat (' ' :: l.mjd) = some (value l).utcMjd ∧ readFloat l.x = some (value l).x ∧ readFloat l.y = some (value l).y ∧
      readFloat l.dut1 = some (value l).dut1) :
    parseFinalsAll readFloat (lines.map (·.text)) =
      some ((lines.filter fun l => decide (HasNumber l.x ∧ HasNumber l.y ∧ HasNumber l.dut1)).map value) := by
  unfold parseFinalsAll
  induction lines with
  | nil => rfl
  | cons l ls ih =>
    have ih := ih (fun x hx => hw x (List.mem_cons_of_mem _ hx)) (fun x hx => hv x (List.mem_cons_of_mem _ hx))
    rw [List.map_cons, List.filterMap_cons, C80_line l (hw l List.mem_cons_self)]
    by_cases hn : HasNumber l.x ∧ HasNumber l.y ∧ HasNumber l.dut1
    · obtain ⟨e1, e2, e3, e4⟩ := hv l List.mem_cons_self hn.1 hn.2.1 hn.2.2
      rw [if_pos hn, List.filter_cons_of_pos (by simpa using hn), List.mapM_cons, ih]
      simp [finalsRow, e1, e2, e3, e4]
    · rw [if_neg hn, List.filter_cons_of_neg (by simpa using hn)]
      exact ih

/-- Non-vacuity: the first line of the file. -/
example :
    let l : FinalsLine := ⟨"73 1 2".toList, "41684.00".toList, 'I', " 0.120733".toList, " 0.009786".toList, " 0.136966".toList,
      " 0.015902".toList, 'I', " 0.8084178".toList, " 0.0002710".toList⟩
    l.WellFormed ∧ HasNumber l.x ∧ HasNumber l.y ∧ HasNumber l.dut1 :=
  ⟨⟨rfl, rfl, rfl, rfl, rfl, rfl, rfl⟩, by decide, by decide, by decide⟩

end parse

/-! ### Dating the table -/

section dates
variable {K : Type*} [Field K] [LinearOrder K] [IsStrictOrderedRing K] [FloorRing K]

theorem mjd_julianDay (m : ℤ) (cutoff : Option ℤ) :
    julianDay 1858 11 (17 + m) cutoff =
      match cutoff with
      | none => m + 2400001
      | some c => if c ≤ m + 2400013 then m + 2400001 else m + 2400013 := by
  unfold julianDay cutoffMask
  cases cutoff with
  | none => simp; omega
  | some c =>
    simp only [ge_iff_le]
    norm_num
    by_cases h : c ≤ m + 2400013
    · rw [if_pos h, if_pos (by omega)]; omega
    · rw [if_neg h, if_neg (by omega)]; omega

theorem polar_row_time {ts : Timescale K} {L : List ℤ} {b : ℤ} (h : IsLeapTable ts L b) (m : ℤ)
    (hc : ∀ c, ts.cutoff = some c → c ≤ m + 2400013) :
    ∃ t, ts.utc 1858 11 (17 + (m : K)) 0 0 0 = some t ∧
      t.tt = (m : K) + 2400001 - 1 / 2 + ((taiMinusUtc L b (m + 2400001) : ℤ) + 32184 / 1000) / 86400 := by
  obtain ⟨t, h1, h2, h3, h4⟩ := utc_some h 1858 11 (17 + m) 0 0 0
  have hj : julianDay 1858 11 (17 + m) ts.cutoff = m + 2400001 := by
    rw [mjd_julianDay]
    cases hcut : ts.cutoff with
    | none => rfl
    | some c => simp only; rw [if_pos (hc c hcut)]
  rw [hj, ← taiMinusUtc_eq_cnt] at h4
  have e : ts.utc 1858 11 (17 + (m : K)) 0 0 0 = some t := by
    rw [← h1]; push_cast; rfl
  have ht : t.ttFraction = t.taiFraction + ttMinusTai := by
    have := h1
    unfold Timescale.utc at this
    simp only at this
    split at this
    · cases this
    · rename_i off _
      cases this
      rfl
  refine ⟨t, e, ?_⟩
  have h5 : t.whole + t.taiFraction = ((((m + 2400001) * 86400 - 43200 : ℤ) : K) + 3600 * 0 + 60 * 0 + 0 +
      ((taiMinusUtc L b (m + 2400001) : ℤ) : K)) / 86400 := by
    rw [← h4]; unfold Time.taiInstant; field_simp
  unfold Time.tt
  rw [ht, ← add_assoc, h5]
  unfold ttMinusTai dayS
  push_cast
  field_simp
  ring

/-- **C80.** The modified Julian date of each row is a day of UTC, and the table is dated in TT: midnight beginning the day
`2400001 + mjd`, plus TAI-UTC of that day, plus 32.184 seconds.  The calendar cutoff of the timescale does not matter unless it
is later than the row itself. -/
theorem C80_table_times {ts : Timescale K} {L : List ℤ} {b : ℤ} (h : IsLeapTable ts L b) (rows : List (FinalsRow K))
    (mjd : FinalsRow K → ℤ) (hm : ∀ r ∈ rows, r.utcMjd = mjd r)
    (hc : ∀ r ∈ rows, ∀ c, ts.cutoff = some c → c ≤ mjd r + 2400013) :
    ∃ p, installPolarMotionTable ts rows = some p ∧
      p.tt = rows.map fun r =>
        (mjd r : K) + 2400001 - 1 / 2 + ((taiMinusUtc L b (mjd r + 2400001) : ℤ) + 32184 / 1000) / 86400 := by
  have key : ∃ ts', rows.mapM (fun r => ts.utc 1858 11 (17 + r.utcMjd) 0 0 0) = some ts' ∧
      ts'.map Time.tt = rows.map fun r =>
        (mjd r : K) + 2400001 - 1 / 2 + ((taiMinusUtc L b (mjd r + 2400001) : ℤ) + 32184 / 1000) / 86400 := by
    clear * - hm hc h
    induction rows with
    | nil => exact ⟨[], rfl, rfl⟩
    | cons r rows ih =>
      obtain ⟨us, h1, h2⟩ := ih (fun x hx => hm x (List.mem_cons_of_mem _ hx)) (fun x hx => hc x (List.mem_cons_of_mem _ hx))
      obtain ⟨t, h3, h4⟩ := polar_row_time h (mjd r) (hc r List.mem_cons_self)
      rw [← hm r List.mem_cons_self] at h3
      refine ⟨t :: us, ?_, ?_⟩
      · rw [List.mapM_cons, h3, h1]; rfl
      · rw [List.map_cons, List.map_cons, h2, h4]
  obtain ⟨us, h1, h2⟩ := key
  refine ⟨⟨us.map Time.tt, rows.map (·.x), rows.map (·.y)⟩, ?_, h2⟩
  unfold installPolarMotionTable
  rw [h1]

/-- **C80 (finding).** With a calendar cutoff later than the row the table is dated twelve days late: the constant date "1858
November 17" is then read as a Julian one. -/
theorem C80_late_cutoff (c m : ℤ) (h : m + 2400013 < c) :
    julianDay 1858 11 (17 + m) (some c) = julianDay 1858 11 (17 + m) none + 12 := by
  rw [mjd_julianDay, mjd_julianDay]
  simp only
  rw [if_neg (by omega)]
  ring

/-- Non-vacuity: a leap second table with the cutoff of 1582, and the first day of the file. -/
example : IsLeapTable exampleTs [2441500, 2441684, 2442049] 10 ∧
    ∀ c, exampleTs.cutoff = some c → c ≤ (41684 : ℤ) + 2400013 :=
  ⟨exampleTs_ok, by decide⟩

/-- **C80.** A table has a row for each row of the data, in order. -/
theorem C80_table_rows {ts : Timescale K} {rows : List (FinalsRow K)} {p : PolarTable K}
    (h : installPolarMotionTable ts rows = some p) :
    p.x = rows.map (·.x) ∧ p.y = rows.map (·.y) ∧ p.tt.length = rows.length := by
  unfold installPolarMotionTable at h
  split at h
  · cases h
  · rename_i t ht
    cases h
    refine ⟨rfl, rfl, ?_⟩
    rw [List.length_map]
    have : ∀ (l : List (FinalsRow K)) (t : List (Time K)), l.mapM (fun r => ts.utc 1858 11 (17 + r.utcMjd) 0 0 0) = some t →
        t.length = l.length := by
      intro l
      induction l with
      | nil => intro t h; simp at h; simp [← h]
      | cons a l ih =>
        intro t h
        rw [List.mapM_cons] at h
        cases h1 : ts.utc 1858 11 (17 + a.utcMjd) 0 0 0 with
        | none => rw [h1] at h; simp at h
        | some u =>
          cases h2 : l.mapM (fun r => ts.utc 1858 11 (17 + r.utcMjd) 0 0 0) with
          | none => rw [h1, h2] at h; simp at h
          | some us =>
            rw [h1, h2] at h
            simp at h
            simp [← h, ih us h2]
    exact this rows t ht

end dates

/-! ### Interpolating -/

theorem interpGo_bounds {lo hi : ℝ} (p : ℝ × ℝ) (l : List (ℝ × ℝ)) (h : ∀ q ∈ p :: l, lo ≤ q.2 ∧ q.2 ≤ hi) (x : ℝ) :
    lo ≤ interpGo p l x ∧ interpGo p l x ≤ hi := by
  induction l generalizing p with
  | nil => exact h p List.mem_cons_self
  | cons q r ih =>
    obtain ⟨p1, p2⟩ := h p List.mem_cons_self
    obtain ⟨q1, q2⟩ := h q (by simp)
    simp only [interpGo]
    by_cases h1 : x < q.1
    · rw [if_pos h1]
      by_cases h2 : x ≤ p.1
      · rw [if_pos h2]; exact ⟨p1, p2⟩
      · rw [if_neg h2]
        push Not at h2
        have hd : 0 < q.1 - p.1 := by linarith
        have e : p.2 + (q.2 - p.2) / (q.1 - p.1) * (x - p.1) =
            (p.2 * (q.1 - x) + q.2 * (x - p.1)) / (q.1 - p.1) := by field_simp; ring
        rw [e, le_div_iff₀ hd, div_le_iff₀ hd]
        constructor <;> nlinarith
    · rw [if_neg h1]
      exact ih q fun s hs => h s (List.mem_cons_of_mem _ hs)

theorem interpGo_before (p : ℝ × ℝ) (l : List (ℝ × ℝ)) (hs : (p :: l).Pairwise (fun a b => a.1 < b.1)) (x : ℝ) (hx : x ≤ p.1) :
    interpGo p l x = p.2 := by
  cases l with
  | nil => rfl
  | cons q r =>
    have := (List.pairwise_cons.1 hs).1 q List.mem_cons_self
    simp only [interpGo]
    rw [if_pos (by linarith), if_pos hx]

theorem interpGo_after (p : ℝ × ℝ) (l : List (ℝ × ℝ)) (x : ℝ) (hx : ∀ q ∈ l, q.1 ≤ x) :
    interpGo p l x = ((p :: l).getLast (by simp)).2 := by
  induction l generalizing p with
  | nil => rfl
  | cons q r ih =>
    simp only [interpGo]
    rw [if_neg (not_lt.2 (hx q List.mem_cons_self)), ih q fun s hs => hx s (List.mem_cons_of_mem _ hs)]
    rw [List.getLast_cons (a := p) (by simp : q :: r ≠ [])]

/-- A table as `install_polar_motion_table` makes it of data in order of time. -/
structure PolarTable.Ordered (p : PolarTable ℝ) : Prop where
  nonempty : p.tt ≠ []
  x : p.x.length = p.tt.length
  y : p.y.length = p.tt.length
  sorted : p.tt.Pairwise (· < ·)

theorem zip_ordered {t v : List ℝ} (h0 : t ≠ []) (hl : v.length = t.length) (hs : t.Pairwise (· < ·)) :
    ∃ q l, t.zip v = q :: l ∧ (q :: l).Pairwise (fun a b => a.1 < b.1) := by
  have e : (t.zip v).map Prod.fst = t := List.map_fst_zip (by omega)
  have hp : (t.zip v).Pairwise (fun a b => a.1 < b.1) := by
    rw [← List.pairwise_map (f := Prod.fst) (R := (· < ·)), e]; exact hs
  cases hz : t.zip v with
  | nil =>
    rw [hz] at e
    exact absurd e.symm h0
  | cons q l => exact ⟨q, l, rfl, hz ▸ hp⟩

/-- **C80.** With a table, angles exist for every time; they are the table's on its dates, stay within the smallest and the largest
value of the table at all times, and change continuously; before the table they are its first, and after it its last. -/
theorem C80_angles (p : PolarTable ℝ) (h : p.Ordered) : ∃ x y : ℝ → ℝ,
    (∀ tt tdb, polarMotionAngles (some p) tt tdb = some (-47.0e-6 * (tdb - 2451545) / 36525, x tt, y tt)) ∧
    Continuous x ∧ Continuous y ∧
    (∀ i (hi : i < p.tt.length), x p.tt[i] = p.x[i]'(by rw [h.x]; exact hi) ∧ y p.tt[i] = p.y[i]'(by rw [h.y]; exact hi)) ∧
    (∀ lo hi, (∀ v ∈ p.x, lo ≤ v ∧ v ≤ hi) → ∀ tt, lo ≤ x tt ∧ x tt ≤ hi) ∧
    (∀ lo hi, (∀ v ∈ p.y, lo ≤ v ∧ v ≤ hi) → ∀ tt, lo ≤ y tt ∧ y tt ≤ hi) ∧
    (∀ tt, (∀ u ∈ p.tt, tt ≤ u) → some (x tt) = p.x.head? ∧ some (y tt) = p.y.head?) ∧
    (∀ tt, (∀ u ∈ p.tt, u ≤ tt) → some (x tt) = p.x.getLast? ∧ some (y tt) = p.y.getLast?) := by
  have key : ∀ v : List ℝ, v.length = p.tt.length → ∃ f : ℝ → ℝ, (∀ tt, interp tt p.tt v = some (f tt)) ∧ Continuous f ∧
      (∀ i (hi : i < p.tt.length) (hj : i < v.length), f p.tt[i] = v[i]) ∧
      (∀ lo hi, (∀ u ∈ v, lo ≤ u ∧ u ≤ hi) → ∀ tt, lo ≤ f tt ∧ f tt ≤ hi) ∧
      (∀ tt, (∀ u ∈ p.tt, tt ≤ u) → some (f tt) = v.head?) ∧ (∀ tt, (∀ u ∈ p.tt, u ≤ tt) → some (f tt) = v.getLast?) := by
    intro v hv
    obtain ⟨q, l, hz, hs⟩ := zip_ordered h.nonempty hv h.sorted
    have hm : ∀ r ∈ q :: l, r.1 ∈ p.tt ∧ r.2 ∈ v := by
      intro r hr
      rw [← hz] at hr
      exact ⟨(List.of_mem_zip (a := r.1) (b := r.2) hr).1, (List.of_mem_zip (a := r.1) (b := r.2) hr).2⟩
    have esnd : (q :: l).map Prod.snd = v := by rw [← hz]; exact List.map_snd_zip (by omega)
    refine ⟨interpGo q l, fun tt => by simp only [interp, hz], interpGo_continuous q l hs, ?_, ?_, ?_, ?_⟩
    · intro i hi hj
      have hmem : (p.tt[i], v[i]) ∈ q :: l := by
        rw [← hz, List.mem_iff_getElem]
        exact ⟨i, by simp; omega, by simp⟩
      exact interpGo_point q l _ hs hmem
    · intro lo hi hb tt
      exact interpGo_bounds q l (fun r hr => hb _ (hm r hr).2) tt
    · intro tt ht
      rw [interpGo_before q l hs tt (ht _ (hm q List.mem_cons_self).1), ← esnd]
      rfl
    · intro tt ht
      rw [interpGo_after q l tt fun r hr => ht _ (hm r (List.mem_cons_of_mem _ hr)).1, ← esnd, List.getLast?_map,
        List.getLast?_eq_getLast_of_ne_nil (by simp : q :: l ≠ [])]
      rfl
  obtain ⟨x, x1, x2, x3, x4, x5, x6⟩ := key p.x h.x
  obtain ⟨y, y1, y2, y3, y4, y5, y6⟩ := key p.y h.y
  refine ⟨x, y, fun tt tdb => ?_, x2, y2, fun i hi => ⟨x3 i hi _, y3 i hi _⟩, x4, y4, fun tt ht => ⟨x5 tt ht, y5 tt ht⟩,
    fun tt ht => ⟨x6 tt ht, y6 tt ht⟩⟩
  simp only [polarMotionAngles, x1, y1]
  rfl

/-- **C80.** Between two dates of the table the angle runs along a straight line. -/
theorem C80_straight (p : PolarTable ℝ) (h : p.Ordered) (i : ℕ) (hi : i + 1 < p.tt.length) (tt tdb : ℝ)
    (h0 : p.tt[i] ≤ tt) (h1 : tt ≤ p.tt[i + 1]) :
    ∃ s x y, polarMotionAngles (some p) tt tdb = some (s, x, y) ∧
      x = p.x[i]'(by rw [h.x]; omega) + (p.x[i + 1]'(by rw [h.x]; omega) - p.x[i]'(by rw [h.x]; omega)) *
        ((tt - p.tt[i]) / (p.tt[i + 1] - p.tt[i])) ∧
      y = p.y[i]'(by rw [h.y]; omega) + (p.y[i + 1]'(by rw [h.y]; omega) - p.y[i]'(by rw [h.y]; omega)) *
        ((tt - p.tt[i]) / (p.tt[i + 1] - p.tt[i])) := by
  have key : ∀ v : List ℝ, (hv : v.length = p.tt.length) → interp tt p.tt v =
      some (v[i]'(by omega) + (v[i + 1]'(by omega) - v[i]'(by omega)) * ((tt - p.tt[i]) / (p.tt[i + 1] - p.tt[i]))) := by
    intro v hv
    obtain ⟨q, l, hz, hs⟩ := zip_ordered h.nonempty hv h.sorted
    have hlen : (q :: l).length = p.tt.length := by rw [← hz, List.length_zip]; omega
    have hsplit : q :: l = (q :: l).take i ++ (p.tt[i], v[i]'(by omega)) :: (p.tt[i + 1], v[i + 1]'(by omega)) :: (q :: l).drop (i + 2) := by
      have e1 : (q :: l)[i]'(by omega) = (p.tt[i], v[i]'(by omega)) := by simp only [← hz, List.getElem_zip]
      have e2 : (q :: l)[i + 1]'(by omega) = (p.tt[i + 1], v[i + 1]'(by omega)) := by simp only [← hz, List.getElem_zip]
      rw [← e1, ← e2, List.getElem_cons_drop, List.getElem_cons_drop, List.take_append_drop]
    simp only [interp, hz]
    rw [interpGo_middle q l _ _ _ _ tt hs hsplit h0 h1]
    simp only [Option.some.injEq]
    ring
  refine ⟨-47.0e-6 * (tdb - t0) / 36525, _, _, ?_, rfl, rfl⟩
  simp only [polarMotionAngles, key p.x h.x, key p.y h.y]

/-- Non-vacuity: a table of two days. -/
example : (⟨[2458849.5, 2458850.5], [0.076, 0.078], [0.282, 0.283]⟩ : PolarTable ℝ).Ordered :=
  ⟨by simp, rfl, rfl, by simp; norm_num⟩

/-! ### Applying -/

open Real

theorem turn_small {θ a b : ℝ} : (cos θ * a - sin θ * b - a) ^ 2 + (sin θ * a + cos θ * b - b) ^ 2 ≤ θ ^ 2 * (a ^ 2 + b ^ 2) := by
  have h1 := Real.one_sub_sq_div_two_le_cos (x := θ)
  have h2 := sin_sq_add_cos_sq θ
  have e : (cos θ * a - sin θ * b - a) ^ 2 + (sin θ * a + cos θ * b - b) ^ 2 = (2 - 2 * cos θ) * (a ^ 2 + b ^ 2) := by
    linear_combination (a ^ 2 + b ^ 2) * h2
  rw [e]
  exact mul_le_mul_of_nonneg_right (by linarith) (by positivity)

theorem Vec3.length_le_of_sq {u v : Vec3} {θ : ℝ} (h : u.dot u ≤ θ ^ 2 * v.dot v) : u.length ≤ |θ| * v.length := by
  have hv := Vec3.length_nonneg v
  apply abs_le_of_sq_le_sq' _ (by positivity) |>.2
  have e1 := Vec3.length_mul_self u
  have e2 := Vec3.length_mul_self v
  rw [mul_pow, sq_abs, sq, e1, sq v.length, e2]
  exact h

theorem rotX_small (θ : ℝ) (v : Vec3) : ((rotX θ).mulVec v - v).length ≤ |θ| * v.length := by
  apply Vec3.length_le_of_sq
  have := turn_small (θ := θ) (a := v.y) (b := v.z)
  simp only [rotX, Mat3.mulVec, Vec3.dot, Vec3.sub_x, Vec3.sub_y, Vec3.sub_z]
  nlinarith [sq_nonneg (θ * v.x)]

theorem rotY_small (θ : ℝ) (v : Vec3) : ((rotY θ).mulVec v - v).length ≤ |θ| * v.length := by
  apply Vec3.length_le_of_sq
  have := turn_small (θ := θ) (a := v.z) (b := v.x)
  simp only [rotY, Mat3.mulVec, Vec3.dot, Vec3.sub_x, Vec3.sub_y, Vec3.sub_z]
  nlinarith [sq_nonneg (θ * v.y)]

theorem rotZ_small (θ : ℝ) (v : Vec3) : ((rotZ θ).mulVec v - v).length ≤ |θ| * v.length := by
  apply Vec3.length_le_of_sq
  have := turn_small (θ := θ) (a := v.x) (b := v.y)
  simp only [rotZ, Mat3.mulVec, Vec3.dot, Vec3.sub_x, Vec3.sub_y, Vec3.sub_z]
  nlinarith [sq_nonneg (θ * v.z)]

/-- **C80.** Polar motion moves Earth-fixed coordinates by at most the sum of its angles: coordinates with and without it differ by no
more than that many radians of the distance. -/
theorem C80_small (t : SkyTime) (s x y : ℝ) (h : t.polar = some (s, x, y)) (v : Vec3) :
    ((itrsRotation t).mulVec v - (tirsRotation t).mulVec v).length ≤
      (|s| + |x| + |y|) * asec2rad * ((tirsRotation t).mulVec v).length := by
  have e : (itrsRotation t).mulVec v = (SkyTime.polarMotionMatrix s x y).mulVec ((tirsRotation t).mulVec v) := by
    unfold itrsRotation tirsRotation
    rw [h]
    simp only
    rw [Mat3.mul_mulVec]
  rw [e]
  generalize (tirsRotation t).mulVec v = u
  have ha : 0 < asec2rad := by unfold asec2rad; norm_num
  unfold SkyTime.polarMotionMatrix Mat3.mul3
  rw [Mat3.mul_mulVec, Mat3.mul_mulVec]
  set a := (rotZ (-s * asec2rad)).mulVec u
  set b := (rotY (x * asec2rad)).mulVec a
  have la : a.length = u.length := (C35_rot_z _).length u
  have lb : b.length = u.length := ((C35_rot_y _).length a).trans la
  have h1 := rotZ_small (-s * asec2rad) u
  have h2 := rotY_small (x * asec2rad) a
  have h3 := rotX_small (y * asec2rad) b
  rw [abs_mul, abs_of_pos ha] at h1 h2 h3
  rw [abs_neg] at h1
  rw [la] at h2
  rw [lb] at h3
  have e3 : (rotX (y * asec2rad)).mulVec b - u = ((rotX (y * asec2rad)).mulVec b - b) + ((b - a) + (a - u)) := by abel
  rw [e3]
  have := Vec3.length_add_le ((rotX (y * asec2rad)).mulVec b - b) ((b - a) + (a - u))
  have := Vec3.length_add_le (b - a) (a - u)
  linarith

/-- **C80.** With a table whose angles stay below `a` arcseconds, a place on Earth at `r` from the center is never displaced by more
than `(2 a + 47e-6 |centuries|)` arcseconds of `r`. -/
theorem C80_displacement (p : PolarTable ℝ) (h : p.Ordered) (a : ℝ) (hx : ∀ v ∈ p.x, |v| ≤ a) (hy : ∀ v ∈ p.y, |v| ≤ a)
    (t : SkyTime) (tt : ℝ) (ht : t.polar = polarMotionAngles (some p) tt t.tdb) (v : Vec3) :
    ((itrsRotation t).mulVec v - (tirsRotation t).mulVec v).length ≤
      (2 * a + 47e-6 * (|t.tdb - 2451545| / 36525)) * asec2rad * ((tirsRotation t).mulVec v).length := by
  obtain ⟨x, y, h1, -, -, -, h2, h3, -, -⟩ := C80_angles p h
  rw [h1] at ht
  have hs := C80_small t _ _ _ ht v
  have bx := abs_le.2 (h2 (-a) a (fun u hu => abs_le.1 (hx u hu)) tt)
  have hby := abs_le.2 (h3 (-a) a (fun u hu => abs_le.1 (hy u hu)) tt)
  have ha : 0 < asec2rad := by unfold asec2rad; norm_num
  refine hs.trans (mul_le_mul_of_nonneg_right (mul_le_mul_of_nonneg_right ?_ ha.le) (Vec3.length_nonneg _))
  have e : |(-47.0e-6 : ℝ) * (t.tdb - 2451545) / 36525| = 47e-6 * (|t.tdb - 2451545| / 36525) := by
    rw [abs_div, abs_mul]
    norm_num
    ring
  rw [e]
  linarith

/-- **C80.** Without a table the angles are zero, and rotating by them changes nothing. -/
theorem C80_no_table (tt tdb : ℝ) (v : Vec3) :
    polarMotionAngles none tt tdb = some (0, 0, 0) ∧ (SkyTime.polarMotionMatrix 0 0 0).mulVec v = v := by
  refine ⟨rfl, ?_⟩
  ext <;> simp [SkyTime.polarMotionMatrix, Mat3.mul3, Mat3.mul, Mat3.transpose, rotX, rotY, rotZ, Mat3.mulVec, Vec3.dot]

end Skyfield
