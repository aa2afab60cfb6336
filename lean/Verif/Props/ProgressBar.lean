import Verif.Model.ProgressBar
import Verif.Props.Download
import Mathlib.Tactic.Linarith
import Mathlib.Data.List.Forall2
import Mathlib.Algebra.Order.BigOperators.Group.List
import Mathlib.Tactic.Ring
import Mathlib.Algebra.Order.Ring.Rat

/-!
# C99 — the progress bar of a download
-/
namespace Skyfield

/-- What a line of the bar should say for `soFar` of `total` bytes: the percentage `p` is rounded down, the bar has one mark
for every three percent, and the line ends only when everything has arrived. -/
structure ShowsProgress (filename : List Char) (soFar total : ℕ) (text : List Char) (percent : ℕ) : Prop where
  below : percent * total ≤ 100 * soFar
  above : 100 * soFar < (percent + 1) * total
  text_eq : text = '\r' :: '[' :: (List.replicate (percent / 3) '#' ++ List.replicate (33 - percent / 3) ' ') ++
    "] ".toList ++ List.replicate (3 - (decimal percent).length) ' ' ++ decimal percent ++ "% ".toList ++ filename ++
    (if percent = 100 then ['\n'] else [])

private theorem decimal_length_le (n : ℕ) (h : n ≤ 100) : (decimal n).length ≤ 3 := by
  have : ∀ n : Fin 101, (decimal n.1).length ≤ 3 := by decide +kernel
  exact this ⟨n, by omega⟩

private theorem shows (filename : List Char) (soFar total : ℕ) (ht : 0 < total) :
    ShowsProgress filename soFar total (barLine filename (100 * soFar / total)) (100 * soFar / total) := by
  refine ⟨Nat.div_mul_le_self _ _, ?_, ?_⟩
  · exact Nat.lt_mul_of_div_lt (Nat.lt_succ_self _) ht
  · simp [barLine, padRight, padLeft]

/-- The percentage is 100 exactly when everything has arrived. -/
private theorem percent_full (soFar total : ℕ) (ht : 0 < total) (h : soFar ≤ total) :
    100 * soFar / total = 100 ↔ soFar = total := by
  constructor
  · intro e
    have := Nat.div_mul_le_self (100 * soFar) total
    rw [e] at this
    omega
  · rintro rfl
    exact Nat.mul_div_cancel _ ht

/-- **C99.** When the server does not say how long the file is, nothing is printed. -/
theorem C99_unknown_length (filename : List Char) (total : ℤ) (h : total < 0) (blocks : List (ℕ × ℚ × ℚ)) :
    barDownload filename total blocks = some [] := by
  have : ∀ (rs : List Report) (t0 : ℚ), barRun filename total t0 rs = some [] := by
    intro rs
    induction rs with
    | nil => intro t0; rfl
    | cons r rs ih => intro t0; simp only [barRun, barReport, if_pos h]; exact ih t0
  exact this _ _

/-- **C99.** When the server announces no bytes but sends some, the download ends in an error at the first block. -/
theorem C99_zero_length (filename : List Char) (b : ℕ × ℚ × ℚ) (blocks : List (ℕ × ℚ × ℚ)) :
    barDownload filename 0 (b :: blocks) = none := by
  obtain ⟨k, c, c'⟩ := b
  simp [barDownload, barDownload.reports, barRun, barReport]

/-- The bytes that have arrived with block number `i` (counted from 0). -/
def arrived (blocks : List (ℕ × ℚ × ℚ)) (i : ℕ) : ℕ := ((blocks.take (i + 1)).map (·.1)).sum

/-- The clock does not go backwards: its readings, two for every block, are in order. -/
def ClockRuns (blocks : List (ℕ × ℚ × ℚ)) : Prop := (blocks.flatMap fun b => [b.2.1, b.2.2]).Pairwise (· ≤ ·)

private def Clocks : ℚ → List Report → Prop
  | _, [] => True
  | t, r :: rs => t ≤ r.clock ∧ r.clock ≤ r.clock' ∧ Clocks r.clock' rs

private theorem Clocks.weaken {t t' : ℚ} (h : t' ≤ t) : ∀ {rs : List Report}, Clocks t rs → Clocks t' rs
  | [], _ => trivial
  | _ :: _, ⟨h1, h2, h3⟩ => ⟨le_trans h h1, h2, h3⟩

private theorem Clocks.ge {t : ℚ} : ∀ {rs : List Report}, Clocks t rs → ∀ (i : ℕ) (r : Report), rs[i]? = some r → t ≤ r.clock
  | [], _, i, r, h => by simp at h
  | q :: rs, ⟨h1, h2, h3⟩, 0, r, h => by simp at h; subst h; exact h1
  | q :: rs, ⟨h1, h2, h3⟩, i + 1, r, h => by
      have := Clocks.ge h3 i r (by simpa using h)
      exact le_trans (le_trans h1 h2) this

private theorem bar_run (filename : List Char) (T : ℕ) (hT : 0 < T) : ∀ (rs : List Report) (t0 : ℚ), Clocks t0 rs →
    ∃ (shown : List ℕ) (lines : List (List Char × ℚ)), shown.Pairwise (· < ·) ∧ barRun filename T t0 rs = some lines ∧
      List.Forall₂ (fun i line => ∃ r, rs[i]? = some r ∧ line = (barLine filename (100 * r.soFar / T), r.clock')) shown lines ∧
      ∀ i r, rs[i]? = some r → (i ∈ shown ↔ 100 * r.soFar / T = 100 ∨
        (t0 + 1 / 2 ≤ r.clock ∧ ∀ j ∈ shown, j < i → ∀ q, rs[j]? = some q → q.clock' + 1 / 2 ≤ r.clock))
  | [], t0, _ => ⟨[], [], by simp, rfl, by simp, by simp⟩
  | r :: rs, t0, ⟨h1, h2, h3⟩ => by
      have hneg : ¬ ((T : ℤ) < 0) := by omega
      have hz : ¬ ((T : ℤ) = 0) := by omega
      have hnat : (T : ℤ).toNat = T := by simp
      by_cases hq : 100 * r.soFar / T ≠ 100 ∧ r.clock - t0 < 1 / 2
      · obtain ⟨shown, lines, g1, g2, g3, g4⟩ := bar_run filename T hT rs t0 (h3.weaken (le_trans h1 h2))
        refine ⟨shown.map (· + 1), lines, ?_, ?_, ?_, ?_⟩
        · rw [List.pairwise_map]; exact g1.imp (by intro a b; omega)
        · simp only [barRun, barReport, hneg, hz, if_false, hnat]
          rw [if_pos hq]; exact g2
        · rw [List.forall₂_map_left_iff]; simpa using g3
        · intro i q hi
          cases i with
          | zero =>
            simp only [List.getElem?_cons_zero, Option.some.injEq] at hi
            subst hi
            have : ¬ (t0 + 1 / 2 ≤ r.clock) := by have := hq.2; intro h; linarith
            simp only [List.mem_map, Nat.add_eq_zero_iff, one_ne_zero, and_false, exists_false, hq.1, this, false_and, or_self]
          | succ i =>
            have := g4 i q (by simpa using hi)
            simp only [List.mem_map, Nat.add_right_cancel_iff, exists_eq_right]
            rw [this]
            refine or_congr Iff.rfl (and_congr Iff.rfl ?_)
            constructor
            · rintro h j ⟨j', hj', rfl⟩ hlt q hq
              exact h j' hj' (by omega) q (by simpa using hq)
            · intro h j hj hlt q hq
              exact h (j + 1) ⟨j, hj, rfl⟩ (by omega) q (by simpa using hq)
      · obtain ⟨shown, lines, g1, g2, g3, g4⟩ := bar_run filename T hT rs r.clock' h3
        refine ⟨0 :: shown.map (· + 1), (barLine filename (100 * r.soFar / T), r.clock') :: lines, ?_, ?_, ?_, ?_⟩
        · rw [List.pairwise_cons]
          refine ⟨by intro a ha; simp at ha; omega, ?_⟩
          rw [List.pairwise_map]; exact g1.imp (by intro a b; omega)
        · simp only [barRun, barReport, hneg, hz, if_false, hnat]
          rw [if_neg hq]; simp only [g2, Option.map_some]
        · refine List.Forall₂.cons ⟨r, by simp, rfl⟩ ?_
          rw [List.forall₂_map_left_iff]; simpa using g3
        · intro i q hi
          cases i with
          | zero =>
            simp only [List.getElem?_cons_zero, Option.some.injEq] at hi
            subst hi
            simp only [List.mem_cons, true_or, true_iff, Nat.not_lt_zero, false_imp_iff, implies_true, and_true]
            by_contra hcon
            push Not at hcon
            exact hq ⟨hcon.1, by linarith [hcon.2]⟩
          | succ i =>
            have := g4 i q (by simpa using hi)
            simp only [List.mem_cons, Nat.add_eq_zero_iff, one_ne_zero, and_false, false_or, List.mem_map,
              Nat.add_right_cancel_iff, exists_eq_right]
            rw [this]
            refine or_congr Iff.rfl ?_
            constructor
            · rintro ⟨ha, h⟩
              refine ⟨by linarith, ?_⟩
              rintro j (rfl | ⟨j', hj', rfl⟩) hlt q' hq'
              · simp only [List.getElem?_cons_zero, Option.some.injEq] at hq'
                subst hq'; exact ha
              · exact h j' hj' (by omega) q' (by simpa using hq')
            · rintro ⟨ha, h⟩
              refine ⟨h 0 (Or.inl rfl) (by omega) r (by simp), ?_⟩
              intro j hj hlt q' hq'
              exact h (j + 1) (Or.inr ⟨j, hj, rfl⟩) (by omega) q' (by simpa using hq')

private theorem reports_get : ∀ (blocks : List (ℕ × ℚ × ℚ)) (n i : ℕ) (r : Report),
    (barDownload.reports n blocks)[i]? = some r ↔
      ∃ b, blocks[i]? = some b ∧ r = ⟨n + arrived blocks i, b.2.1, b.2.2⟩
  | [], n, i, r => by simp [barDownload.reports]
  | (k, c, c') :: bs, n, 0, r => by simp [barDownload.reports, arrived, eq_comm]
  | (k, c, c') :: bs, n, i + 1, r => by
      simp only [barDownload.reports, List.getElem?_cons_succ]
      rw [reports_get bs (n + k) i r]
      simp [arrived, Nat.add_assoc]

private theorem reports_clocks : ∀ (blocks : List (ℕ × ℚ × ℚ)) (n : ℕ) (t : ℚ), ClockRuns blocks → (∀ b ∈ blocks, t ≤ b.2.1) →
    Clocks t (barDownload.reports n blocks)
  | [], n, t, _, _ => trivial
  | (k, c, c') :: bs, n, t, h, ht => by
      have h' : List.Pairwise (· ≤ ·) (c :: c' :: (bs.flatMap fun b => [b.2.1, b.2.2])) := h
      rw [List.pairwise_cons, List.pairwise_cons] at h'
      refine ⟨ht (k, c, c') (by simp), h'.1 c' (by simp), ?_⟩
      refine reports_clocks bs (n + k) c' h'.2.2 ?_
      intro b hb
      exact h'.2.1 _ (by simp only [List.mem_flatMap]; exact ⟨b, hb, by simp⟩)

/-- **C99.** The lines of the bar, for a file of known length: some of the blocks are shown, in their order, each with the
number of bytes that have arrived with it; and a block is shown exactly when it is the last one of the file or no line
has been printed within the half second before it. -/
theorem C99_lines (filename : List Char) (T : ℕ) (hT : 0 < T) (blocks : List (ℕ × ℚ × ℚ)) (hc : ClockRuns blocks)
    (hepoch : ∀ b ∈ blocks, 1 / 2 ≤ b.2.1) (hsum : (blocks.map (·.1)).sum ≤ T) :
    ∃ (shown : List ℕ) (lines : List (List Char × ℚ)), barDownload filename T blocks = some lines ∧ shown.Pairwise (· < ·) ∧
      List.Forall₂ (fun i line => ∃ b, blocks[i]? = some b ∧ line.2 = b.2.2 ∧
        ∃ percent, ShowsProgress filename (arrived blocks i) T line.1 percent) shown lines ∧
      ∀ i b, blocks[i]? = some b → (i ∈ shown ↔ arrived blocks i = T ∨
        ∀ j ∈ shown, j < i → ∀ a, blocks[j]? = some a → a.2.2 + 1 / 2 ≤ b.2.1) := by
  obtain ⟨shown, lines, g1, g2, g3, g4⟩ := bar_run filename T hT (barDownload.reports 0 blocks) 0
    (reports_clocks blocks 0 0 hc (fun b hb => by have := hepoch b hb; linarith))
  have hle : ∀ i, arrived blocks i ≤ T := by
    intro i
    refine le_trans ?_ hsum
    unfold arrived
    exact List.Sublist.sum_le_sum ((List.take_sublist _ _).map _) (by simp)
  refine ⟨shown, lines, g2, g1, ?_, ?_⟩
  · refine g3.imp ?_
    rintro i line ⟨r, hr, rfl⟩
    obtain ⟨b, hb, rfl⟩ := (reports_get blocks 0 i r).1 hr
    refine ⟨b, hb, rfl, 100 * (0 + arrived blocks i) / T, ?_⟩
    have := shows filename (arrived blocks i) T hT
    simpa using this
  · intro i b hb
    rw [g4 i _ ((reports_get blocks 0 i _).2 ⟨b, hb, rfl⟩)]
    simp only [Nat.zero_add]
    rw [percent_full _ _ hT (hle i)]
    refine or_congr Iff.rfl ?_
    constructor
    · rintro ⟨-, h⟩ j hj hlt a ha
      exact h j hj hlt _ ((reports_get blocks 0 j _).2 ⟨a, ha, rfl⟩)
    · intro h
      refine ⟨by have := hepoch b (List.mem_of_getElem? hb); linarith, ?_⟩
      intro j hj hlt q hq
      obtain ⟨a, ha, rfl⟩ := (reports_get blocks 0 j q).1 hq
      exact h j hj hlt a ha

/-- **C99.** The percentage shown is never more than 100, and is 100 exactly when everything has arrived. -/
theorem C99_percent (filename : List Char) (soFar T : ℕ) (hT : 0 < T) (hle : soFar ≤ T) (text : List Char) (percent : ℕ)
    (h : ShowsProgress filename soFar T text percent) : percent ≤ 100 ∧ (percent = 100 ↔ soFar = T) := by
  have hp : percent ≤ 100 := by
    by_contra hcon
    have h1 : 101 * T ≤ percent * T := Nat.mul_le_mul_right _ (by omega)
    have := h.below
    omega
  refine ⟨hp, ?_, ?_⟩
  · rintro rfl
    have := h.below
    omega
  · rintro rfl
    by_contra hne
    have h1 : (percent + 1) * soFar ≤ 100 * soFar := Nat.mul_le_mul_right _ (by omega)
    have := h.above
    omega

/-- **C99.** The percentages never go down. -/
theorem C99_monotone (filename : List Char) (soFar soFar' T : ℕ) (hle : soFar ≤ soFar') (text text' : List Char)
    (percent percent' : ℕ) (h : ShowsProgress filename soFar T text percent)
    (h' : ShowsProgress filename soFar' T text' percent') : percent ≤ percent' := by
  have h1 : percent * T < (percent' + 1) * T :=
    lt_of_le_of_lt (le_trans h.below (Nat.mul_le_mul_left 100 hle)) h'.above
  have := lt_of_mul_lt_mul_right h1 (Nat.zero_le T)
  omega

/-- **C99.** The line of the complete file: a full bar, 100%, the name, and the end of the line. -/
theorem C99_full_line (filename : List Char) (T : ℕ) (hT : 0 < T) (text : List Char) (percent : ℕ)
    (h : ShowsProgress filename T T text percent) :
    text = "\r[#################################] 100% ".toList ++ filename ++ ['\n'] := by
  have := (C99_percent filename T T hT le_rfl text percent h).2.2 rfl
  subst this
  rw [h.text_eq]
  rfl

/-- **C99.** Every line of the bar takes up the same room, so that each covers the one before it. -/
theorem C99_same_width (filename : List Char) (soFar T : ℕ) (text : List Char) (percent : ℕ) (hle : soFar ≤ T)
    (hT : 0 < T) (h : ShowsProgress filename soFar T text percent) :
    text.length = filename.length + 42 + if soFar = T then 1 else 0 := by
  obtain ⟨h1, h2⟩ := C99_percent filename soFar T hT hle text percent h
  have h3 := decimal_length_le percent h1
  rw [h.text_eq]
  simp only [List.length_append, List.length_cons, List.length_replicate]
  have e1 : "] ".toList.length = 2 := rfl
  have e2 : "% ".toList.length = 2 := rfl
  have e3 : (if percent = 100 then ['\n'] else []).length = if soFar = T then 1 else 0 := by
    by_cases hs : soFar = T
    · rw [if_pos (h2.2 hs), if_pos hs]; rfl
    · rw [if_neg (fun hp => hs (h2.1 hp)), if_neg hs]; rfl
  rw [e1, e2, e3]
  omega

/-- **C99.** A file that arrives completely, in blocks that are not empty, ends with the line of the complete file; it is the
only one that ends a line on the screen. -/
theorem C99_complete (filename : List Char) (hname : '\n' ∉ filename) (T : ℕ) (blocks : List (ℕ × ℚ × ℚ)) (hne : blocks ≠ [])
    (hpos : ∀ b ∈ blocks, 0 < b.1) (hc : ClockRuns blocks) (hepoch : ∀ b ∈ blocks, 1 / 2 ≤ b.2.1)
    (hsum : (blocks.map (·.1)).sum = T) :
    ∃ (before : List (List Char × ℚ)) (t : ℚ),
      barDownload filename T blocks =
        some (before ++ [("\r[#################################] 100% ".toList ++ filename ++ ['\n'], t)]) ∧
      ∀ line ∈ before, '\n' ∉ line.1 ∧ line.1.length = filename.length + 42 := by
  have hlen : 0 < blocks.length := List.length_pos_iff.2 hne
  have hT : 0 < T := by
    obtain ⟨b, bs, rfl⟩ := List.exists_cons_of_ne_nil hne
    have := hpos b (by simp)
    simp only [List.map_cons, List.sum_cons] at hsum
    omega
  obtain ⟨shown, lines, g1, g2, g3, g4⟩ := C99_lines filename T hT blocks hc hepoch hsum.le
  have hin : ∀ i ∈ shown, i < blocks.length := by
    intro i hi
    obtain ⟨k, hk, rfl⟩ := List.getElem_of_mem hi
    have hk' : k < lines.length := g3.length_eq ▸ hk
    obtain ⟨b, hb, -⟩ := g3.get hk hk'
    exact (List.getElem?_eq_some_iff.1 hb).1
  have hlast : blocks.length - 1 ∈ shown := by
    have hb : blocks[blocks.length - 1]? = some (blocks[blocks.length - 1]'(by omega)) := List.getElem?_eq_getElem _
    rw [g4 _ _ hb]
    left
    unfold arrived
    rw [show blocks.length - 1 + 1 = blocks.length by omega, List.take_length, hsum]
  have hsmall : ∀ i, i + 1 < blocks.length → arrived blocks i < T := by
    intro i hi
    have h1 : blocks = blocks.take (i + 1) ++ blocks.drop (i + 1) := (List.take_append_drop _ _).symm
    rw [← hsum]
    conv_rhs => rw [h1]
    rw [List.map_append, List.sum_append]
    unfold arrived
    have h2 : 0 < ((blocks.drop (i + 1)).map (·.1)).sum := by
      have h3 : blocks.drop (i + 1) = blocks[i + 1] :: blocks.drop (i + 1 + 1) := List.drop_eq_getElem_cons hi
      rw [h3, List.map_cons, List.sum_cons]
      have := hpos _ (List.getElem_mem hi)
      omega
    omega
  have hsplit : ∃ rest, shown = rest ++ [blocks.length - 1] ∧ ∀ i ∈ rest, i + 1 < blocks.length := by
    obtain ⟨a, c, e⟩ := List.append_of_mem hlast
    have hcn : c = [] := by
      cases c with
      | nil => rfl
      | cons x c =>
        rw [e, List.pairwise_append] at g2
        have h1 := (List.pairwise_cons.1 g2.2.1).1 x (by simp)
        have h2 := hin x (by rw [e]; simp)
        omega
    subst hcn
    refine ⟨a, e, ?_⟩
    intro i hi
    rw [e, List.pairwise_append] at g2
    have := g2.2.2 i hi _ (List.mem_singleton.2 rfl)
    omega
  obtain ⟨rest, e, hrest⟩ := hsplit
  rw [e] at g3
  rw [← List.forall₂_reverse_iff, List.reverse_append, List.reverse_singleton, List.singleton_append] at g3
  obtain ⟨l, ls, hl, hls, hrev⟩ := List.forall₂_cons_left_iff.1 g3
  have hlines : lines = ls.reverse ++ [l] := by
    have := congrArg List.reverse hrev
    simpa using this
  obtain ⟨b, hb, ht, percent, hp⟩ := hl
  have harr : arrived blocks (blocks.length - 1) = T := by
    unfold arrived
    rw [show blocks.length - 1 + 1 = blocks.length by omega, List.take_length, hsum]
  rw [harr] at hp
  have htext := C99_full_line filename T hT l.1 percent hp
  refine ⟨ls.reverse, l.2, ?_, ?_⟩
  · rw [g1, hlines, ← htext]
  · intro line hline
    have hline' : line ∈ ls := List.mem_reverse.1 hline
    obtain ⟨k, hk, rfl⟩ := List.getElem_of_mem hline'
    have hk' : k < rest.reverse.length := hls.length_eq ▸ hk
    obtain ⟨b', hb', -, percent', hp'⟩ := hls.get hk' hk
    have hi := hrest _ (List.mem_reverse.1 (List.getElem_mem hk'))
    have hlt := hsmall _ hi
    simp only [List.get_eq_getElem] at hp'
    obtain ⟨q1, q2⟩ := C99_percent filename _ T hT hlt.le _ _ hp'
    have hne100 : percent' ≠ 100 := fun h => absurd (q2.1 h) (by omega)
    constructor
    · rw [hp'.text_eq, if_neg hne100]
      have hdig : '\n' ∉ decimal percent' := by
        have : ∀ n : Fin 101, '\n' ∉ decimal n.1 := by decide +kernel
        exact this ⟨percent', by omega⟩
      have e1 : '\n' ∉ "] ".toList := by decide
      have e2 : '\n' ∉ "% ".toList := by decide
      simp only [List.mem_append, List.mem_cons, List.mem_replicate, List.not_mem_nil, not_or, hdig, hname, e1, e2]
      have c1 : '\n' ≠ '\r' := by decide
      have c2 : '\n' ≠ '[' := by decide
      have c3 : '\n' ≠ '#' := by decide
      have c4 : '\n' ≠ ' ' := by decide
      simp [c1, c2, c3, c4]
    · have := C99_same_width filename _ T _ _ hlt.le hT hp'
      rw [if_neg (by omega)] at this
      simpa using this

/-! ### Non-vacuity: 250 bytes in three blocks; the second comes too soon after the first to be shown -/

example : ClockRuns [(100, 1000, 1000), (100, 1000 + 1 / 4, 1000 + 1 / 4), (50, 1001, 1001)] := by
  unfold ClockRuns; decide +kernel

example : barDownload "de421.bsp".toList 250 [(100, 1000, 1000), (100, 1000 + 1 / 4, 1000 + 1 / 4), (50, 1001, 1001)] =
    some [("\r[#############                    ]  40% de421.bsp".toList, 1000),
      ("\r[#################################] 100% de421.bsp\n".toList, 1001)] := by decide +kernel

example : ShowsProgress "de421.bsp".toList 100 250 "\r[#############                    ]  40% de421.bsp".toList 40 :=
  ⟨by norm_num, by norm_num, by decide +kernel⟩

end Skyfield
