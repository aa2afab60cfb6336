import Verif.Model.OrbitFile
import Verif.Spec.OrbitFile
import Verif.Props.MinorPlanets

/-
C91, C76: the Minor Planet Center's orbit file.
-/
namespace Skyfield
open Real Spec

private theorem columnsOf_slice (line : List Char) (start stop : ℕ) :
    columnsOf line (start + 1) stop = (line.drop start).take (stop - start) := by
  unfold columnsOf
  obtain ⟨n, hn⟩ : ∃ n, n = stop - start := ⟨_, rfl⟩
  rw [show stop + 1 - (start + 1) = n by omega, ← hn]
  clear hn stop
  induction n generalizing start with
  | zero => simp
  | succ n ih =>
    rw [List.range'_succ, List.filterMap_cons, ih (start + 1)]
    simp only [Nat.add_sub_cancel]
    by_cases h : start < line.length
    · rw [List.getElem?_eq_getElem h]
      simp only
      rw [List.drop_eq_getElem_cons h, List.take_succ_cons]
    · rw [List.getElem?_eq_none (by omega)]
      simp only
      rw [List.drop_eq_nil_of_le (by omega), List.drop_eq_nil_of_le (by omega)]
      simp

private theorem blank_iff (c : Char) : isStripChar c = true ↔ Blank c := by
  simp [isStripChar, Blank, or_assoc]

private theorem drop_blanks {a l : List Char} (h : ∀ c ∈ a, Blank c) (hl : ∀ c, l.head? = some c → ¬ Blank c) :
    (a ++ l).dropWhile isStripChar = l := by
  induction a with
  | nil =>
    cases l with
    | nil => rfl
    | cons c l =>
      have := hl c rfl
      rw [← blank_iff] at this
      simp [this]
  | cons c a ih =>
    have := (blank_iff c).2 (h c (by simp))
    rw [List.cons_append, List.dropWhile_cons_of_pos this]
    exact ih fun c hc => h c (by simp [hc])

private theorem strip_stands {before text after : List Char} (h1 : ∀ c ∈ before, Blank c) (h2 : ∀ c ∈ after, Blank c)
    (h3 : ∀ c, text.head? = some c → ¬ Blank c) (h4 : ∀ c, text.getLast? = some c → ¬ Blank c) :
    pyStrip (before ++ text ++ after) = text := by
  unfold pyStrip
  cases text with
  | nil =>
    have : ((before ++ [] ++ after).dropWhile isStripChar) = [] := by
      have := drop_blanks (a := before ++ [] ++ after) (l := []) (by
        intro c hc
        simp only [List.append_nil, List.mem_append] at hc
        rcases hc with hc | hc
        · exact h1 c hc
        · exact h2 c hc) (by simp)
      simpa using this
    rw [this]
    rfl
  | cons c l =>
    rw [List.append_assoc, drop_blanks h1 (by intro d hd; exact h3 d (by simpa using hd)), List.reverse_append,
      drop_blanks (a := after.reverse) (by simpa using h2) (by
        intro d hd
        rw [List.head?_reverse] at hd
        exact h4 d hd), List.reverse_reverse]

/-- **C91**: every field of a line of the orbit file is the text that stands in the columns which the Minor Planet Center documents
for it, whatever the line. -/
theorem C91_mpcorb_fields (line : List Char) :
    mpcorbFields line = mpcorbFormat.map fun f => (f.1, pyStrip (columnsOf line f.2.1 f.2.2)) := by
  unfold mpcorbFields mpcorbColumns mpcorbFormat
  simp only [List.map_cons, List.map_nil, columnsOf_slice]

/-- **C91**: the text that stands alone in the columns of a field is what is read. -/
theorem C91_mpcorb_text (line : List Char) (name : String) (first last : ℕ) (text : List Char)
    (hf : (name, first, last) ∈ mpcorbFormat) (ht : StandsIn line first last text) :
    (mpcorbFields line).lookup name = some text := by
  obtain ⟨before, after, h, h1, h2, h3, h4⟩ := ht
  have hs := strip_stands h1 h2 h3 h4
  rw [← h] at hs
  rw [C91_mpcorb_fields]
  have hn : (mpcorbFormat.map (·.1)).Nodup := by decide
  revert hf hn
  generalize mpcorbFormat = l
  intro hf hn
  induction l with
  | nil => simp at hf
  | cons f l ih =>
    rw [List.map_cons, List.nodup_cons] at hn
    rw [List.map_cons]
    rcases List.mem_cons.1 hf with rfl | hf
    · rw [List.lookup_cons_self, hs]
    · have hne : name ≠ f.1 := fun e => hn.1 (by rw [← e]; exact List.mem_map.2 ⟨_, hf, rfl⟩)
      rw [List.lookup_cons, beq_false_of_ne hne]
      exact ih hf hn.2

/-- The fields do not overlap, and stand in the order of the line. -/
theorem C91_mpcorb_apart : mpcorbFormat.Pairwise fun f g => f.2.2 < g.2.1 := by decide

/-- **C76, C91**: a line of the orbit file, from its columns to the orbit's elements.  Where the documented columns hold the packed
epoch and the six elements, the orbit built from the line has, at that epoch, these elements. -/
theorem C76_mpcorb_line (toNumber : List Char → Option ℝ) (ts : Timescale ℝ) (gm : ℝ) (line : List Char)
    (epoch tM tw tOm ti te ta : List Char) (M w Om i e a : ℝ)
    (h0 : StandsIn line 21 25 epoch)
    (h1 : StandsIn line 27 35 tM) (n1 : toNumber tM = some M) (h2 : StandsIn line 38 46 tw) (n2 : toNumber tw = some w)
    (h3 : StandsIn line 49 57 tOm) (n3 : toNumber tOm = some Om) (h4 : StandsIn line 60 68 ti) (n4 : toNumber ti = some i)
    (h5 : StandsIn line 71 79 te) (n5 : toNumber te = some e) (h6 : StandsIn line 93 103 ta) (n6 : toNumber ta = some a) :
    mpcorbLineOrbit toNumber ts gm line = mpcorbOrbit ts { epochPacked := epoch, M, w, Om, i, e, a } gm ∧
    ∀ o, mpcorbLineOrbit toNumber ts gm line = some o → 0 < a → 1e-15 < e → e < 1 - 1e-15 → 0 < gm →
      (0 < deg2rad * i ∧ deg2rad * i < π) → (0 ≤ deg2rad * Om ∧ deg2rad * Om < 2 * π) → (0 ≤ deg2rad * w ∧ deg2rad * w < 2 * π) →
      o.elementsAtEpoch.majorAxis = some (149597870.7 * a) ∧ o.elementsAtEpoch.eccentricity = e ∧
      o.elementsAtEpoch.inclination = deg2rad * i ∧ o.elementsAtEpoch.ascendingNode = deg2rad * Om ∧
      o.elementsAtEpoch.periapsisArgument = deg2rad * w ∧ packedEpoch epoch = some o.epoch := by
  have r0 := C91_mpcorb_text line "epoch_packed" _ _ _ (by decide) h0
  have r1 := C91_mpcorb_text line "mean_anomaly_degrees" _ _ _ (by decide) h1
  have r2 := C91_mpcorb_text line "argument_of_perihelion_degrees" _ _ _ (by decide) h2
  have r3 := C91_mpcorb_text line "longitude_of_ascending_node_degrees" _ _ _ (by decide) h3
  have r4 := C91_mpcorb_text line "inclination_degrees" _ _ _ (by decide) h4
  have r5 := C91_mpcorb_text line "eccentricity" _ _ _ (by decide) h5
  have r6 := C91_mpcorb_text line "semimajor_axis_au" _ _ _ (by decide) h6
  have hr : mpcorbLineOrbit toNumber ts gm line = mpcorbOrbit ts { epochPacked := epoch, M, w, Om, i, e, a } gm := by
    unfold mpcorbLineOrbit mpcorbRow
    simp [r0, r1, r2, r3, r4, r5, r6, n1, n2, n3, n4, n5, n6]
  refine ⟨hr, ?_⟩
  intro o ho ha he0 he1 hgm hi hOm hw
  rw [hr] at ho
  obtain ⟨q1, q2, q3, q4, q5⟩ := C76_minor_planet_elements ho ha he0 he1 hgm hi hOm hw
  refine ⟨q1, q2, q3, q4, q5, ?_⟩
  obtain ⟨E, -, -, h, -, -⟩ := mpcorbOrbit_eq ho (by norm_num at he1; simp only; linarith)
  exact h

/-! ### Example: the line of Ceres -/

private theorem stands_of {line : List Char} {first last : ℕ} (before text after : List Char)
    (h : columnsOf line first last = before ++ text ++ after) (h1 : before.all isStripChar = true) (h2 : after.all isStripChar = true)
    (h3 : text.head?.all (fun c => !isStripChar c) = true) (h4 : text.getLast?.all (fun c => !isStripChar c) = true) :
    StandsIn line first last text := by
  refine ⟨before, after, h, ?_, ?_, ?_, ?_⟩
  · intro c hc; exact (blank_iff c).1 (List.all_eq_true.1 h1 c hc)
  · intro c hc; exact (blank_iff c).1 (List.all_eq_true.1 h2 c hc)
  · intro c hc hb; rw [hc] at h3; simp [(blank_iff c).2 hb] at h3
  · intro c hc hb; rw [hc] at h4; simp [(blank_iff c).2 hb] at h4

/-- A line of `MPCORB.DAT`. -/
def ceresLine : List Char :=
  ("00001    3.33  0.15 K239D  17.21569   73.47045   80.26013   10.58635  0.0789125  0.21411523   2.7671817" ++
   "  0 E2023-F87  7283 123 1801-2023 0.65 M-v 30k MPCLINUX   4000      (1) Ceres              20230321").toList

example : StandsIn ceresLine 21 25 "K239D".toList ∧
    StandsIn ceresLine 27 35 "17.21569".toList ∧
    StandsIn ceresLine 38 46 "73.47045".toList ∧
    StandsIn ceresLine 49 57 "80.26013".toList ∧
    StandsIn ceresLine 60 68 "10.58635".toList ∧
    StandsIn ceresLine 71 79 "0.0789125".toList ∧
    StandsIn ceresLine 93 103 "2.7671817".toList := by
  refine ⟨stands_of "".toList _ "".toList ?_ ?_ ?_ ?_ ?_, stands_of " ".toList _ "".toList ?_ ?_ ?_ ?_ ?_, stands_of " ".toList _ "".toList ?_ ?_ ?_ ?_ ?_, stands_of " ".toList _ "".toList ?_ ?_ ?_ ?_ ?_, stands_of " ".toList _ "".toList ?_ ?_ ?_ ?_ ?_, stands_of "".toList _ "".toList ?_ ?_ ?_ ?_ ?_, stands_of "  ".toList _ "".toList ?_ ?_ ?_ ?_ ?_⟩ <;> decide +kernel

end Skyfield
