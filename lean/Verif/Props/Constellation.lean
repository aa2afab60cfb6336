import Verif.Model.Constellation
import Mathlib.Tactic.Linarith
import Mathlib.Tactic.NormNum

/-
C50: constellation lookup.
-/
namespace Skyfield
variable {K : Type*} [Field K] [LinearOrder K]

/-- Specification: cell `(i, j)` of the grid drawn by the boundaries contains the point: the first `i` boundaries of right ascension lie
below it and no other does; the first `j` boundaries of declination lie at or below it and no other does. -/
structure InCell (ras decs : List K) (i j : ℕ) (ra dec : K) : Prop where
  i_le : i ≤ ras.length
  j_le : j ≤ decs.length
  left : ∀ n b, ras[n]? = some b → (b < ra ↔ n < i)
  low : ∀ n b, decs[n]? = some b → (b ≤ dec ↔ n < j)

theorem filter_prefix {α : Type*} (l : List α) (p : α → Bool) (h : l.Pairwise fun a b => p b → p a) :
    ∀ (n : ℕ) (b : α), l[n]? = some b → (p b ↔ n < (l.filter p).length) := by
  induction l with
  | nil => intro n b hb; simp at hb
  | cons a l ih =>
    rw [List.pairwise_cons] at h
    intro n b hb
    by_cases ha : p a
    · rw [List.filter_cons_of_pos ha, List.length_cons]
      cases n with
      | zero => simp at hb; subst hb; simp [ha]
      | succ n =>
        rw [List.getElem?_cons_succ] at hb
        rw [ih h.2 n b hb]; omega
    · have hnil : l.filter p = [] := by
        rw [List.filter_eq_nil_iff]
        intro x hx hpx
        exact ha (h.1 x hx hpx)
      rw [List.filter_cons_of_neg ha, hnil, List.length_nil]
      have : b ∈ a :: l := List.mem_of_getElem? hb
      rcases List.mem_cons.1 this with rfl | hm
      · simp [ha]
      · constructor
        · intro hb; exact absurd (h.1 b hm hb) ha
        · omega

theorem prefix_unique {α : Type*} (l : List α) (q : α → Prop) (i i' : ℕ) (hi : i ≤ l.length) (hi' : i' ≤ l.length)
    (h : ∀ n b, l[n]? = some b → (q b ↔ n < i)) (h' : ∀ n b, l[n]? = some b → (q b ↔ n < i')) : i = i' := by
  rcases Nat.lt_trichotomy i i' with hlt | rfl | hlt
  · have e : l[i]? = some l[i] := List.getElem?_eq_getElem (by omega)
    have := (h i _ e).1 ((h' i _ e).2 hlt); omega
  · rfl
  · have e : l[i']? = some l[i'] := List.getElem?_eq_getElem (by omega)
    have := (h' i' _ e).1 ((h i' _ e).2 hlt); omega

/-- **C50.** For sorted boundaries, the two binary searches find the one cell that contains the point. -/
theorem C50_cell (ras decs : List K) (hr : ras.Pairwise (· ≤ ·)) (hd : decs.Pairwise (· ≤ ·)) (ra dec : K) (i j : ℕ) :
    InCell ras decs i j ra dec ↔ i = searchsortedLeft ras ra ∧ j = searchsortedRight decs dec := by
  have e : InCell ras decs (searchsortedLeft ras ra) (searchsortedRight decs dec) ra dec := by
    refine ⟨List.length_filter_le _ _, List.length_filter_le _ _, ?_, ?_⟩
    · intro n b hb
      have := filter_prefix ras (fun b => decide (b < ra)) (hr.imp fun hab hb => by simp at hb ⊢; exact lt_of_le_of_lt hab hb) n b hb
      simpa [searchsortedLeft] using this
    · intro n b hb
      have := filter_prefix decs (fun b => decide (b ≤ dec)) (hd.imp fun hab hb => by simp at hb ⊢; exact le_trans hab hb) n b hb
      simpa [searchsortedRight] using this
  constructor
  · intro h
    exact ⟨prefix_unique ras (· < ra) _ _ h.i_le e.i_le h.left e.left, prefix_unique decs (· ≤ dec) _ _ h.j_le e.j_le h.low e.low⟩
  · rintro ⟨rfl, rfl⟩
    exact e

/-- **C50.** The name returned is the one the table has for the cell that contains the point. -/
theorem C50_lookup (m : ConstellationMap K) (hr : m.sortedRa.Pairwise (· ≤ ·)) (hd : m.sortedDec.Pairwise (· ≤ ·)) (ra dec : K)
    (c : String) : constellationAt m ra dec = some c ↔
      ∃ i j k, InCell m.sortedRa m.sortedDec i j ra dec ∧ m.cell i j = some k ∧ m.names[k]? = some c := by
  unfold constellationAt
  constructor
  · intro h
    cases hk : m.cell (searchsortedLeft m.sortedRa ra) (searchsortedRight m.sortedDec dec) with
    | none => simp [hk] at h
    | some k =>
      simp only [hk] at h
      exact ⟨_, _, k, (C50_cell _ _ hr hd _ _ _ _).2 ⟨rfl, rfl⟩, hk, h⟩
  · rintro ⟨i, j, k, h1, h2, h3⟩
    obtain ⟨rfl, rfl⟩ := (C50_cell _ _ hr hd _ _ _ _).1 h1
    simp only [h2, h3]

/-- **C50.** Two points that no boundary separates are in the same constellation (or both fail). -/
theorem C50_local (m : ConstellationMap K) (ra dec ra' dec' : K) (h1 : ∀ b ∈ m.sortedRa, b < ra ↔ b < ra')
    (h2 : ∀ b ∈ m.sortedDec, b ≤ dec ↔ b ≤ dec') : constellationAt m ra dec = constellationAt m ra' dec' := by
  have e1 : searchsortedLeft m.sortedRa ra = searchsortedLeft m.sortedRa ra' := by
    unfold searchsortedLeft
    congr 1
    exact List.filter_congr fun b hb => by simpa using h1 b hb
  have e2 : searchsortedRight m.sortedDec dec = searchsortedRight m.sortedDec dec' := by
    unfold searchsortedRight
    congr 1
    exact List.filter_congr fun b hb => by simpa using h2 b hb
  simp only [constellationAt, e1, e2]

/-! ### The table that comes with Skyfield -/

theorem bundledRa_sorted : constellationRa.Pairwise (· < ·) := by decide +kernel
theorem bundledDec_sorted : constellationDec.Pairwise (· < ·) := by decide +kernel

variable [IsStrictOrderedRing K]

/-- **C50.** The boundaries of the bundled table are strictly increasing, within 0–24 hours and ±90 degrees. -/
theorem C50_bundled_sorted : (bundledConstellations (K := K)).sortedRa.Pairwise (· < ·) ∧ (bundledConstellations (K := K)).sortedDec.Pairwise (· < ·) ∧
    (∀ b ∈ (bundledConstellations (K := K)).sortedRa, 0 < b ∧ b < 24) ∧ ∀ b ∈ (bundledConstellations (K := K)).sortedDec, -90 < b ∧ b < 90 := by
  refine ⟨?_, ?_, ?_, ?_⟩
  · refine List.Pairwise.map _ ?_ bundledRa_sorted
    intro a b hab
    have : (a : K) < b := by exact_mod_cast hab
    exact div_lt_div_of_pos_right this (by norm_num)
  · refine List.Pairwise.map _ ?_ bundledDec_sorted
    intro a b hab
    have : (a : K) < b := by exact_mod_cast hab
    exact div_lt_div_of_pos_right this (by norm_num)
  · intro b hb
    obtain ⟨r, hr, rfl⟩ := List.mem_map.1 hb
    have h : ∀ r ∈ constellationRa, 0 < r ∧ r < 86400 := by decide +kernel
    obtain ⟨h0, h1⟩ := h r hr
    have h0 : (0 : K) < r := by exact_mod_cast h0
    have h1 : (r : K) < 86400 := by exact_mod_cast h1
    constructor
    · positivity
    · rw [div_lt_iff₀ (by norm_num)]; linarith
  · intro b hb
    obtain ⟨r, hr, rfl⟩ := List.mem_map.1 hb
    have h : ∀ r ∈ constellationDec, -5400 < r ∧ r < 5400 := by decide +kernel
    obtain ⟨h0, h1⟩ := h r hr
    have h0 : (-5400 : K) < r := by exact_mod_cast h0
    have h1 : (r : K) < 5400 := by exact_mod_cast h1
    constructor
    · rw [lt_div_iff₀ (by norm_num)]; linarith
    · rw [div_lt_iff₀ (by norm_num)]; linarith

/-- Total number of entries of a run-length coded column. -/
def rleLength (col : List (ℕ × ℕ)) : ℕ := (col.map Prod.fst).sum

theorem rleGet_total (col : List (ℕ × ℕ)) (i : ℕ) (h : i < rleLength col) : ∃ k, rleGet col i = some k ∧ k ∈ col.map Prod.snd := by
  induction col generalizing i with
  | nil => simp [rleLength] at h
  | cons r col ih =>
    obtain ⟨n, v⟩ := r
    by_cases hi : i < n
    · exact ⟨v, by rw [rleGet, if_pos hi], by simp⟩
    · have hl : rleLength ((n, v) :: col) = n + rleLength col := by simp [rleLength]
      obtain ⟨k, h1, h2⟩ := ih (i - n) (by omega)
      exact ⟨k, by rw [rleGet, if_neg hi, h1], by simp at h2 ⊢; right; exact h2⟩

/-- **C50.** The bundled table has a name for every point: no coordinates make the lookup fail. -/
theorem C50_total (ra dec : K) : ∃ c, constellationAt bundledConstellations ra dec = some c ∧ c ∈ constellationNames := by
  have hi : searchsortedLeft (bundledConstellations (K := K)).sortedRa ra ≤ 235 := by
    refine (List.length_filter_le _ _).trans ?_
    simp only [bundledConstellations, List.length_map]
    decide +kernel
  have hj : searchsortedRight (bundledConstellations (K := K)).sortedDec dec ≤ 199 := by
    refine (List.length_filter_le _ _).trans ?_
    simp only [bundledConstellations, List.length_map]
    decide +kernel
  unfold constellationAt
  generalize searchsortedLeft (bundledConstellations (K := K)).sortedRa ra = i at *
  generalize searchsortedRight (bundledConstellations (K := K)).sortedDec dec = j at *
  have hcols : ∀ col ∈ constellationColumns, rleLength col = 236 ∧ ∀ k ∈ col.map Prod.snd, k < 88 := by decide +kernel
  have hlen : constellationColumns.length = 202 := by decide +kernel
  have hj' : j < constellationColumns.length := by omega
  have hnames : constellationNames.length = 88 := by decide +kernel
  obtain ⟨h1, h2⟩ := hcols constellationColumns[j] (List.getElem_mem hj')
  obtain ⟨k, h3, h4⟩ := rleGet_total constellationColumns[j] i (by omega)
  have hk := h2 k h4
  have hcell : (bundledConstellations (K := K)).cell i j = some k := by
    simp only [bundledConstellations, List.getElem?_eq_getElem hj', h3]
  simp only [hcell]
  refine ⟨constellationNames[k]'(by omega), ?_, List.getElem_mem _⟩
  exact List.getElem?_eq_getElem (l := constellationNames) (by omega)

/-- **C50.** Whatever its right ascension, a point north of +88° (B1875) is in Ursa Minor, and one south of −85° in Octans. -/
theorem C50_poles (ra dec : K) : (88 ≤ dec → constellationAt bundledConstellations ra dec = some "UMi") ∧
    (dec < -85 → constellationAt bundledConstellations ra dec = some "Oct") := by
  have hi : searchsortedLeft (bundledConstellations (K := K)).sortedRa ra < 236 := by
    refine lt_of_le_of_lt (List.length_filter_le _ _) ?_
    simp only [bundledConstellations, List.length_map]
    decide +kernel
  constructor
  · intro h
    have hj : searchsortedRight (bundledConstellations (K := K)).sortedDec dec = 199 := by
      unfold searchsortedRight
      rw [List.filter_eq_self.2]
      · simp only [bundledConstellations, List.length_map]; decide +kernel
      · intro b hb
        obtain ⟨r, hr, rfl⟩ := List.mem_map.1 hb
        have h0 : ∀ r ∈ constellationDec, r ≤ 5280 := by decide +kernel
        have h1 : (r : K) ≤ 5280 := by exact_mod_cast h0 r hr
        simp only [decide_eq_true_eq]
        rw [div_le_iff₀ (by norm_num)]; linarith
    unfold constellationAt
    rw [hj]
    generalize searchsortedLeft (bundledConstellations (K := K)).sortedRa ra = i at *
    have hcol : constellationColumns[199]? = some [(236, 83)] := by decide +kernel
    simp only [bundledConstellations, hcol, rleGet, if_pos hi]
    decide +kernel
  · intro h
    have hj : searchsortedRight (bundledConstellations (K := K)).sortedDec dec = 0 := by
      unfold searchsortedRight
      rw [List.length_eq_zero_iff, List.filter_eq_nil_iff]
      intro b hb
      obtain ⟨r, hr, rfl⟩ := List.mem_map.1 hb
      have h0 : ∀ r ∈ constellationDec, -5100 ≤ r := by decide +kernel
      have h1 : (-5100 : K) ≤ (r : K) := by exact_mod_cast h0 r hr
      simp only [decide_eq_true_eq, not_le]
      rw [lt_div_iff₀ (by norm_num)]; linarith
    unfold constellationAt
    rw [hj]
    generalize searchsortedLeft (bundledConstellations (K := K)).sortedRa ra = i at *
    have hcol : constellationColumns[0]? = some [(236, 57)] := by decide +kernel
    simp only [bundledConstellations, hcol, rleGet, if_pos hi]
    decide +kernel

/-- Two points of the table (B1875): in Pisces and in Orion. -/
example : constellationAt (bundledConstellations (K := ℚ)) (1 / 100) 1 = some "Psc" ∧
    constellationAt (bundledConstellations (K := ℚ)) (56 / 10) (-545 / 100) = some "Ori" := by
  decide +kernel

end Skyfield
