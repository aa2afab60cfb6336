import Verif.Model.ConstellationNames
import Verif.Props.Constellation
import Mathlib.Algebra.Order.Field.Basic
import Mathlib.Data.List.Nodup

/-
C50: constellation names, and that every constellation is somewhere on the map.
-/
namespace Skyfield

private theorem names_length : loadConstellationNames.length = 88 ∧
    ∀ row ∈ loadConstellationNames, row.length = 2 ∧ ∀ text ∈ row, text ≠ [] := by decide +kernel

private theorem abbreviations_nodup : (loadConstellationNames.map fun row => row[0]?).Nodup := by decide +kernel

private theorem names_nodup : (loadConstellationNames.map fun row => row[1]?).Nodup := by decide +kernel

private theorem all_abbreviations : ∀ c ∈ constellationNames, some c.toList ∈ loadConstellationNames.map fun row => row[0]? := by
  decide +kernel

/-- **C50.** `load_constellation_names()` returns 88 pairs; no abbreviation and no name occurs twice, so that `dict()` made of the
pairs, or of the reversed pairs, loses none and each undoes the other. -/
theorem C50_names : loadConstellationNames.length = 88 ∧
    (∀ row ∈ loadConstellationNames, ∃ abbreviation name, row = [abbreviation, name] ∧ abbreviation ≠ [] ∧ name ≠ []) ∧
    ∀ a n a' n', [a, n] ∈ loadConstellationNames → [a', n'] ∈ loadConstellationNames → (a = a' ↔ n = n') := by
  obtain ⟨h1, h2⟩ := names_length
  refine ⟨h1, ?_, ?_⟩
  · intro row hrow
    obtain ⟨h3, h4⟩ := h2 row hrow
    match row, h3 with
    | [a, n], _ => exact ⟨a, n, rfl, h4 a (by simp), h4 n (by simp)⟩
  · intro a n a' n' h h'
    constructor
    · rintro rfl
      have := List.inj_on_of_nodup_map abbreviations_nodup h h' rfl
      simpa using this
    · rintro rfl
      have := List.inj_on_of_nodup_map names_nodup h h' rfl
      simpa using this

private theorem names_letters : ∀ row ∈ loadConstellationNames,
    (∀ a ∈ row[0]?, a.length = 3 ∧ ∀ c ∈ a, c ≠ ' ') ∧ ∀ n ∈ row[1]?, ∀ c, (n.head? = some c ∨ n.getLast? = some c) → c ≠ ' ' := by
  have h : ∀ row ∈ loadConstellationNames, (∀ a ∈ row[0]?, a.length = 3 ∧ ∀ c ∈ a, c ≠ ' ') ∧
      ∀ n ∈ row[1]?, n.head? ≠ some ' ' ∧ n.getLast? ≠ some ' ' := by decide +kernel
  refine fun row hrow => ⟨(h row hrow).1, fun n hn c hc => ?_⟩
  rintro rfl
  rcases hc with hc | hc
  · exact ((h row hrow).2 n hn).1 hc
  · exact ((h row hrow).2 n hn).2 hc

/-- **C50.** An abbreviation has three letters; a name has no blank at either end. -/
theorem C50_names_trimmed (a n : List Char) (h : [a, n] ∈ loadConstellationNames) :
    a.length = 3 ∧ ' ' ∉ a ∧ n.head? ≠ some ' ' ∧ n.getLast? ≠ some ' ' := by
  obtain ⟨h1, h2⟩ := names_letters _ h
  obtain ⟨h3, h4⟩ := h1 a rfl
  exact ⟨h3, fun hb => h4 _ hb rfl, fun hb => h2 n rfl _ (.inl hb) rfl, fun hb => h2 n rfl _ (.inr hb) rfl⟩

variable {K : Type*} [Field K] [LinearOrder K] [IsStrictOrderedRing K]

/-- **C50.** Whatever `constellation_at` answers has a full name, and only one. -/
theorem C50_named (ra dec : K) :
    ∃ c name, constellationAt bundledConstellations ra dec = some c ∧ [c.toList, name] ∈ loadConstellationNames ∧
      ∀ other, [c.toList, other] ∈ loadConstellationNames → other = name := by
  obtain ⟨c, hc, hm⟩ := C50_total ra dec
  obtain ⟨row, h1, h2⟩ := List.mem_map.1 (all_abbreviations c hm)
  obtain ⟨a, n, rfl, -, -⟩ := C50_names.2.1 row h1
  have : a = c.toList := by simpa using h2
  subst this
  exact ⟨c, n, hc, h1, fun other ho => ((C50_names.2.2 _ _ _ _ ho h1).1 rfl)⟩

/-! ### Every constellation is somewhere -/

/-- Boundary number `i` of an increasing list bounds its cell from above, and number `j` another from below. -/
private theorem point_at (l : List K) (h : l.Pairwise (· < ·)) (i : ℕ) (hi : i < l.length) :
    (∀ n b, l[n]? = some b → (b < l[i] ↔ n < i)) ∧ ∀ n b, l[n]? = some b → (b ≤ l[i] ↔ n < i + 1) := by
  have hmono : ∀ (n m : ℕ) (a b : K), l[n]? = some a → l[m]? = some b → n < m → a < b := by
    intro n m a b ha hb hnm
    obtain ⟨hn, rfl⟩ := List.getElem?_eq_some_iff.1 ha
    obtain ⟨hm, rfl⟩ := List.getElem?_eq_some_iff.1 hb
    exact List.pairwise_iff_getElem.1 h n m hn hm hnm
  have e : l[i]? = some l[i] := List.getElem?_eq_getElem hi
  have tri : ∀ (n : ℕ) (b : K), l[n]? = some b → (n < i → b < l[i]) ∧ (n = i → b = l[i]) ∧ (i < n → l[i] < b) := by
    intro n b hb
    refine ⟨fun h' => hmono _ _ _ _ hb e h', fun h' => ?_, fun h' => hmono _ _ _ _ e hb h'⟩
    subst h'
    rw [e] at hb
    exact (Option.some.inj hb).symm
  constructor
  · intro n b hb
    obtain ⟨t1, t2, t3⟩ := tri n b hb
    refine ⟨fun hlt => ?_, t1⟩
    by_contra hni
    rcases (not_lt.1 hni).eq_or_lt with h' | h'
    · exact absurd hlt (by rw [t2 h'.symm]; exact lt_irrefl _)
    · exact absurd (t3 h') (not_lt.2 hlt.le)
  · intro n b hb
    obtain ⟨t1, t2, t3⟩ := tri n b hb
    refine ⟨fun hle => ?_, fun hn => ?_⟩
    · by_contra hni
      exact absurd (t3 (by omega)) (not_lt.2 hle)
    · rcases Nat.lt_or_ge n i with h' | h'
      · exact (t1 h').le
      · exact (t2 (by omega)).le

/-- For each constellation, a boundary of right ascension and one of declination that meet in a corner of it. -/
def constellationCorners : List (ℕ × ℕ) :=
  [(2, 115), (103, 38), (132, 1), (183, 66), (219, 52), (165, 5), (14, 92), (66, 129), (130, 90), (69, 44), (82, 77),
   (129, 130), (46, 28), (35, 163), (195, 49), (99, 3), (3, 155), (116, 7), (222, 164), (0, 52), (85, 1), (132, 4),
   (89, 88), (58, 35), (121, 100), (173, 33), (147, 125), (114, 54), (120, 7), (120, 54), (188, 128), (199, 80),
   (49, 4), (177, 157), (207, 80), (10, 12), (14, 37), (79, 93), (223, 15), (156, 83), (21, 5), (114, 43), (0, 1),
   (214, 3), (109, 121), (227, 141), (112, 73), (55, 50), (143, 47), (136, 17), (86, 139), (183, 124), (38, 0),
   (200, 33), (65, 68), (116, 3), (149, 10), (0, 0), (164, 46), (59, 68), (175, 3), (217, 79), (29, 133), (0, 12),
   (67, 7), (214, 40), (0, 72), (67, 26), (94, 41), (33, 5), (0, 37), (161, 33), (178, 63), (167, 63), (104, 68),
   (194, 104), (186, 33), (34, 76), (175, 15), (142, 4), (14, 123), (6, 2), (115, 131), (134, 184), (98, 16),
   (127, 57), (76, 3), (187, 111)]

private theorem corners_cover : constellationNames.length = 88 ∧ constellationRa.length = 235 ∧ constellationDec.length = 199 ∧
    ∀ k < 88, ∃ p, constellationCorners[k]? = some p ∧ p.1 < 235 ∧ p.2 < 199 ∧
      (match constellationColumns[p.2 + 1]? with | none => none | some col => rleGet col p.1) = some k := by decide +kernel

/-- **C50.** Each of the 88 constellations is the answer for some right ascension and declination. -/
theorem C50_all_reached (c : String) (hc : c ∈ constellationNames) :
    ∃ ra dec : K, 0 ≤ ra ∧ ra < 24 ∧ -90 ≤ dec ∧ dec ≤ 90 ∧ constellationAt bundledConstellations ra dec = some c := by
  obtain ⟨k, hk, rfl⟩ := List.getElem_of_mem hc
  obtain ⟨h1, h3, h4, h5⟩ := corners_cover
  obtain ⟨p, -, hp1, hp2, hcell⟩ := h5 k (by omega)
  obtain ⟨s1, s2, s3, s4⟩ := C50_bundled_sorted (K := K)
  have l1 : (bundledConstellations (K := K)).sortedRa.length = 235 := by simp [bundledConstellations, h3]
  have l2 : (bundledConstellations (K := K)).sortedDec.length = 199 := by simp [bundledConstellations, h4]
  obtain ⟨b1, b2⟩ := s3 _ (List.getElem_mem (by omega : p.1 < (bundledConstellations (K := K)).sortedRa.length))
  obtain ⟨b3, b4⟩ := s4 _ (List.getElem_mem (by omega : p.2 < (bundledConstellations (K := K)).sortedDec.length))
  refine ⟨_, _, b1.le, b2, b3.le, b4.le, (C50_lookup _ (s1.imp fun h => h.le) (s2.imp fun h => h.le) _ _ _).2
    ⟨p.1, p.2 + 1, k, ⟨by omega, by omega, (point_at _ s1 p.1 _).1, (point_at _ s2 p.2 _).2⟩, hcell, ?_⟩⟩
  exact List.getElem?_eq_getElem (l := constellationNames) hk

/-- Non-vacuity. -/
example : ["CVn".toList, "Canes Venatici".toList] ∈ loadConstellationNames := by decide +kernel

example : "Ori" ∈ constellationNames := by decide +kernel

end Skyfield
