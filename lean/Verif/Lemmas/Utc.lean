import Verif.Model.Utc
import Verif.Spec.Utc
import Verif.Lemmas.Calendar
import Mathlib.Tactic.Linarith
import Mathlib.Tactic.Ring
import Mathlib.Tactic.FieldSimp
import Mathlib.Tactic.NormNum
import Mathlib.Tactic.Push
import Mathlib.Data.List.Range

namespace Skyfield
open Spec

set_option linter.unusedSectionVars false

variable {K : Type*} [Field K] [LinearOrder K] [IsStrictOrderedRing K] [FloorRing K]

omit [IsStrictOrderedRing K] in
theorem pyDivmod_one (a : K) : pyDivmod a 1 = ((⌊a⌋ : K), a - ⌊a⌋) := by
  simp [pyDivmod, pyFloorDiv, pyMod]

theorem astypeInt_intCast (n : ℤ) : astypeInt ((n : ℤ) : K) = n := by
  simp [astypeInt]

theorem astypeInt_of_nonneg {a : K} (h : 0 ≤ a) : astypeInt a = ⌊a⌋ := by
  simp [astypeInt, h]

theorem julianDayFrac_intCast (y m d : ℤ) (o : Option ℤ) :
    julianDayFrac y m ((d : ℤ) : K) o = ((julianDay y m d o : ℤ) : K) := by
  cases o with
  | none => simp only [julianDayFrac, julianDay, cutoffMask]; push_cast; ring
  | some c =>
    simp only [julianDayFrac, julianDay, cutoffMask]
    generalize 1461 * (y + (m - 1) / 12 + 4716 - if (m - 1) % 12 + 1 ≤ 2 then 1 else 0) / 4 = A
    generalize (153 * (((m - 1) % 12 + 1 + 9) % 12) + 2) / 5 = B
    generalize (38 - (y + (m - 1) / 12 + 4716 - (if (m - 1) % 12 + 1 ≤ 2 then 1 else 0) + 184) / 100 * 3 / 4) = C
    have : ((A : K) + (d : K) - 1402 + (B : K) ≥ (c : K)) ↔ (A + d - 1402 + B ≥ c) := by
      rw [ge_iff_le, ge_iff_le]
      have : (A : K) + (d : K) - 1402 + (B : K) = ((A + d - 1402 + B : ℤ) : K) := by push_cast; ring
      rw [this]; exact Int.cast_le
    by_cases h : A + d - 1402 + B ≥ c
    · rw [if_pos h, if_pos (this.2 h)]; push_cast; ring
    · rw [if_neg h, if_neg (fun h' => h (this.1 h'))]; push_cast; ring

/-- Midnight that starts day `n`, in seconds since JD 0. -/
def midnight (n : ℤ) : ℤ := 86400 * n - 43200

/-- The flattened UTC table, as points. -/
def utcPts (K : Type*) [Field K] : ℤ → List ℤ → List (K × K)
  | _, [] => []
  | b, n :: L => ((midnight n - 1 : ℤ), (b : ℤ)) :: ((midnight n : ℤ), (b + 1 : ℤ)) :: utcPts K (b + 1) L

/-- The flattened TAI table, as points. -/
def taiPts (K : Type*) [Field K] : ℤ → List ℤ → List (K × K)
  | _, [] => []
  | b, n :: L => ((midnight n - 1 + b : ℤ), (b : ℤ)) ::
      ((midnight n + b + 1 : ℤ), (b + 1 : ℤ)) :: taiPts K (b + 1) L

theorem offs_cons (b : ℤ) (n : ℕ) :
    ((List.range (n + 1)).map fun i : ℕ => ((b + 1 + i : ℤ) : K)) =
      ((b + 1 : ℤ) : K) :: ((List.range n).map fun i : ℕ => ((b + 1 + 1 + i : ℤ) : K)) := by
  rw [List.range_succ_eq_map]
  simp only [List.map_cons, List.map_map, List.cons.injEq]
  refine ⟨by simp, ?_⟩
  apply List.map_congr_left
  intro i _
  simp only [Function.comp]
  push_cast; ring

theorem zip_utc (L : List ℤ) (b : ℤ) :
    ((L.map fun n : ℤ => (n : K) - 1/2).flatMap fun d => [d * (dayS : K) + -1, d * dayS + 0]).zip
      ((((List.range L.length).map fun i : ℕ => ((b + 1 + i : ℤ) : K))).flatMap
        fun o => [o + -1, o + 0]) = utcPts K b L := by
  induction L generalizing b with
  | nil => rfl
  | cons n L ih =>
    rw [List.length_cons, offs_cons]
    simp only [List.map_cons, List.flatMap_cons, List.cons_append, List.nil_append,
      List.zip_cons_cons, utcPts, ih (b + 1)]
    congr 1
    · simp only [midnight, dayS, Prod.mk.injEq]; push_cast; constructor <;> ring
    · congr 1
      simp only [midnight, dayS, Prod.mk.injEq]; push_cast; constructor <;> ring

theorem zip_tai (L : List ℤ) (b : ℤ) :
    (List.zipWith (· + ·)
      ((L.map fun n : ℤ => (n : K) - 1/2).flatMap fun d => [d * (dayS : K) + -1, d * dayS + 0])
      ((((List.range L.length).map fun i : ℕ => ((b + 1 + i : ℤ) : K))).flatMap
        fun o => [o + -1, o + 0])).zip
      ((((List.range L.length).map fun i : ℕ => ((b + 1 + i : ℤ) : K))).flatMap
        fun o => [o + -1, o + 0]) = taiPts K b L := by
  induction L generalizing b with
  | nil => rfl
  | cons n L ih =>
    rw [List.length_cons, offs_cons]
    simp only [List.map_cons, List.flatMap_cons, List.cons_append, List.nil_append,
      List.zipWith_cons_cons, List.zip_cons_cons, taiPts, ih (b + 1)]
    congr 1
    · simp only [midnight, dayS, Prod.mk.injEq]; push_cast; constructor <;> ring
    · congr 1
      simp only [midnight, dayS, Prod.mk.injEq]; push_cast; constructor <;> ring

/-- Number of days of `L` whose midnight is at or before second `u` of UTC. -/
def cnt (L : List ℤ) (u : ℤ) : ℤ := (L.filter (fun n => midnight n ≤ u)).length

theorem cnt_cons (n : ℤ) (L : List ℤ) (u : ℤ) :
    cnt (n :: L) u = (if midnight n ≤ u then 1 else 0) + cnt L u := by
  unfold cnt
  rw [List.filter_cons]
  split
  · simp_all; omega
  · simp_all

theorem cnt_eq_zero {L : List ℤ} {u : ℤ} (h : ∀ n ∈ L, u < midnight n) : cnt L u = 0 := by
  unfold cnt
  rw [List.filter_eq_nil_iff.2]
  · rfl
  · intro a ha; have := h a ha; simp; omega

theorem cnt_nonneg (L : List ℤ) (u : ℤ) : 0 ≤ cnt L u := by unfold cnt; omega

theorem cnt_pos_exists {L : List ℤ} {u : ℤ} (h : 0 < cnt L u) : ∃ n ∈ L, midnight n ≤ u := by
  by_contra hc
  push Not at hc
  have := cnt_eq_zero hc
  omega

/-- Lookup in the UTC table at an integer second. -/
theorem interpGo_utc (L : List ℤ) (b x x0 : ℤ) (hx0 : x0 ≤ x)
    (hs : L.Pairwise (· < ·)) :
    interpGo ((x0 : K), ((b : ℤ) : K)) (utcPts K b L) (x : K) = ((b + cnt L x : ℤ) : K) := by
  induction L generalizing b x0 with
  | nil => simp [utcPts, interpGo, cnt]
  | cons n L ih =>
    obtain ⟨hn, hs⟩ := List.pairwise_cons.1 hs
    have hgt : ∀ m ∈ L, midnight n + 86400 ≤ midnight m := by
      intro m hm; have := hn m hm; unfold midnight; omega
    simp only [utcPts, interpGo]
    by_cases h1 : x < midnight n - 1
    · have : ((x : K)) < ((midnight n - 1 : ℤ) : K) := Int.cast_lt.2 h1
      have h0 : cnt (n :: L) x = 0 := by
        rw [cnt_cons, if_neg (by omega), cnt_eq_zero (fun m hm => by have := hgt m hm; omega)]; rfl
      rw [if_pos this, h0]
      split <;> simp
    · have : ¬ ((x : K)) < ((midnight n - 1 : ℤ) : K) := fun h => h1 (Int.cast_lt.1 h)
      rw [if_neg this]
      by_cases h2 : x < midnight n
      · have : ((x : K)) < ((midnight n : ℤ) : K) := Int.cast_lt.2 h2
        rw [if_pos this, if_pos (Int.cast_le.2 (by omega)), cnt_cons, if_neg (by omega),
          cnt_eq_zero (fun m hm => by have := hgt m hm; omega)]
        simp
      · have : ¬ ((x : K)) < ((midnight n : ℤ) : K) := fun h => h2 (Int.cast_lt.1 h)
        rw [if_neg this, ih (b + 1) (midnight n) (by omega) hs, cnt_cons, if_pos (by omega)]
        congr 1; ring

/-- Lookup in the TAI table at an integer second `x`.  Either the value is an integer `b + k`, and
exactly `k` midnights precede UTC second `x - (b+k)`; or it is a half-integer, and `x` is a leap
second. -/
theorem interpGo_tai (L : List ℤ) (b x x0 : ℤ) (hx0 : x0 ≤ x) (hs : L.Pairwise (· < ·)) :
    (∃ k, interpGo ((x0 : K), ((b : ℤ) : K)) (taiPts K b L) (x : K) = ((b + k : ℤ) : K) ∧
      cnt L (x - (b + k)) = k ∧ 0 ≤ k) ∨
    (∃ k, interpGo ((x0 : K), ((b : ℤ) : K)) (taiPts K b L) (x : K) = ((b + k : ℤ) : K) + 1/2 ∧
      cnt L (x - (b + k) - 1) = k ∧ 0 ≤ k ∧ ∃ n ∈ L, midnight n = x - (b + k)) := by
  induction L generalizing b x0 with
  | nil => left; exact ⟨0, by simp [taiPts, interpGo], by simp [cnt], le_refl _⟩
  | cons n L ih =>
    obtain ⟨hn, hs⟩ := List.pairwise_cons.1 hs
    have hgt : ∀ m ∈ L, midnight n + 86400 ≤ midnight m := by
      intro m hm; have := hn m hm; unfold midnight; omega
    simp only [taiPts, interpGo]
    by_cases h1 : x < midnight n - 1 + b
    · have : ((x : K)) < ((midnight n - 1 + b : ℤ) : K) := Int.cast_lt.2 h1
      left
      refine ⟨0, ?_, ?_, le_refl _⟩
      · rw [if_pos this]; split <;> simp
      · rw [cnt_cons, if_neg (by omega), cnt_eq_zero (fun m hm => by have := hgt m hm; omega)]; rfl
    · have : ¬ ((x : K)) < ((midnight n - 1 + b : ℤ) : K) := fun h => h1 (Int.cast_lt.1 h)
      rw [if_neg this]
      by_cases h2 : x < midnight n + b + 1
      · have : ((x : K)) < ((midnight n + b + 1 : ℤ) : K) := Int.cast_lt.2 h2
        rw [if_pos this]
        by_cases h3 : x = midnight n + b
        · right
          refine ⟨0, ?_, ?_, le_refl _, n, List.mem_cons_self, by omega⟩
          · rw [if_neg (fun h => by have := Int.cast_le.1 h; omega)]
            subst h3
            push_cast
            field_simp
            ring
          · rw [cnt_cons, if_neg (by omega), cnt_eq_zero (fun m hm => by have := hgt m hm; omega)]; rfl
        · left
          refine ⟨0, ?_, ?_, le_refl _⟩
          · rw [if_pos (Int.cast_le.2 (by omega))]; simp
          · rw [cnt_cons, if_neg (by omega), cnt_eq_zero (fun m hm => by have := hgt m hm; omega)]; rfl
      · have : ¬ ((x : K)) < ((midnight n + b + 1 : ℤ) : K) := fun h => h2 (Int.cast_lt.1 h)
        rw [if_neg this]
        rcases ih (b + 1) (midnight n + b + 1) (by omega) hs with ⟨k, h, hc, hk⟩ | ⟨k, h, hc, hk, m, hm, hmx⟩
        · left
          refine ⟨k + 1, ?_, ?_, by omega⟩
          · rw [h]; congr 1; ring
          · rw [show x - (b + (k + 1)) = x - (b + 1 + k) by ring, cnt_cons, hc, if_pos]
            · ring
            · rcases Int.lt_or_le 0 k with h | h
              · obtain ⟨m, hm, hmx⟩ := cnt_pos_exists (by omega : 0 < cnt L (x - (b + 1 + k)))
                have := hgt m hm; omega
              · omega
        · right
          refine ⟨k + 1, ?_, ?_, by omega, m, List.mem_cons_of_mem _ hm, by omega⟩
          · rw [h]; congr 2; ring
          · rw [show x - (b + (k + 1)) - 1 = x - (b + 1 + k) - 1 by ring, cnt_cons, hc, if_pos]
            · ring
            · have := hgt m hm; omega

variable {ts : Timescale K} {L : List ℤ} {b : ℤ}

theorem interpGo_congr_first (p p' : K × K) (q : K × K) (rest : List (K × K)) (x : K)
    (h : q.1 ≤ x) : interpGo p (q :: rest) x = interpGo p' (q :: rest) x := by
  simp only [interpGo]
  rw [if_neg (not_lt.2 h), if_neg (not_lt.2 h)]

theorem interp_utc (h : IsLeapTable ts L b) (x : ℤ) :
    interp (x : K) ts.leapUtc ts.leapOffs = some ((b + cnt L x : ℤ) : K) := by
  unfold interp Timescale.leapUtc Timescale.leapOffs
  rw [h.dates, h.offsets, zip_utc]
  obtain ⟨n, L', rfl⟩ := List.exists_cons_of_ne_nil h.nonempty
  have hp : ((midnight n - 1 : ℤ) : K) = ((midnight n - 1 : ℤ) : K) := rfl
  have hs := h.sorted
  show some (interpGo (((midnight n - 1 : ℤ) : K), ((b : ℤ) : K)) (((midnight n : ℤ), (b + 1 : ℤ)) :: utcPts K (b + 1) L') (x : K)) = _
  congr 1
  rcases Int.lt_or_le x (midnight n - 1) with hx | hx
  · obtain ⟨hn, -⟩ := List.pairwise_cons.1 hs
    simp only [interpGo]
    rw [if_pos (Int.cast_lt.2 (by omega)), if_pos (Int.cast_le.2 (by omega)), cnt_cons,
      if_neg (by omega), cnt_eq_zero]
    · simp
    · intro m hm; have := hn m hm; unfold midnight at *; omega
  · have := interpGo_utc (K := K) (n :: L') b x (midnight n - 1) hx hs
    rw [← this]
    simp only [utcPts]
    conv_rhs => rw [interpGo]
    rw [if_neg (fun h => by have := Int.cast_lt.1 h; omega)]

theorem interp_tai (h : IsLeapTable ts L b) (x : ℤ) :
    (∃ k, interp (x : K) ts.leapTai ts.leapOffs = some ((b + k : ℤ) : K) ∧
      cnt L (x - (b + k)) = k ∧ 0 ≤ k) ∨
    (∃ k, interp (x : K) ts.leapTai ts.leapOffs = some (((b + k : ℤ) : K) + 1/2) ∧
      cnt L (x - (b + k) - 1) = k ∧ 0 ≤ k ∧ ∃ n ∈ L, midnight n = x - (b + k)) := by
  unfold interp Timescale.leapTai Timescale.leapUtc Timescale.leapOffs
  rw [h.dates, h.offsets, zip_tai]
  obtain ⟨n, L', rfl⟩ := List.exists_cons_of_ne_nil h.nonempty
  have hs := h.sorted
  show (∃ k, some (interpGo (((midnight n - 1 + b : ℤ) : K), ((b : ℤ) : K)) (((midnight n + b + 1 : ℤ), (b + 1 : ℤ)) :: taiPts K (b + 1) L') (x : K)) = _ ∧ _) ∨
    (∃ k, some (interpGo (((midnight n - 1 + b : ℤ) : K), ((b : ℤ) : K)) (((midnight n + b + 1 : ℤ), (b + 1 : ℤ)) :: taiPts K (b + 1) L') (x : K)) = _ ∧ _)
  rcases Int.lt_or_le x (midnight n - 1 + b) with hx | hx
  · obtain ⟨hn, -⟩ := List.pairwise_cons.1 hs
    left
    refine ⟨0, ?_, ?_, le_refl _⟩
    · simp only [interpGo]
      rw [if_pos (Int.cast_lt.2 (by omega)), if_pos (Int.cast_le.2 (by omega))]
      simp
    · rw [cnt_cons, if_neg (by omega), cnt_eq_zero]
      · rfl
      · intro m hm; have := hn m hm; unfold midnight at *; omega
  · have := interpGo_tai (K := K) (n :: L') b x (midnight n - 1 + b) hx hs
    simp only [taiPts] at this
    rw [interpGo] at this
    rw [if_neg (fun h => by have := Int.cast_lt.1 h; omega)] at this
    rcases this with ⟨k, h1, h2⟩ | ⟨k, h1, h2⟩
    · exact Or.inl ⟨k, by rw [h1], h2⟩
    · exact Or.inr ⟨k, by rw [h1], h2⟩

end Skyfield

namespace Skyfield
open Spec
set_option linter.unusedSectionVars false
variable {K : Type*} [Field K] [LinearOrder K] [IsStrictOrderedRing K] [FloorRing K]
variable {ts : Timescale K} {L : List ℤ} {b : ℤ}

theorem coherent_of_none (t : Time K) (h : t.taiSeconds? = none) : t.Coherent := by
  unfold Time.Coherent Time.taiSeconds
  rw [h]
  simp only [pyDivmod_one]
  refine ⟨⟨_, by rw [← Int.cast_add]⟩, ?_, ?_, ?_⟩
  · have := Int.floor_le (t.whole * dayS - ↑⌊t.whole * dayS⌋ + t.taiFraction * dayS); linarith
  · have := Int.lt_floor_add_one (t.whole * dayS - ↑⌊t.whole * dayS⌋ + t.taiFraction * dayS); linarith
  · unfold Time.taiInstant dayS; ring

theorem utc_some (h : IsLeapTable ts L b) (y m d : ℤ) (hh mi s : K) :
    ∃ t, ts.utc y m (d : K) hh mi s = some t ∧ t.Coherent ∧ t.ts = ts ∧
      t.taiInstant = ((julianDay y m d ts.cutoff * 86400 - 43200 : ℤ) : K) + 3600 * hh + 60 * mi + s
        + ((b + cnt L (midnight (julianDay y m d ts.cutoff)) : ℤ) : K) := by
  unfold Timescale.utc
  simp only [pyDivmod_one, julianDayFrac_intCast]
  generalize julianDay y m d ts.cutoff = J
  have hJ : ((J : K) - 1/2) * dayS = ((midnight J : ℤ) : K) := by
    unfold midnight dayS; push_cast; ring
  rw [hJ, Int.floor_intCast, interp_utc h]
  simp only [sub_self, zero_add]
  refine ⟨_, rfl, ?_, rfl, ?_⟩
  · unfold Time.Coherent
    simp only [Time.taiSeconds, Time.taiInstant, Time.taiFraction]
    refine ⟨⟨midnight J + (b + cnt L (midnight J)) + ⌊hh * 3600 + mi * 60 + s⌋, by push_cast; ring⟩, ?_, ?_, ?_⟩
    · have := Int.floor_le (hh * 3600 + mi * 60 + s); linarith
    · have := Int.lt_floor_add_one (hh * 3600 + mi * 60 + s); linarith
    · simp only [pyDivmod, pyFloorDiv, pyMod, dayS]; field_simp; ring
  · simp only [Time.taiInstant, Time.taiFraction, pyDivmod, pyFloorDiv, pyMod, dayS, midnight]
    push_cast
    field_simp
    ring

theorem filter_le_eq_cnt (L : List ℤ) (u : ℤ) :
    (((L.filter (· ≤ (u + 43200) / 86400)).length : ℕ) : ℤ) = cnt L u := by
  unfold cnt
  congr 2
  apply List.filter_congr
  intro n _
  unfold midnight
  exact decide_eq_decide.2 (by omega)

theorem taiMinusUtc_eq_cnt (L : List ℤ) (b D : ℤ) : taiMinusUtc L b D = b + cnt L (midnight D) := by
  unfold taiMinusUtc
  rw [← filter_le_eq_cnt]
  unfold midnight
  rw [show (86400 * D - 43200 + 43200) / 86400 = D by omega]

theorem utcSeconds_spec (t : Time K) (ht : t.Coherent) (h : IsLeapTable t.ts L b) (offset : K) :
    ∃ (u : ℤ) (fr : K) (leap : Bool), t.utcSeconds offset = some ⟨(u : K), fr, leap⟩ ∧
      0 ≤ fr ∧ fr < 1 ∧
      (if leap then (∃ n ∈ L, midnight n = u) ∧
          (u : K) + fr + ((b + cnt L (u - 1) : ℤ) : K) = t.taiInstant + offset
       else (u : K) + fr + ((b + cnt L u : ℤ) : K) = t.taiInstant + offset) := by
  obtain ⟨⟨n, hn⟩, h0, h1, hT⟩ := ht
  unfold Time.utcSeconds
  simp only [pyDivmod_one]
  rw [hn, ← Int.cast_add]
  generalize hx : n + ⌊t.taiSeconds.2 + offset⌋ = x
  have f0 := Int.floor_le (t.taiSeconds.2 + offset)
  have f1 := Int.lt_floor_add_one (t.taiSeconds.2 + offset)
  have hxK : (x : K) = (n : K) + (⌊t.taiSeconds.2 + offset⌋ : K) := by rw [← hx]; push_cast; ring
  rcases interp_tai h x with ⟨k, hi, hc, hk⟩ | ⟨k, hi, hc, hk, m, hm, hmx⟩
  · rw [hi]
    simp only [Int.floor_intCast, sub_self, lt_self_iff_false, decide_false]
    refine ⟨x - (b + k), _, false, by push_cast; rfl, by linarith, by linarith, ?_⟩
    simp only [Bool.false_eq_true, if_false]
    rw [hc, ← hT, hn]
    push_cast [hxK]
    ring
  · rw [hi]
    have hfl : ⌊((b + k : ℤ) : K) + 1/2⌋ = b + k := by
      rw [Int.floor_intCast_add]
      have : ⌊(1/2 : K)⌋ = 0 := by rw [Int.floor_eq_iff]; norm_num
      omega
    simp only [hfl]
    have hpos : (0:K) < ((b + k : ℤ) : K) + 1/2 - ((b + k : ℤ) : K) := by
      rw [add_sub_cancel_left]; norm_num
    simp only [gt_iff_lt, hpos, decide_true]
    refine ⟨x - (b + k), _, true, by push_cast; rfl, by linarith, by linarith, ?_⟩
    simp only [if_true]
    refine ⟨⟨m, hm, hmx⟩, ?_⟩
    rw [hc, ← hT, hn]
    push_cast [hxK]
    ring

theorem utcTuple_spec (t : Time K) (ht : t.Coherent) (h : IsLeapTable t.ts L b) (offset : K) :
    ∃ r : UtcTuple K, t.utcTuple offset = some r ∧
      ValidUtc L r.jd r.hour r.minute r.second ∧
      taiOf L b r.jd r.hour r.minute r.second = t.taiInstant + offset ∧
      computeCalendarDate r.jd t.ts.cutoff = ⟨r.year, r.month, r.day⟩ := by
  obtain ⟨u, fr, leap, hu, h0, h1, hT⟩ := utcSeconds_spec t ht h offset
  unfold Time.utcTuple
  rw [hu]
  refine ⟨_, rfl, ?_, ?_, rfl⟩
  · cases leap
    · simp only [Bool.false_eq_true, if_false, astypeInt_intCast, sub_zero, add_zero] at hT ⊢
      generalize hs : (u + 43200) % 86400 = sod
      refine ⟨by omega, by omega, by omega, by omega, ?_, Or.inl ?_⟩
      · have : (0:K) ≤ ((sod % 60 : ℤ) : K) := by exact_mod_cast (by omega : 0 ≤ sod % 60)
        linarith
      · have : ((sod % 60 : ℤ) : K) ≤ 59 := by exact_mod_cast (by omega : sod % 60 ≤ 59)
        linarith
    · simp only [if_true, astypeInt_intCast] at hT ⊢
      obtain ⟨⟨n, hn, hnu⟩, hT⟩ := hT
      have e1 : (u - 1 + 43200) % 86400 = 86399 := by unfold midnight at hnu; omega
      have e2 : (u - 1 + 43200) / 86400 = n - 1 := by unfold midnight at hnu; omega
      rw [e1, e2]
      refine ⟨by norm_num, by norm_num, by norm_num, by norm_num, ?_, Or.inr ⟨by norm_num, by norm_num, ?_, ?_⟩⟩
      · push_cast; linarith
      · push_cast; linarith
      · simpa using hn
  · cases leap
    · simp only [Bool.false_eq_true, if_false, astypeInt_intCast, sub_zero, add_zero] at hT ⊢
      unfold taiOf taiMinusUtc
      rw [filter_le_eq_cnt, ← hT, ← add_assoc, ← Int.cast_add]
      congr 3
      omega
    · simp only [if_true, astypeInt_intCast] at hT ⊢
      obtain ⟨-, hT⟩ := hT
      unfold taiOf taiMinusUtc
      rw [filter_le_eq_cnt, ← hT, ← add_assoc, ← Int.cast_add]
      congr 3
      omega

end Skyfield

namespace Skyfield
open Spec
set_option linter.unusedSectionVars false
variable {K : Type*} [Field K] [LinearOrder K] [IsStrictOrderedRing K] [FloorRing K]

theorem filter_step (L : List ℤ) {D D' : ℤ} (h : D < D') :
    ((L.filter (· ≤ D)).length : ℤ) + (if D + 1 ∈ L then 1 else 0) ≤ ((L.filter (· ≤ D')).length : ℤ) := by
  have hge : ∀ L : List ℤ, ((L.filter (· ≤ D)).length : ℤ) ≤ ((L.filter (· ≤ D')).length : ℤ) := by
    intro L
    induction L with
    | nil => simp
    | cons n L ih =>
      rw [List.filter_cons, List.filter_cons]
      simp only [decide_eq_true_eq]
      split <;> split <;> (try simp only [List.length_cons]) <;> push_cast <;> omega
  induction L with
  | nil => simp
  | cons n L ih =>
    have hL := hge L
    by_cases h3 : D + 1 ∈ L
    · have h4 : D + 1 ∈ n :: L := List.mem_cons_of_mem _ h3
      rw [if_pos h3] at ih
      rw [if_pos h4, List.filter_cons, List.filter_cons]
      simp only [decide_eq_true_eq]
      split <;> split <;> (try simp only [List.length_cons]) <;> push_cast <;> omega
    · rw [if_neg h3] at ih
      by_cases h5 : D + 1 = n
      · rw [if_pos (by rw [h5]; exact List.mem_cons_self), List.filter_cons, List.filter_cons]
        simp only [decide_eq_true_eq]
        rw [if_neg (by omega), if_pos (by omega), List.length_cons]
        push_cast
        omega
      · rw [if_neg (by simp only [List.mem_cons, not_or]; exact ⟨h5, h3⟩)]
        have := hge (n :: L)
        omega

theorem filter_succ_of_mem (L : List ℤ) (hs : L.Pairwise (· < ·)) {D : ℤ} (h : D + 1 ∈ L) :
    ((L.filter (· ≤ D + 1)).length : ℤ) = ((L.filter (· ≤ D)).length : ℤ) + 1 := by
  induction L with
  | nil => simp at h
  | cons n L ih =>
    obtain ⟨hn, hs⟩ := List.pairwise_cons.1 hs
    rw [List.filter_cons, List.filter_cons]
    simp only [decide_eq_true_eq]
    rcases List.mem_cons.1 h with h | h
    · subst h
      rw [if_pos (le_refl _), if_neg (by omega)]
      have e1 : L.filter (· ≤ D + 1) = [] := List.filter_eq_nil_iff.2 (fun a ha => by
        have := hn a ha; simp; omega)
      have e2 : L.filter (· ≤ D) = [] := List.filter_eq_nil_iff.2 (fun a ha => by
        have := hn a ha; simp; omega)
      rw [e1, e2]; simp
    · have := hn _ h
      rw [if_pos (by omega), if_pos (by omega), List.length_cons, List.length_cons]
      have := ih hs h
      omega

theorem taiOf_lt {L : List ℤ} {b : ℤ} {D h mi D' h' mi' : ℤ} {s s' : K}
    (hv : ValidUtc L D h mi s) (hv' : ValidUtc L D' h' mi' s')
    (hlt : UtcLt D h mi s D' h' mi' s') : taiOf L b D h mi s < taiOf L b D' h' mi' s' := by
  obtain ⟨a1, a2, a3, a4, a5, a6⟩ := hv
  obtain ⟨b1, b2, b3, b4, b5, b6⟩ := hv'
  unfold taiOf taiMinusUtc
  have c1 : (0:K) ≤ s' := b5
  rcases hlt with hlt | ⟨rfl, hlt | ⟨rfl, hlt | ⟨rfl, hlt⟩⟩⟩
  · have hf := filter_step L hlt
    rcases a6 with a6 | ⟨rfl, rfl, a6, hm⟩
    · have key : (D * 86400 - 43200 + 3600 * h + 60 * mi) + 60 + (b + (L.filter (· ≤ D)).length) ≤
          (D' * 86400 - 43200 + 3600 * h' + 60 * mi') + (b + (L.filter (· ≤ D')).length) := by
        have : (0:ℤ) ≤ (if D + 1 ∈ L then 1 else 0) := by split <;> omega
        omega
      have key' := (Int.cast_le (R := K)).2 key
      push_cast at key' ⊢
      linarith
    · rw [if_pos hm] at hf
      have key : (D * 86400 - 43200 + 3600 * 23 + 60 * 59) + 61 + (b + (L.filter (· ≤ D)).length) ≤
          (D' * 86400 - 43200 + 3600 * h' + 60 * mi') + (b + (L.filter (· ≤ D')).length) := by
        omega
      have key' := (Int.cast_le (R := K)).2 key
      push_cast at key' ⊢
      linarith
  · have hs : s < 60 := by
      rcases a6 with a6 | ⟨rfl, -⟩
      · exact a6
      · omega
    have key : (3600 * h + 60 * mi) + 60 ≤ (3600 * h' + 60 * mi' : ℤ) := by omega
    have key' := (Int.cast_le (R := K)).2 key
    push_cast at key' ⊢
    linarith
  · have hs : s < 60 := by
      rcases a6 with a6 | ⟨-, rfl, -⟩
      · exact a6
      · omega
    have key : (60 * mi) + 60 ≤ (60 * mi' : ℤ) := by omega
    have key' := (Int.cast_le (R := K)).2 key
    push_cast at key' ⊢
    linarith
  · linarith

theorem utcLt_trichotomy (D h mi : ℤ) (s : K) (D' h' mi' : ℤ) (s' : K) :
    UtcLt D h mi s D' h' mi' s' ∨ (D = D' ∧ h = h' ∧ mi = mi' ∧ s = s') ∨
      UtcLt D' h' mi' s' D h mi s := by
  unfold UtcLt
  rcases lt_trichotomy D D' with a | a | a <;> rcases lt_trichotomy h h' with c | c | c <;>
  rcases lt_trichotomy mi mi' with d | d | d <;> rcases lt_trichotomy s s' with e | e | e <;>
  simp_all

theorem taiOf_inj {L : List ℤ} {b : ℤ} {D h mi D' h' mi' : ℤ} {s s' : K}
    (hv : ValidUtc L D h mi s) (hv' : ValidUtc L D' h' mi' s')
    (heq : taiOf L b D h mi s = taiOf L b D' h' mi' s') : D = D' ∧ h = h' ∧ mi = mi' ∧ s = s' := by
  rcases utcLt_trichotomy D h mi s D' h' mi' s' with hl | he | hl
  · have := taiOf_lt (b := b) hv hv' hl; linarith
  · exact he
  · have := taiOf_lt (b := b) hv' hv hl; linarith

/-- The last second of a day that ends in a leap second abuts the next midnight. -/
theorem taiOf_leap {L : List ℤ} (hs : L.Pairwise (· < ·)) {b D : ℤ} (hm : D + 1 ∈ L) (s : K) :
    taiOf L b D 23 59 s = taiOf L b (D + 1) 0 0 (0 : K) - 1 + (s - 60) := by
  have := filter_succ_of_mem L hs hm
  have key : ((D + 1) * 86400 - 43200 + 3600 * 0 + 60 * 0) + (b + (L.filter (· ≤ D + 1)).length) =
     (D * 86400 - 43200 + 3600 * 23 + 60 * 59) + 61 + (b + (L.filter (· ≤ D)).length) := by omega
  have key' := congrArg (Int.cast : ℤ → K) key
  unfold taiOf taiMinusUtc
  push_cast at key' ⊢
  linarith

end Skyfield
