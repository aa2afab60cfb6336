import Verif.Lemmas.BuiltinLeaps
import Verif.Spec.LeapSeconds
import Verif.Props.DeltaTSteps
import Verif.Props.Calendar
import Verif.Props.EarthMotion
import Verif.Props.TimeArith

/-
C113: the time scale that `load.timescale()` makes of Skyfield's own files.
-/
namespace Skyfield
open _root_.Spec

/-! ### The historical table -/

/-- Neighbouring columns: the second starts where the first ends, a thousandth of a second off at most. -/
private def columnsJoin (c d : ℤ × ℤ × ℤ × ℤ × ℤ × ℤ) : Prop :=
  c.1 < d.1 ∧ c.2.1 = d.1 ∧ c.2.2.1 + c.2.2.2.1 + c.2.2.2.2.1 + c.2.2.2.2.2 - d.2.2.2.2.2 ≤ 1 ∧
    -1 ≤ c.2.2.1 + c.2.2.2.1 + c.2.2.2.2.1 + c.2.2.2.2.2 - d.2.2.2.2.2

private instance (c d : ℤ × ℤ × ℤ × ℤ × ℤ × ℤ) : Decidable (columnsJoin c d) := by unfold columnsJoin; infer_instance

private theorem columns_join : builtinS15Columns.IsChain columnsJoin := by decide +kernel

private theorem columns_width : ∀ c ∈ builtinS15Columns, c.1 < c.2.1 := by decide

private theorem s15_start (c : ℤ × ℤ × ℤ × ℤ × ℤ × ℤ) : (s15Piece c).eval (s15Piece c).lower = (c.2.2.2.2.2 : ℝ) / 1000 := by
  simp only [s15Piece, Piece.eval, horner, List.foldl_cons, List.foldl_nil, sub_self, zero_div]
  ring

private theorem s15_end (c : ℤ × ℤ × ℤ × ℤ × ℤ × ℤ) (h : c.1 < c.2.1) :
    (s15Piece c).eval (s15Piece c).upper = ((c.2.2.1 + c.2.2.2.1 + c.2.2.2.2.1 + c.2.2.2.2.2 : ℤ) : ℝ) / 1000 := by
  have h' : (c.1 : ℝ) < c.2.1 := by exact_mod_cast h
  simp only [s15Piece, Piece.eval, horner, List.foldl_cons, List.foldl_nil]
  rw [div_self (by linarith)]
  push_cast
  ring

private theorem s15_joins : builtinS15.IsChain (JoinsBy (0.001 : ℝ)) := by
  unfold builtinS15
  rw [List.isChain_map]
  have hw := columns_width
  have hj := columns_join
  generalize builtinS15Columns = cs at hw hj
  induction cs with
  | nil => simp
  | cons c cs ih =>
    cases cs with
    | nil => simp
    | cons d cs =>
      obtain ⟨⟨a1, a2, a3, a4⟩, hc⟩ := List.isChain_cons_cons.1 hj
      refine List.isChain_cons_cons.2 ⟨⟨?_, ?_⟩, ih (fun x hx => hw x (List.mem_cons_of_mem _ hx)) hc⟩
      · show (c.1 : ℝ) < d.1
        exact_mod_cast a1
      · have e : (s15Piece d).lower = (s15Piece c).upper := by
          show (d.1 : ℝ) = c.2.1
          rw [a2]
        rw [s15_start, e, s15_end c (hw c List.mem_cons_self), ← sub_div, abs_div, abs_of_pos (by norm_num : (0 : ℝ) < 1000),
          div_le_iff₀ (by norm_num), abs_le]
        have b3 : ((c.2.2.1 + c.2.2.2.1 + c.2.2.2.2.1 + c.2.2.2.2.2 : ℤ) : ℝ) - (d.2.2.2.2.2 : ℤ) ≤ 1 := by exact_mod_cast a3
        have b4 : (-1 : ℝ) ≤ ((c.2.2.1 + c.2.2.2.1 + c.2.2.2.2.1 + c.2.2.2.2.2 : ℤ) : ℝ) - (d.2.2.2.2.2 : ℤ) := by exact_mod_cast a4
        norm_num only
        exact ⟨b4, b3⟩

private theorem s15_cubic : ∀ p ∈ builtinS15, p.cs.length = 3 ∧ p.lower < p.upper := by
  intro p hp
  obtain ⟨c, hc, rfl⟩ := List.mem_map.1 hp
  refine ⟨rfl, ?_⟩
  show (c.1 : ℝ) < c.2.1
  exact_mod_cast columns_width c hc

/-! ### The daily table -/

private theorem zip_parts {α β : Type*} (l : List (α × β)) : (l.map Prod.fst).zip (l.map Prod.snd) = l := by
  induction l with
  | nil => rfl
  | cons p l ih => simp [ih]

/-- TT of the first row and of the last. -/
noncomputable def builtinStart : ℝ := 5243477538423255 / 2 ^ 31
noncomputable def builtinEnd : ℝ := 5243477539044634 / 2 ^ 31 + 19744

theorem builtin_span : builtinStart < 2441684.6 ∧ 2441684.5 < builtinStart ∧ builtinEnd < 2461428.6 ∧ 2461428.5 < builtinEnd := by
  unfold builtinStart builtinEnd; norm_num

private theorem rows_shape : ∃ rest, rest ≠ [] ∧ builtinRows = (5243477538423255, 433755822) :: rest := by
  obtain ⟨h1, -⟩ := builtin_ends
  have hl : builtinRows.length = 19745 := by
    unfold builtinRows
    rw [List.length_zip, builtin_lengths.1, builtin_lengths.2, min_self]
  generalize builtinRows = l at h1 hl
  cases l with
  | nil => simp at h1
  | cons r rest =>
    simp only [List.head?_cons, Option.some.injEq] at h1
    refine ⟨rest, ?_, by rw [h1]⟩
    rintro rfl
    simp at hl

private theorem rows_last : (realRows 0 builtinRows).getLast? = some (builtinEnd, 690903049 / 10 ^ 7) := by
  obtain ⟨-, h1⟩ := builtin_ends
  have hl : builtinRows.length = 19745 := by
    unfold builtinRows
    rw [List.length_zip, builtin_lengths.1, builtin_lengths.2, min_self]
  generalize builtinRows = l at h1 hl
  obtain ⟨pre, rfl⟩ := List.getLast?_eq_some_iff.1 h1
  rw [List.length_append, List.length_singleton] at hl
  rw [realRows_append, realRows, realRows, List.getLast?_append]
  simp only [List.getLast?_singleton, Option.some_or, Option.some.injEq]
  unfold realRow builtinEnd
  rw [show 0 + pre.length = 19744 by omega]
  norm_num

private theorem rows_chain : (realRows 0 builtinRows).IsChain fun a b => a.1 < b.1 ∧ |b.2 - a.2| ≤ 0.004029 * (b.1 - a.1) := by
  have key : ∀ (l pre : List (ℕ × ℕ)), builtinRows = pre ++ l →
      (realRows pre.length l).IsChain fun a b => a.1 < b.1 ∧ |b.2 - a.2| ≤ 0.004029 * (b.1 - a.1) := by
    intro l
    induction l with
    | nil => intro _ _; simp [realRows]
    | cons u l ih =>
      intro pre e
      cases l with
      | nil => simp [realRows]
      | cons v post =>
        have hf := rowsOk_facts (builtin_pair pre post u v e)
        refine List.isChain_cons_cons.2 ⟨⟨hf.order, abs_le.2 ⟨by linarith [hf.down], hf.up⟩⟩, ?_⟩
        have := ih (pre ++ [u]) (by rw [e]; simp)
        rw [List.length_append, List.length_singleton] at this
        exact this
  exact key builtinRows [] rfl

/-! ### What the loader makes of it -/

/-- What holds of the built-in ∆T. -/
structure BuiltinDelta (f : ℝ → ℝ) : Prop where
  steps : ∀ tt, StepAtMost 0.001 f tt
  smooth : ∀ tt, (∀ c ∈ builtinS15Columns.tail, (tt - 1721045) / (36525 / 100) ≠ (c.1 : ℝ)) → ContinuousAt f tt
  table : ∀ tt, builtinStart ≤ tt → tt ≤ builtinEnd → interp tt ((realRows 0 builtinRows).map Prod.fst) ((realRows 0 builtinRows).map Prod.snd) = some (f tt)
  old : ∀ tt, -720 ≤ (tt - 1721045) / (36525 / 100) → (tt - 1721045) / (36525 / 100) < (1971 : ℝ) →
    splinesCall builtinS15 ((tt - 1721045) / (36525 / 100)) = some (f tt)
  far : ∀ tt, (tt - 1721045) / (36525 / 100) ≤ -1520 ∨ (2828 : ℝ) ≤ (tt - 1721045) / (36525 / 100) →
    f tt = -320 + 325 / 10 * (((tt - 1721045) / (36525 / 100) - 1825) / 100) ^ 2

private theorem builtin_deltaT : ∃ (d : DeltaT ℝ) (f : ℝ → ℝ), BuiltinDelta f ∧ (∀ tt, d.call tt = some (f tt)) ∧
    buildDeltaT builtinS15 ((realRows 0 builtinRows).map Prod.fst) ((realRows 0 builtinRows).map Prod.snd) = some d := by
  obtain ⟨rest, hne, hr⟩ := rows_shape
  have hlast := rows_last
  have hchain := rows_chain
  have hsort : ((realRows 0 builtinRows).map Prod.fst).Pairwise (· < ·) := by
    have h2 : (realRows 0 builtinRows).IsChain (fun a b : ℝ × ℝ => a.1 < b.1) := hchain.imp fun a b hab => hab.1
    have : IsTrans (ℝ × ℝ) (fun a b => a.1 < b.1) := ⟨fun a b c h1 h2 => lt_trans h1 h2⟩
    exact List.pairwise_map.2 (List.isChain_iff_pairwise.1 h2)
  have e0 : realRows 0 builtinRows = realRow 0 (5243477538423255, 433755822) :: realRows 1 rest := by rw [hr]; rfl
  rw [e0] at hsort hlast
  rw [List.map_cons] at hsort
  have hs15 : builtinS15 = s15Piece (-720, -100, 409160, 776247, -9999586, 20371848) :: builtinS15Columns.tail.map s15Piece := rfl
  have hj := s15_joins
  have hc := s15_cubic
  rw [hs15] at hj hc
  have hstart : (realRow 0 (5243477538423255, 433755822)).1 = builtinStart := by
    unfold realRow builtinStart; norm_num
  obtain ⟨d, f, h1, h2, h3, h4, h5, h6, h7⟩ := C13_steps_bounded (η := 0.001) (by norm_num) _ _ _ ((realRows 1 rest).map Prod.fst)
    (realRow 0 (5243477538423255, 433755822)).2 ((realRows 1 rest).map Prod.snd) (by simp) hsort hj hc (by
      rw [hstart]
      show ((-720 : ℤ) : ℝ) < _
      have := builtin_span.2.1
      rw [lt_div_iff₀ (by norm_num)]
      push_cast
      linarith)
  have hend : ((realRow 0 (5243477538423255, 433755822)).1 :: (realRows 1 rest).map Prod.fst).getLast (by simp) = builtinEnd := by
    have h : (((realRow 0 (5243477538423255, 433755822)) :: realRows 1 rest).map Prod.fst).getLast? = some builtinEnd := by
      rw [List.getLast?_map, hlast]
      rfl
    rw [List.map_cons, List.getLast?_eq_getLast_of_ne_nil (by simp)] at h
    exact Option.some.inj h
  refine ⟨d, f, ⟨h3, ?_, ?_, ?_, ?_⟩, h2, ?_⟩
  · intro tt hk
    refine h4 tt fun p hp => ?_
    obtain ⟨c, hc, rfl⟩ := List.mem_map.1 hp
    exact hk c hc
  · intro tt ha hb
    rw [e0]
    exact h5 tt (by rw [hstart]; exact ha) (by rw [hend]; exact hb)
  · intro tt ha hb
    have hs := builtin_span.2.1
    have hx : tt < 2440953 := by
      rw [div_lt_iff₀ (by norm_num)] at hb
      linarith
    rw [hs15]
    refine h6 tt (s15Piece (1971, 1974, -229, 364, 3157, 40951)) (by rw [hstart]; linarith) (by
      show ((-720 : ℤ) : ℝ) ≤ _
      push_cast
      exact ha) (List.mem_map.2 ⟨_, by decide, rfl⟩) (by
      show _ < ((1971 : ℤ) : ℝ)
      push_cast
      exact hb) ?_
    show ((1971 : ℤ) : ℝ) < _
    rw [hstart, lt_div_iff₀ (by norm_num)]
    push_cast
    linarith
  · intro tt h
    refine h7 tt (h.imp (fun h => ?_) fun h => ?_)
    · show _ ≤ ((-720 : ℤ) : ℝ) - 800
      push_cast
      linarith
    · rw [hend]
      have hs := builtin_span.2.2.1
      have : (builtinEnd - 1721045) / (36525 / 100) ≤ 2028 := by
        rw [div_le_iff₀ (by norm_num)]
        linarith
      linarith
  · rw [hs15, e0, List.map_cons, List.map_cons]
    exact h1

/-- The leap seconds of the built-in time scale. -/
private theorem builtin_leaps_init : timescaleLeaps (builtinIers.leapDates.map MaybeInf.num) builtinIers.leapOffsets =
    some (builtinIers.leapDates, builtinIers.leapOffsets) := by
  have hl : (builtinIers.leapDates.map MaybeInf.num).getLast? = some (MaybeInf.num ((2457755 : ℕ) - 1 / 2 : ℝ)) := by
    show ((builtinLeapDays.map fun n : ℕ => (n : ℝ) - 1 / 2).map MaybeInf.num).getLast? = _
    rw [List.getLast?_map, List.getLast?_map, show builtinLeapDays.getLast? = some 2457755 from by decide]
    rfl
  have hm : ∀ l : List ℝ, (l.map MaybeInf.num).mapM MaybeInf.num? = some l := by
    intro l
    induction l with
    | nil => rfl
    | cons x l ih => simp [List.mapM_cons, ih, MaybeInf.num?]
  unfold timescaleLeaps
  rw [hl]
  simp only [MaybeInf.isInf, Bool.false_eq_true, if_false, hm, Option.map_some]

private theorem builtin_load : ∃ (d : DeltaT ℝ) (f : ℝ → ℝ), BuiltinDelta f ∧ (∀ tt, d.call tt = some (f tt)) ∧
    ∀ toInt toNum round7 disk served, (∀ n : ℕ, round7 ((n : ℝ) / 10 ^ 7) = (n : ℝ) / 10 ^ 7) →
      loadTimescale toInt toNum round7 builtinS15 ⟨builtinIers, disk, served⟩ none true =
        some (⟨d.call, builtinIers.leapDates, builtinIers.leapOffsets⟩, false) := by
  obtain ⟨d, f, h1, h2, h3⟩ := builtin_deltaT
  refine ⟨d, f, h1, h2, ?_⟩
  intro toInt toNum round7 disk served h7
  have hz : (openIers round7 builtinIers).dailyTt.zip (openIers round7 builtinIers).dailyDeltaT = realRows 0 builtinRows :=
    realRows_zip round7 h7 0 _ _
  unfold loadTimescale timescaleTables
  simp only [if_true, Option.bind_eq_bind, Option.bind_some, hz]
  unfold initTimescale
  simp only [h3, Option.map_some, Option.bind_eq_bind, Option.bind_some]
  have : timescaleLeaps ((openIers round7 builtinIers).leapDates.map MaybeInf.num) (openIers round7 builtinIers).leapOffsets =
    some (builtinIers.leapDates, builtinIers.leapOffsets) := builtin_leaps_init
  rw [this]
  rfl

/-- `ts` is what `load.timescale()` gives: loading Skyfield's own files, and whatever is on disk or would be served, gives the ∆T and the leap seconds of
`ts`.  (`round7` is NumPy's rounding to seven decimals, of which only this matters: that it leaves a number of seven decimals alone.) -/
def Timescale.IsBuiltin (ts : Timescale ℝ) : Prop :=
  ∃ toInt toNum round7 disk served lts, (∀ n : ℕ, round7 ((n : ℝ) / 10 ^ 7) = (n : ℝ) / 10 ^ 7) ∧
    loadTimescale toInt toNum round7 builtinS15 ⟨builtinIers, disk, served⟩ none true = some (lts, false) ∧
    (∀ tt, lts.deltaT tt = some (ts.deltaT tt)) ∧ ts.leapDates = lts.leapDates ∧ ts.leapOffsets = lts.leapOffsets

theorem Timescale.IsBuiltin.delta {ts : Timescale ℝ} (h : ts.IsBuiltin) : BuiltinDelta ts.deltaT ∧ ts.leapDates = builtinIers.leapDates ∧
    ts.leapOffsets = builtinIers.leapOffsets := by
  obtain ⟨toInt, toNum, round7, disk, served, lts, h7, hl, hd, h1, h2⟩ := h
  obtain ⟨d, f, hf, hc, hload⟩ := builtin_load
  rw [hload toInt toNum round7 disk served h7] at hl
  simp only [Option.some.injEq, Prod.mk.injEq, and_true] at hl
  subst hl
  have : ts.deltaT = f := by
    funext tt
    have := hd tt
    simp only [hc, Option.some.injEq] at this
    exact this.symm
  rw [this]
  exact ⟨hf, h1, h2⟩

/-- **C113.** `load.timescale()` always works, without a file on disk and without the network, and always gives the same time scale, whose ∆T is
defined at every time. -/
theorem C113_loads : ∃ lts : LoadedTimescale ℝ, (∀ tt, ∃ v, lts.deltaT tt = some v) ∧
    ∀ toInt toNum round7 disk served, (∀ n : ℕ, round7 ((n : ℝ) / 10 ^ 7) = (n : ℝ) / 10 ^ 7) →
      loadTimescale toInt toNum round7 builtinS15 ⟨builtinIers, disk, served⟩ none true = some (lts, false) := by
  obtain ⟨d, f, -, hc, hload⟩ := builtin_load
  exact ⟨_, fun tt => ⟨f tt, hc tt⟩, hload⟩

/-- There is such a time scale, with any cutoff. -/
theorem builtin_exists (cutoff : Option ℤ) : ∃ ts : Timescale ℝ, ts.IsBuiltin ∧ ts.cutoff = cutoff := by
  obtain ⟨d, f, -, hc, hload⟩ := builtin_load
  exact ⟨⟨f, builtinIers.leapDates, builtinIers.leapOffsets, cutoff⟩, ⟨fun _ => none, fun _ => none, id, fun _ => none, none, _, fun _ => rfl,
    hload _ _ _ _ _ fun _ => rfl, hc, rfl, rfl⟩, rfl⟩

/-! ### Leap seconds -/

private theorem builtin_leapTable {ts : Timescale ℝ} (h : ts.IsBuiltin) : IsLeapTable ts builtinLeaps 10 := by
  obtain ⟨-, h1, h2⟩ := h.delta
  refine ⟨?_, ?_, by decide, by decide⟩
  · rw [h1]
    show (builtinLeapDays.map fun n : ℕ => (n : ℝ) - 1 / 2) = _
    unfold builtinLeaps
    rw [List.map_map]
    refine List.map_congr_left fun n _ => ?_
    simp
  · rw [h2]
    show (builtinLeapOffsets.map fun n : ℕ => (n : ℝ)) = _
    have e : builtinLeapOffsets = (List.range builtinLeaps.length).map fun i => 11 + i := by decide
    rw [e, List.map_map]
    refine List.map_congr_left fun n _ => ?_
    simp only [Function.comp_apply]
    push_cast
    ring

/-- **C113.** The leap seconds of the built-in time scale are those that have been announced: TAI−UTC is 10 seconds before the first of them,
and grows by one second at the beginning of those months and at no other time. -/
theorem C113_leap_seconds {ts : Timescale ℝ} (h : ts.IsBuiltin) : ∃ L : List ℤ, IsLeapTable ts L 10 ∧
    ∀ D : ℤ, D ∈ L ↔ ∃ p ∈ announcedLeapSeconds, CivilDate none p.1 p.2 1 D := by
  refine ⟨builtinLeaps, builtin_leapTable h, ?_⟩
  have e : builtinLeaps = announcedLeapSeconds.map fun p => julianDay p.1 p.2 1 none := by decide
  have hv : ∀ p ∈ announcedLeapSeconds, ValidDate gregorianLeap p.1 p.2 1 := by decide
  intro D
  rw [e, List.mem_map]
  constructor
  · rintro ⟨p, hp, rfl⟩
    exact ⟨p, hp, hv p hp, _, C02_is_gregorian_day_number, rfl⟩
  · rintro ⟨p, hp, -, N, hN, hD⟩
    exact ⟨p, hp, by rw [C02_agrees_with_every_gregorian_count N hN _ _ _ (hv p hp)]; exact hD⟩

/-! ### Inside the daily table -/

/-- Specification: a TT Julian date from 1973 January 2 to 2027 January 29, for which the built-in table has a ∆T for every day. -/
def InDailyTable (tt : ℝ) : Prop := 2441685 ≤ tt ∧ tt ≤ 2461428

private theorem table_value {f : ℝ → ℝ} (h : BuiltinDelta f) : ∃ p l, realRows 0 builtinRows = p :: l ∧
    ∀ tt, builtinStart ≤ tt → tt ≤ builtinEnd → f tt = interpGo p l tt := by
  obtain ⟨rest, -, hr⟩ := rows_shape
  have e0 : realRows 0 builtinRows = realRow 0 (5243477538423255, 433755822) :: realRows 1 rest := by rw [hr]; rfl
  refine ⟨_, _, e0, fun tt ha hb => ?_⟩
  have := h.table tt ha hb
  rw [e0] at this
  unfold interp at this
  rw [zip_parts] at this
  exact (Option.some.inj this).symm

private theorem table_rate {f : ℝ → ℝ} (h : BuiltinDelta f) {a b : ℝ} (ha : InDailyTable a) (hb : InDailyTable b) (hab : a ≤ b) :
    |f b - f a| ≤ 0.004029 * (b - a) := by
  obtain ⟨p, l, e, hv⟩ := table_value h
  obtain ⟨s1, s2, s3, s4⟩ := builtin_span
  have hc := rows_chain
  rw [e] at hc
  rw [hv b (by linarith [hb.1]) (by linarith [hb.2]), hv a (by linarith [ha.1]) (by linarith [ha.2])]
  exact interpGo_lipschitz (by norm_num) p l hc hab

/-- **C113.** While the built-in daily table lasts, ∆T changes by no more than 0.004029 seconds a day. -/
theorem C113_delta_t_rate {ts : Timescale ℝ} (h : ts.IsBuiltin) {a b : ℝ} (ha : InDailyTable a) (hb : InDailyTable b) :
    |ts.deltaT b - ts.deltaT a| ≤ 0.004029 * |b - a| := by
  rcases le_total a b with hab | hab
  · rw [abs_of_nonneg (by linarith : 0 ≤ b - a)]
    exact table_rate h.delta.1 ha hb hab
  · rw [abs_sub_comm, abs_sub_comm b a, abs_of_nonneg (by linarith : 0 ≤ a - b)]
    exact table_rate h.delta.1 hb ha hab

/-- The rows around a time in the table. -/
private theorem table_bounds {f : ℝ → ℝ} (h : BuiltinDelta f) {x : ℝ} (hx : InDailyTable x) : ∃ i : ℕ,
    86400 * (2441684 + (i : ℝ)) - 43200 + builtinOffset (2441684 + i) ≤ 86400 * x - 32.184 ∧
    86400 * x - 32.184 < 86400 * (2441686 + (i : ℝ)) - 43200 + builtinOffset (2441686 + i) + 1 ∧
    32.184 + builtinOffset (2441686 + i) - 0.9 ≤ f x ∧ f x ≤ 32.184 + builtinOffset (2441684 + i) + 0.9 := by
  obtain ⟨rest, hne, hr⟩ := rows_shape
  obtain ⟨p, l, e, hv⟩ := table_value h
  obtain ⟨s1, s2, s3, s4⟩ := builtin_span
  have hlast := rows_last
  have hfirst : (realRow 0 (5243477538423255, 433755822)).1 = builtinStart := by unfold realRow builtinStart; norm_num
  have hsort : (p :: l).Pairwise (fun a b : ℝ × ℝ => a.1 < b.1) := by
    have h2 : (realRows 0 builtinRows).IsChain (fun a b : ℝ × ℝ => a.1 < b.1) := rows_chain.imp fun a b hab => hab.1
    have : IsTrans (ℝ × ℝ) (fun a b => a.1 < b.1) := ⟨fun a b c h1 h2 => lt_trans h1 h2⟩
    rw [e] at h2
    exact List.isChain_iff_pairwise.1 h2
  obtain ⟨pre, post, u, v, e2, h0, h1⟩ := locate 0 (5243477538423255, 433755822) rest hne x (by rw [hfirst]; linarith [hx.1]) (by
    rw [hr, List.getLast?_eq_getLast_of_ne_nil (by simp [realRows]), Option.some.injEq] at hlast
    rw [hlast]
    show x ≤ builtinEnd
    linarith [hx.2])
  rw [← hr] at e2
  have hf := rowsOk_facts (builtin_pair pre post u v e2)
  rw [zero_add] at h0 h1
  have e3 : p :: l = realRows 0 pre ++ realRow pre.length u :: realRow (pre.length + 1) v :: realRows (pre.length + 2) post := by
    rw [← e, e2, realRows_append, zero_add]
    rfl
  have hm := interpGo_middle p l _ _ _ _ x hsort e3 h0 h1
  rw [← hv x (by linarith [hx.1]) (by linarith [hx.2])] at hm
  refine ⟨pre.length, by linarith [hf.after], by linarith [hf.before], ?_, ?_⟩
  all_goals
    rw [hm]
    have ho := hf.order
    have l1 := hf.low
    have l2 := hf.low'
    have l3 := hf.high
    have l4 := hf.high'
    generalize realRow pre.length u = a at *
    generalize realRow (pre.length + 1) v = b at *
    have hw : 0 < b.1 - a.1 := by linarith
    have e4 : a.2 + (b.2 - a.2) / (b.1 - a.1) * (x - a.1) = a.2 * ((b.1 - x) / (b.1 - a.1)) + b.2 * ((x - a.1) / (b.1 - a.1)) := by
      field_simp; ring
    have w0 : 0 ≤ (b.1 - x) / (b.1 - a.1) := div_nonneg (by linarith) hw.le
    have w1 : 0 ≤ (x - a.1) / (b.1 - a.1) := div_nonneg (by linarith) hw.le
    have ws : (b.1 - x) / (b.1 - a.1) + (x - a.1) / (b.1 - a.1) = 1 := by rw [← add_div, show b.1 - x + (x - a.1) = b.1 - a.1 by ring, div_self hw.ne']
    rw [e4]
    generalize (b.1 - x) / (b.1 - a.1) = α at *
    generalize (x - a.1) / (b.1 - a.1) = β at *
    nlinarith

/-- **C113.** While the built-in daily table lasts, ∆T is between 43 and 70.1 seconds. -/
theorem C113_delta_t_range {ts : Timescale ℝ} (h : ts.IsBuiltin) {x : ℝ} (hx : InDailyTable x) : 43 ≤ ts.deltaT x ∧ ts.deltaT x ≤ 70.1 := by
  obtain ⟨i, -, -, h3, h4⟩ := table_bounds h.delta.1 hx
  have a : (builtinOffset (2441684 + i) : ℝ) ≤ 37 := by exact_mod_cast builtinOffset_le _
  have b : (12 : ℝ) ≤ builtinOffset (2441686 + i) := by
    have := leapsTo_start.offset (2441686 + i) (by omega)
    have : 12 ≤ builtinOffset (2441686 + i) := by omega
    exact_mod_cast this
  constructor <;> linarith

/-- **C113.** While the built-in daily table lasts, UTC keeps to within 0.9 seconds of UT1, as it is meant to, in leap seconds too: `dut1` of every time is at
most 0.9 seconds either way. -/
theorem C113_dut1 {t : Time ℝ} (h : t.ts.IsBuiltin) (hc : t.Coherent) (htai : t.TaiConsistent) (hx : InDailyTable t.tt) :
    ∃ v, t.dut1 = some v ∧ |v| ≤ 0.9 := by
  obtain ⟨i, h1, h2, h3, h4⟩ := table_bounds h.delta.1 hx
  have hL := builtin_leapTable h
  obtain ⟨⟨n, hn⟩, f0, f1, hinst⟩ := hc
  have hinst' : t.taiInstant = 86400 * t.tt - 32.184 := by
    unfold Time.taiInstant
    unfold Time.TaiConsistent at htai
    rw [htai]
    unfold ttMinusTai dayS Time.tt
    ring
  obtain ⟨l, hl⟩ : ∃ l, interp ((n : ℤ) : ℝ) t.ts.leapTai t.ts.leapOffs = some l := by
    rcases interp_tai hL n with ⟨k, a, -⟩ | ⟨k, a, -⟩ <;> exact ⟨_, a⟩
  have e0 := builtin_taiMinusUtc (2441684 + i)
  have e2 := builtin_taiMinusUtc (2441686 + i)
  have hlow : ((builtinOffset (2441684 + i) : ℕ) : ℝ) ≤ l := by
    have := le_leap hL (x := n) (D := ((2441684 + i : ℕ) : ℤ)) (by
      rw [e0]
      have : (((midnight ((2441684 + i : ℕ) : ℤ) + (builtinOffset (2441684 + i) : ℕ) : ℤ)) : ℝ) < ((n + 1 : ℤ) : ℝ) := by
        unfold midnight
        push_cast
        rw [hn] at hinst
        linarith
      have := Int.cast_lt.1 this
      omega) hl
    rw [e0] at this
    exact_mod_cast this
  have hhigh : l ≤ ((builtinOffset (2441686 + i) : ℕ) : ℝ) := by
    have := leap_le hL (x := n) (D := ((2441686 + i : ℕ) : ℤ)) (by
      rw [e2]
      have : ((n : ℤ) : ℝ) < (((midnight ((2441686 + i : ℕ) : ℤ) + (builtinOffset (2441686 + i) : ℕ) + 1 : ℤ)) : ℝ) := by
        unfold midnight
        push_cast
        rw [hn] at hinst
        linarith
      have := Int.cast_lt.1 this
      omega) hl
    rw [e2] at this
    exact_mod_cast this
  refine ⟨32184 / 1000 + l - t.ts.deltaT (t.whole + t.ttFraction), ?_, ?_⟩
  · unfold Time.dut1 Time.leapSeconds
    rw [hn, hl]
  · have e : t.whole + t.ttFraction = t.tt := rfl
    rw [e, abs_le]
    constructor <;> linarith

/-- **C113.** While the built-in daily table lasts, UT1 runs with TT to within 47 parts in a thousand million; in particular a later time has a
later UT1. -/
theorem C113_ut1_runs_on {ts : Timescale ℝ} (h : ts.IsBuiltin) {t u : Time ℝ} (ht : t.ts = ts) (hu : u.ts = ts) (ht1 : t.ut1Fraction? = none)
    (hu1 : u.ut1Fraction? = none) (hx : InDailyTable t.tt) (hy : InDailyTable u.tt) (hlt : t.tt < u.tt) :
    |u.ut1 - t.ut1 - (u.tt - t.tt)| ≤ 4.7e-8 * (u.tt - t.tt) ∧ t.ut1 < u.ut1 := by
  have hr := C113_delta_t_rate h hx hy
  rw [abs_of_pos (by linarith : 0 < u.tt - t.tt)] at hr
  have e : u.ut1 - t.ut1 - (u.tt - t.tt) = -((ts.deltaT u.tt - ts.deltaT t.tt) / 86400) := by
    simp only [Time.ut1, Time.ut1Fraction, ht1, hu1, Time.deltaT, dayS, ht, hu, Time.tt]
    ring
  have hb : |u.ut1 - t.ut1 - (u.tt - t.tt)| ≤ 4.7e-8 * (u.tt - t.tt) := by
    rw [e, abs_neg, abs_div, abs_of_pos (by norm_num : (0 : ℝ) < 86400), div_le_iff₀ (by norm_num)]
    linarith
  refine ⟨hb, ?_⟩
  have := (abs_le.1 hb).1
  linarith

/-- **C113.** While the built-in daily table lasts, a time made from UT1 reads that UT1 back, and another time with the same TT, which has to work its
UT1 out from ∆T, is off by no more than 2e-18 days. -/
theorem C113_ut1_reads_back {ts : Timescale ℝ} (h : ts.IsBuiltin) {jd : ℝ} (h0 : 2441686 ≤ jd) (h1 : jd ≤ 2461427) :
    (ts.ut1Jd jd).ut1 = jd ∧
    ∀ t : Time ℝ, t.ts = ts → t.tt = (ts.ut1Jd jd).tt → t.ut1Fraction? = none → |t.ut1 - jd| ≤ 2e-18 := by
  refine ⟨by simp [Timescale.ut1Jd, Time.ut1, Time.ut1Fraction], ?_⟩
  intro t ht htt hn
  have e1 : (ts.ut1Jd jd).tt = jd + ts.deltaT (jd + ts.deltaT jd / 86400) / 86400 := by
    simp [Timescale.ut1Jd, Time.tt, dayS]
  have e2 : t.ut1 = t.tt - ts.deltaT t.tt / 86400 := by
    simp only [Time.ut1, Time.ut1Fraction, hn, Time.deltaT, dayS, ht, Time.tt]; ring
  have i0 : InDailyTable jd := ⟨by linarith, by linarith⟩
  obtain ⟨r0, r1⟩ := C113_delta_t_range h i0
  have i1 : InDailyTable (jd + ts.deltaT jd / 86400) := ⟨by linarith, by linarith⟩
  obtain ⟨q0, q1⟩ := C113_delta_t_range h i1
  have i2 : InDailyTable (jd + ts.deltaT (jd + ts.deltaT jd / 86400) / 86400) := ⟨by linarith, by linarith⟩
  have k1 := C113_delta_t_rate h i0 i1
  have k2 := C113_delta_t_rate h i1 i2
  rw [e2, htt, e1]
  generalize ts.deltaT (jd + ts.deltaT (jd + ts.deltaT jd / 86400) / 86400) = c at *
  generalize ts.deltaT (jd + ts.deltaT jd / 86400) = b at *
  generalize ts.deltaT jd = a at *
  rw [show jd + a / 86400 - jd = a / 86400 by ring, abs_of_nonneg (by linarith : 0 ≤ a / 86400)] at k1
  rw [show jd + b / 86400 - (jd + a / 86400) = (b - a) / 86400 by ring, abs_div, abs_of_pos (by norm_num : (0 : ℝ) < 86400)] at k2
  rw [show jd + b / 86400 - c / 86400 - jd = -((c - b) / 86400) by ring, abs_neg, abs_div, abs_of_pos (by norm_num : (0 : ℝ) < 86400),
    div_le_iff₀ (by norm_num)]
  have k3 : |b - a| ≤ 0.004029 * (70.1 / 86400) := k1.trans (by linarith)
  calc |c - b| ≤ 0.004029 * (|b - a| / 86400) := k2
    _ ≤ 0.004029 * ((0.004029 * (70.1 / 86400)) / 86400) := by linarith
    _ ≤ 2e-18 * 86400 := by norm_num

/-- **C113.** Two times of the built-in time scale, while its daily table lasts, meet what C106, C110 and C112 ask of the clocks. -/
theorem C113_days_apart {ts : Timescale ℝ} (h : ts.IsBuiltin) {t u : Time ℝ} (ht : t.ts = ts) (hu : u.ts = ts)
    (ht1 : t.tdbFraction? = none ∧ t.ut1Fraction? = none) (hu1 : u.tdbFraction? = none ∧ u.ut1Fraction? = none)
    (hx : InDailyTable t.tt) (hy : InDailyTable u.tt) : DaysApart t u (u.ut1 - t.ut1) := by
  have w : ∀ jd : ℝ, 2441684 ≤ jd → jd ≤ 2461429 → WithinThirtyCenturies jd := by
    intro jd a b
    unfold WithinThirtyCenturies
    rw [abs_le]; constructor <;> linarith
  have tdb : ∀ v : Time ℝ, v.tdbFraction? = none → InDailyTable v.tt → WithinThirtyCenturies (v.tdb tdbMinusTt) := by
    intro v hv hi
    have e1 : v.whole + v.ttFraction = v.tt := rfl
    have h := C12_within_2ms v.whole v.ttFraction (by rw [e1, abs_le]; constructor <;> linarith [hi.1, hi.2])
    rw [abs_lt] at h
    have e : v.tdb tdbMinusTt = v.tt + tdbMinusTt v.whole v.ttFraction / 86400 := by
      simp only [Time.tdb, Time.tdbFraction, hv, dayS, Time.tt]; ring
    rw [e]
    exact w _ (by linarith [h.1, h.2, hi.1, hi.2]) (by linarith [h.1, h.2, hi.1, hi.2])
  have hr := C113_delta_t_rate h hx hy
  have wt := w t.tt (by linarith [hx.1]) (by linarith [hx.2])
  have wu := w u.tt (by linarith [hy.1]) (by linarith [hy.2])
  refine ⟨C106_clocks_agree wt ht1 hu1 ?_, wt, wu, tdb t ht1.1 hx, tdb u hu1.1 hy⟩
  have e : u.deltaT - t.deltaT = ts.deltaT u.tt - ts.deltaT t.tt := by unfold Time.deltaT; rw [ht, hu]
  rw [e]
  refine hr.trans ?_
  have := abs_nonneg (u.tt - t.tt)
  linarith

/-- **C113.** So C110 holds of the built-in time scale with nothing assumed about ∆T: while the daily table lasts, a place on the wgs84 ellipsoid no more than
9 km above or below it is, a second later, within 18 mm of where its velocity takes it. -/
theorem C113_on_the_ground {ts : Timescale ℝ} (h : ts.IsBuiltin) {t u : Time ℝ} (ht : t.ts = ts) (hu : u.ts = ts)
    (ht1 : t.tdbFraction? = none ∧ t.ut1Fraction? = none) (hu1 : u.tdbFraction? = none ∧ u.ut1Fraction? = none)
    (hx : InDailyTable t.tt) (hy : InDailyTable u.tt) {series : NutationSeries} {s s' : SkyTime}
    (hs : t.sky series = some s) (hs' : u.sky series = some s')
    (lat lon elevation : ℝ) (he : |elevation| ≤ 9000) (hsec : |u.tt - t.tt| * 86400 ≤ 1) :
    (((wgs84Au.place lat lon elevation).at s').1 - ((wgs84Au.place lat lon elevation).at s).1 -
      (u.tt - t.tt) • ((wgs84Au.place lat lon elevation).at s).2).length * auM ≤ 0.018 := by
  obtain ⟨-, w1, w2, w3, w4⟩ := C113_days_apart h ht hu ht1 hu1 hx hy
  refine (C110_on_the_ground w1 w2 w3 w4 ht1 hu1 ?_ hs hs' lat lon elevation he).2 hsec
  have e : u.deltaT - t.deltaT = ts.deltaT u.tt - ts.deltaT t.tt := by unfold Time.deltaT; rw [ht, hu]
  rw [e]
  refine (C113_delta_t_rate h hx hy).trans ?_
  have := abs_nonneg (u.tt - t.tt)
  linarith

/-! ### Steps -/

/-- **C113.** The built-in ∆T nowhere jumps by more than a millisecond, and is continuous except perhaps at the starts of the pieces of the
historical table, all of which are whole years before 2017. -/
theorem C113_steps {ts : Timescale ℝ} (h : ts.IsBuiltin) (tt : ℝ) : StepAtMost 0.001 ts.deltaT tt ∧
    ((∀ y : ℤ, -720 < y → y < 2017 → (tt - 1721045) / 365.25 ≠ y) → ContinuousAt ts.deltaT tt) := by
  refine ⟨h.delta.1.steps tt, fun hk => h.delta.1.smooth tt fun c hc => ?_⟩
  have hy : ∀ c ∈ builtinS15Columns.tail, -720 < c.1 ∧ c.1 < 2017 := by decide
  have := hk c.1 (hy c hc).1 (hy c hc).2
  rw [show (36525 / 100 : ℝ) = 365.25 by norm_num]
  exact this

/-- **C113.** From −720 to 1971 the built-in ∆T is the bundled historical table: the cubic of the column whose years the date falls in. -/
theorem C113_history {ts : Timescale ℝ} (h : ts.IsBuiltin) {year nextYear c3 c2 c1 c0 : ℤ}
    (hc : (year, nextYear, c3, c2, c1, c0) ∈ builtinS15Columns) (hn : nextYear ≤ 1971) {tt : ℝ}
    (h0 : year ≤ (tt - 1721045) / 365.25) (h1 : (tt - 1721045) / 365.25 < nextYear) :
    let u := ((tt - 1721045) / 365.25 - year) / (nextYear - year)
    ts.deltaT tt = (c3 * u ^ 3 + c2 * u ^ 2 + c1 * u + c0) / 1000 := by
  intro u
  have hy : ∀ c ∈ builtinS15Columns, -720 ≤ c.1 := by decide
  have e : (36525 / 100 : ℝ) = 365.25 := by norm_num
  have b1 : (-720 : ℝ) ≤ year := by exact_mod_cast hy _ hc
  have b2 : (nextYear : ℝ) ≤ 1971 := by exact_mod_cast hn
  have hold := h.delta.1.old tt (by rw [e]; linarith) (by rw [e]; linarith)
  rw [e] at hold
  have hpw := joinsBy_pairwise _ s15_joins
  obtain ⟨before, after, ec⟩ := List.append_of_mem hc
  have e' : builtinS15 = before.map s15Piece ++ s15Piece (year, nextYear, c3, c2, c1, c0) :: after.map s15Piece := by
    unfold builtinS15
    rw [ec, List.map_append, List.map_cons]
  rw [e'] at hpw hold
  have hafter : ∀ q ∈ after.map s15Piece, (tt - 1721045) / 365.25 < q.lower := by
    have hj := columns_join
    rw [ec] at hj
    have hj2 := (List.isChain_append.1 hj).2.1
    have hpw2 := (List.pairwise_append.1 hpw).2.1
    cases after with
    | nil => intro q hq; simp at hq
    | cons d after =>
      have hd := (List.isChain_cons_cons.1 hj2).1.2.1
      have hd' : nextYear = d.1 := hd
      have hfirst : (tt - 1721045) / 365.25 < (s15Piece d).lower := by
        show _ < (d.1 : ℝ)
        rw [← hd']
        exact h1
      intro q hq
      rw [List.map_cons] at hq hpw2
      rcases List.mem_cons.1 hq with rfl | hq
      · exact hfirst
      · exact hfirst.trans ((List.pairwise_cons.1 (List.pairwise_cons.1 hpw2).2).1 q hq)
  rw [C13_piece_used _ _ _ _ hpw (Or.inr h0) hafter, Option.some.injEq] at hold
  rw [← hold]
  simp only [s15Piece, Piece.eval, horner, List.foldl_cons, List.foldl_nil]
  show _ = _
  simp only [u]
  ring

/-- **C113.** Before −1520 and after 2828 the built-in ∆T is the long-term parabola of Stephenson, Morrison and Hohenkerk. -/
theorem C113_far {ts : Timescale ℝ} (h : ts.IsBuiltin) {tt : ℝ} (hf : (tt - 1721045) / 365.25 ≤ -1520 ∨ 2828 ≤ (tt - 1721045) / 365.25) :
    ts.deltaT tt = -320 + 32.5 * (((tt - 1721045) / 365.25 - 1825) / 100) ^ 2 := by
  have e : (36525 / 100 : ℝ) = 365.25 := by norm_num
  have e2 : (325 / 10 : ℝ) = 32.5 := by norm_num
  have := h.delta.1.far tt (by rw [e]; exact hf)
  rwa [e, e2] at this

/-- At the beginning of the year 1900 ∆T is −1.977 seconds, and in the year 3000 it is 4167.03125 seconds. -/
example {ts : Timescale ℝ} (h : ts.IsBuiltin) : ts.deltaT (1900 * 365.25 + 1721045) = -1.977 ∧ ts.deltaT (3000 * 365.25 + 1721045) = 4167.03125 := by
  constructor
  · have := C113_history h (year := 1900) (nextYear := 1905) (c3 := -1257) (c2 := 2443) (c1 := 5715) (c0 := -1977) (by decide) (by decide)
      (tt := 1900 * 365.25 + 1721045) (by norm_num) (by norm_num)
    simp only at this
    rw [this]
    norm_num
  · rw [C113_far h (by norm_num)]
    norm_num

/-- **C113 (finding).** The pieces of the historical table do not quite join, and ∆T steps up by a millisecond at the beginning of 1950: as close to
it as one likes, there are an earlier time and a later one for which UT1 runs backward. -/
theorem C113_ut1_steps_back {ts : Timescale ℝ} (h : ts.IsBuiltin) {δ : ℝ} (hδ : 0 < δ) :
    ∃ a b : ℝ, a < b ∧ b < a + δ ∧ (ts.ttJd b none).ut1 < (ts.ttJd a none).ut1 ∧ 0.0009 < ts.deltaT b - ts.deltaT a := by
  have hold := h.delta.1.old
  have hpw := joinsBy_pairwise _ s15_joins
  have split : ∀ (k : ℕ) (c : ℤ × ℤ × ℤ × ℤ × ℤ × ℤ) (x : ℝ), builtinS15Columns = builtinS15Columns.take k ++ c :: builtinS15Columns.drop (k + 1) →
      (c.1 : ℝ) ≤ x → (∀ d ∈ builtinS15Columns.drop (k + 1), x < (d.1 : ℝ)) → splinesCall builtinS15 x = some ((s15Piece c).eval x) := by
    intro k c x e hx ha
    have e' : builtinS15 = (builtinS15Columns.take k).map s15Piece ++ s15Piece c :: (builtinS15Columns.drop (k + 1)).map s15Piece := by
      unfold builtinS15
      conv_lhs => rw [e]
      rw [List.map_append, List.map_cons]
    rw [e'] at hpw ⊢
    refine C13_piece_used _ _ _ x hpw (Or.inr hx) fun q hq => ?_
    obtain ⟨d, hd, rfl⟩ := List.mem_map.1 hq
    exact ha d hd
  have hafter : ∀ (k : ℕ) (y : ℤ) (x : ℝ), (∀ d ∈ builtinS15Columns.drop (k + 1), y ≤ d.1) → x < y →
      ∀ d ∈ builtinS15Columns.drop (k + 1), x < (d.1 : ℝ) := by
    intro k y x hy hx d hd
    have : (y : ℝ) ≤ d.1 := by exact_mod_cast hy d hd
    linarith
  -- the value at the beginning of 1950
  have hb : ts.deltaT 2433282.5 = 28.932 := by
    have h1 := hold 2433282.5 (by norm_num) (by norm_num)
    rw [show (2433282.5 - 1721045) / (36525 / 100) = (1950 : ℝ) by norm_num] at h1
    rw [split 35 (1950, 1953, -277, 220, 1127, 28932) 1950 (by decide) (by norm_num) (hafter 35 1953 _ (by decide) (by norm_num))] at h1
    rw [← Option.some.inj h1]
    simp only [s15Piece, Piece.eval, horner, List.foldl_cons, List.foldl_nil]
    norm_num
  -- and just before
  have hcont := (piece_continuous (s15Piece (1945, 1950, 614, -1232, 2499, 27050))).continuousAt (x := 1950)
  obtain ⟨η, hη, hnear⟩ := stepAtMost_zero.2 hcont 0.00005 (by norm_num)
  have hval : (s15Piece (1945, 1950, 614, -1232, 2499, 27050)).eval 1950 = 28.931 := by
    simp only [s15Piece, Piece.eval, horner, List.foldl_cons, List.foldl_nil]
    norm_num
  rw [hval] at hnear
  obtain ⟨ε, hε, l1, l2, l3⟩ : ∃ ε > 0, ε < δ ∧ ε < η ∧ ε < (1e-9 : ℝ) := by
    refine ⟨min δ (min η 1e-9) / 2, by positivity, ?_, ?_, ?_⟩
    · have := min_le_left δ (min η 1e-9); have : 0 < min δ (min η 1e-9) := by positivity
      linarith
    · have := (min_le_right δ (min η 1e-9)).trans (min_le_left _ _); have : 0 < min δ (min η 1e-9) := by positivity
      linarith
    · have := (min_le_right δ (min η 1e-9)).trans (min_le_right _ _); have : 0 < min δ (min η 1e-9) := by positivity
      linarith
  have hJ : (2433282.5 - ε - 1721045) / (36525 / 100) = 1950 - ε / 365.25 := by ring
  have hs : 0 < ε / 365.25 := by positivity
  have hs' : ε / 365.25 < ε := by rw [div_lt_iff₀ (by norm_num)]; linarith
  have ha : |ts.deltaT (2433282.5 - ε) - 28.931| < 0.00005 := by
    have h1 := hold (2433282.5 - ε) (by rw [hJ]; linarith) (by rw [hJ]; linarith)
    rw [hJ, split 34 (1945, 1950, 614, -1232, 2499, 27050) _ (by decide) (by push_cast; linarith)
      (hafter 34 1950 _ (by decide) (by push_cast; linarith))] at h1
    rw [← Option.some.inj h1]
    refine hnear _ ?_
    rw [show 1950 - ε / 365.25 - 1950 = -(ε / 365.25) by ring, abs_neg, abs_of_pos hs]
    linarith
  have hut : ∀ x : ℝ, (ts.ttJd x none).ut1 = x - ts.deltaT x / 86400 := by
    intro x
    have e := (C11_jd_reads_back ts x 0).1
    have h2 : (ts.ttJd x none).ut1 = (ts.ttJd x none).tt - ts.deltaT (ts.ttJd x none).tt / 86400 := by
      simp only [Timescale.ttJd, Time.ut1, Time.ut1Fraction, Time.deltaT, dayS, Time.tt]
      ring
    rw [h2, e]
  have ha' := abs_lt.1 ha
  refine ⟨2433282.5 - ε, 2433282.5, by linarith, by linarith, ?_, ?_⟩
  · rw [hut, hut, hb]
    linarith [ha'.2]
  · rw [hb]
    linarith [ha'.2]

/-- There is such a time scale, and noon of 2000 January 1 and of 2020 January 1 are times of it that meet the hypotheses above. -/
example : ∃ (ts : Timescale ℝ) (t u : Time ℝ), ts.IsBuiltin ∧ t.ts = ts ∧ u.ts = ts ∧ (t.tdbFraction? = none ∧ t.ut1Fraction? = none) ∧
    (u.tdbFraction? = none ∧ u.ut1Fraction? = none) ∧ t.Coherent ∧ t.TaiConsistent ∧ InDailyTable t.tt ∧ InDailyTable u.tt ∧ t.tt < u.tt ∧
    t.ts.IsBuiltin := by
  obtain ⟨ts, h, -⟩ := builtin_exists none
  refine ⟨ts, ts.ttJd 2451545 none, ts.ttJd 2458850 none, h, rfl, rfl, ⟨rfl, rfl⟩, ⟨rfl, rfl⟩, ?_, ?_, ?_, ?_, ?_, h⟩
  · exact coherent_of_none _ rfl
  · rfl
  all_goals
    rw [(C11_jd_reads_back ts _ 0).1]
    try rw [(C11_jd_reads_back ts _ 0).1]
    try unfold InDailyTable
    norm_num

end Skyfield
