import Verif.Model.PropagateArrays
import Verif.Props.ElementArrays
import Verif.Props.Propagate

/-
C86: propagating an orbit to many times at once is propagating it to each time by itself.
-/
namespace Skyfield
open Real

namespace ArrayBranch
section Maps
variable {ι : Type*} (l : List ι)

theorem maskOr_map (p q : ι → Bool) : maskOr (l.map p) (l.map q) = l.map fun i => p i || q i := zipWith_maps l _ _ _
theorem mask2_map {α β : Type*} (g : ι → α) (h : ι → β) (p : α → β → Prop) :
    mask2 (l.map g) (l.map h) p = l.map fun i => open Classical in decide (p (g i) (h i)) := zipWith_maps l _ _ _
theorem anyOf_map (p : ι → Bool) : anyOf (l.map p) = l.any p := by
  unfold anyOf; rw [List.any_map]; rfl

end Maps

theorem stumpffColumns_map {ι : Type*} (l : List ι) (g : ι → ℝ) :
    stumpffColumns (l.map g) = ⟨l.map fun i => (stumpffCode (g i)).c0, l.map fun i => (stumpffCode (g i)).c1,
      l.map fun i => (stumpffCode (g i)).c2, l.map fun i => (stumpffCode (g i)).c3⟩ := by
  unfold stumpffColumns
  simp only [map_maps, zeros_map, mask_map, pick_map, put_map, maskOr_map, maskNot_map, anyOf_map, zipWith_maps]
  have cases : ∀ i, (g i < -1 ∧ ¬ g i > 1) ∨ (¬ g i < -1 ∧ g i > 1) ∨ (¬ g i < -1 ∧ ¬ g i > 1) := by
    intro i
    rcases lt_or_ge (g i) (-1) with h | h
    · exact Or.inl ⟨h, by linarith⟩
    · rcases lt_or_ge 1 (g i) with h' | h'
      · exact Or.inr (Or.inl ⟨not_lt.2 h, h'⟩)
      · exact Or.inr (Or.inr ⟨not_lt.2 h, not_lt.2 h'⟩)
  split
  · simp only [map_maps, pick_map, put_map, maskNot_map, zipWith_maps]
    congr 1 <;> refine List.map_congr_left fun i _ => ?_ <;> unfold stumpffCode <;> rcases cases i with ⟨h1, h2⟩ | ⟨h1, h2⟩ | ⟨h1, h2⟩ <;>
      simp [h1, h2]
  · rename_i hm
    simp only [map_maps, pick_map, put_map, maskNot_map, zipWith_maps]
    rw [List.any_eq_true] at hm
    push Not at hm
    congr 1 <;> refine List.map_congr_left fun i hi => ?_ <;> unfold stumpffCode <;> rcases cases i with ⟨h1, h2⟩ | ⟨h1, h2⟩ | ⟨h1, h2⟩ <;>
      first
      | (simp [h1, h2]; done)
      | exact absurd (hm i hi) (by simp [h1, h2])

/-- **C86.** The Stumpff functions of an array are those of each of its entries. -/
theorem _root_.Skyfield.C86_stumpff (x : List ℝ) :
    let s := stumpffColumns x
    s.c0 = x.map (fun x => (stumpffCode x).c0) ∧ s.c1 = x.map (fun x => (stumpffCode x).c1) ∧
    s.c2 = x.map (fun x => (stumpffCode x).c2) ∧ s.c3 = x.map (fun x => (stumpffCode x).c3) := by
  have := stumpffColumns_map x fun x => x
  rw [List.map_id'] at this
  rw [this]
  exact ⟨rfl, rfl, rfl, rfl⟩

theorem bisectMany_map {ι : Type*} (k : ℝ → ℝ) (l : List ι) (dt : ι → ℝ) : ∀ (fuel : ℕ) (lo up x kf : ι → ℝ) (lc mc : ι → ℕ),
    bisectMany k (l.map dt) fuel ⟨l.map lo, l.map up, l.map x, l.map kf, l.map lc, l.map mc⟩ =
      l.map fun i => bisectLoop k (dt i) fuel (lo i) (up i) (x i) (lc i) (mc i) := by
  intro fuel
  induction fuel with
  | zero => intros; rfl
  | succ fuel ih =>
    intro lo up x kf lc mc
    have hdone : ∀ (n : ℕ) (i : ι) (c : ℕ), lc i ≤ c → ¬ (lo i < x i ∧ x i < up i ∧ lc i < mc i) →
        bisectLoop k (dt i) n (lo i) (up i) (x i) c (mc i) = x i := by
      intro n i c hc h
      cases n with
      | zero => rfl
      | succ m => rw [bisectLoop, if_pos fun hh => h ⟨hh.1, hh.2.1, by omega⟩]
    rw [bisectMany]
    simp only [BisectColumns.notDone, BisectColumns.round, mask2_map, maskAnd_map, maskOr_map, maskNot_map, mask_map, anyOf_map, pick_map, map_maps,
      put_map, npWhere_map, zipWith_maps]
    split
    · rw [ih]
      refine List.map_congr_left fun i _ => ?_
      by_cases h : lo i < x i ∧ x i < up i ∧ lc i < mc i
      · rw [bisectLoop, if_neg (not_not.2 h)]
        simp only [h, decide_true, Bool.and_self, Bool.and_true, Bool.true_and, if_true, decide_eq_true_eq, Bool.or_eq_true, Bool.and_eq_true,
          Bool.not_eq_true', decide_eq_false_iff_not]
        generalize (if k (x i) < dt i ∨ ¬k (x i) > dt i ∧ ¬k (x i) < dt i then x i else lo i) = L
        generalize (if k (x i) > dt i ∨ ¬k (x i) > dt i ∧ ¬k (x i) < dt i then x i else up i) = U
        simp only [and_assoc]
        congr 1
        by_cases hLU : L ≤ U
        · rw [if_pos hLU, if_neg (not_lt.2 hLU)]
        · rw [if_neg hLU, if_pos (not_le.1 hLU), if_pos (not_le.1 hLU)]
      · have hb : (@decide (lo i < x i) (Classical.propDecidable _) && @decide (x i < up i) (Classical.propDecidable _) &&
            @decide (lc i < mc i) (Classical.propDecidable _)) = false := by
          rw [Bool.eq_false_iff]; intro hc; apply h; simpa [and_assoc] using hc
        rw [hdone _ i _ le_rfl h]
        simp only [hb, Bool.and_false, Bool.false_and, Bool.or_self, Bool.false_eq_true, if_false]
        exact hdone _ i _ (Nat.le_succ _) h
    · rename_i h
      refine List.map_congr_left fun i hi => ?_
      rw [hdone _ i _ le_rfl]
      rw [List.any_eq_true] at h
      push Not at h
      have := h i hi
      simpa [and_assoc] using this

/-- The first guess, held within the limits. -/
noncomputable def firstGuess (bq bound dt : ℝ) : ℝ :=
  open Classical in
  let x := if dt / bq < -bound then -bound else dt / bq
  if x > bound then bound else x

theorem doublePast_stop {ι : Type*} {k : ℝ → ℝ} {bound : ℝ} {l : List ι} {dt kf : ι → ℝ} {lo up x : List ℝ} {n : ℕ}
    (h : ∀ i ∈ l, dt i < 0 → ¬ kf i > dt i) :
    doublePast k bound (l.map dt) (mask (l.map dt) (· < 0)) (n + 1) ⟨lo, up, x, l.map kf⟩ = some ⟨lo, up, x, l.map kf⟩ := by
  rw [doublePast]
  simp only [mask_map, pick_map, mask2_map, anyOf_map]
  rw [if_neg]
  rw [List.any_eq_true]
  rintro ⟨i, hi, hd⟩
  simp only [List.mem_filter, decide_eq_true_eq] at hi hd
  exact h i hi.1 hi.2 hd

theorem doublePast_fail {ι : Type*} {k : ℝ → ℝ} {bound : ℝ} {l : List ι} {dt kf lo x : ι → ℝ} {up : List ℝ} {n : ℕ} {i : ι}
    (hi : i ∈ l) (hd : dt i < 0) (hk : kf i > dt i) (hx : clipTo bound (lo i * 2) = x i) :
    doublePast k bound (l.map dt) (mask (l.map dt) (· < 0)) (n + 1) ⟨l.map lo, up, l.map x, l.map kf⟩ = none := by
  rw [doublePast]
  simp only [mask_map, pick_map, mask2_map, anyOf_map, map_maps, put_map]
  rw [if_pos, if_pos]
  · rw [List.any_eq_true]
    refine ⟨i, ?_, ?_⟩
    · simp [List.mem_filter, hi, hd]
    · simp [hd, hx]
  · rw [List.any_eq_true]
    refine ⟨i, ?_, ?_⟩
    · simp [List.mem_filter, hi, hd]
    · simpa using hk

theorem doubleFuture_stop {ι : Type*} {k : ℝ → ℝ} {bound : ℝ} {l : List ι} {dt kf : ι → ℝ} {lo up x : List ℝ} {n : ℕ}
    (h : ∀ i ∈ l, dt i > 0 → ¬ kf i < dt i) :
    doubleFuture k bound (l.map dt) (mask (l.map dt) (· > 0)) (n + 1) ⟨lo, up, x, l.map kf⟩ = some ⟨lo, up, x, l.map kf⟩ := by
  rw [doubleFuture]
  simp only [mask_map, pick_map, mask2_map, anyOf_map]
  rw [if_neg]
  rw [List.any_eq_true]
  rintro ⟨i, hi, hd⟩
  simp only [List.mem_filter, decide_eq_true_eq] at hi hd
  exact h i hi.1 hi.2 hd

theorem doubleFuture_fail {ι : Type*} {k : ℝ → ℝ} {bound : ℝ} {l : List ι} {dt kf up x : ι → ℝ} {lo : List ℝ} {n : ℕ} {i : ι}
    (hi : i ∈ l) (hd : dt i > 0) (hk : kf i < dt i) (hx : clipTo bound (up i * 2) = x i) :
    doubleFuture k bound (l.map dt) (mask (l.map dt) (· > 0)) (n + 1) ⟨lo, l.map up, l.map x, l.map kf⟩ = none := by
  rw [doubleFuture]
  simp only [mask_map, pick_map, mask2_map, anyOf_map, map_maps, put_map]
  rw [if_pos, if_pos]
  · rw [List.any_eq_true]
    refine ⟨i, ?_, ?_⟩
    · simp [List.mem_filter, hi, hd]
    · simp [hd, hx]
  · rw [List.any_eq_true]
    refine ⟨i, ?_, ?_⟩
    · simp [List.mem_filter, hi, hd]
    · simpa using hk

theorem mapM_some {α β : Type} {l : List α} {f : α → Option β} {g : α → β} (h : ∀ a ∈ l, f a = some (g a)) :
    l.mapM f = some (l.map g) := by
  induction l with
  | nil => rfl
  | cons a l ih =>
    rw [List.mapM_cons, h a (by simp), ih fun b hb => h b (by simp [hb])]
    rfl

theorem mapM_none {α β : Type} {l : List α} {f : α → Option β} {a : α} (ha : a ∈ l) (h : f a = none) : l.mapM f = none := by
  induction l with
  | nil => simp at ha
  | cons b l ih =>
    rw [List.mapM_cons]
    rcases List.mem_cons.1 ha with rfl | ha
    · rw [h]; rfl
    · rw [ih ha]; cases f b <;> rfl

/-- The search for an array of times against the search for each, for any function that the first guess overshoots. -/
theorem solveMany_eq {k : ℝ → ℝ} {bq bound : ℝ} (hb : 0 ≤ bound) (hbq : 0 < bq)
    (hg1 : ∀ dt, 0 ≤ dt → dt ≤ k (dt / bq)) (hg2 : ∀ dt, dt ≤ 0 → k (dt / bq) ≤ dt) (l : List ℝ) :
    solveMany k bq bound l = l.mapM (solveKepler k bq bound) := by
  have hl : l = l.map fun d => d := by simp
  -- a guess that misses has been held at the limit
  have past : ∀ d, d < 0 → k (firstGuess bq bound d) > d → firstGuess bq bound d = -bound := by
    intro d hd hk
    have hneg : d / bq < 0 := div_neg_of_neg_of_pos hd hbq
    by_cases h1 : d / bq < -bound
    · unfold firstGuess; simp only [if_pos h1]; rw [if_neg (by linarith)]
    · exfalso
      have : firstGuess bq bound d = d / bq := by unfold firstGuess; simp only [if_neg h1]; rw [if_neg (by linarith)]
      rw [this] at hk
      exact absurd (hg2 d hd.le) (not_le.2 hk)
  have future : ∀ d, d > 0 → k (firstGuess bq bound d) < d → firstGuess bq bound d = bound := by
    intro d hd hk
    have hpos : 0 < d / bq := div_pos hd hbq
    have h1 : ¬ d / bq < -bound := by linarith
    by_cases h2 : d / bq > bound
    · unfold firstGuess; simp only [if_neg h1, if_pos h2]
    · exfalso
      have : firstGuess bq bound d = d / bq := by unfold firstGuess; simp only [if_neg h1, if_neg h2]
      rw [this] at hk
      exact absurd (hg1 d hd.le) (not_le.2 hk)
  have clip1 : clipTo bound (-bound * 2) = -bound := by
    unfold clipTo; rw [max_eq_right (by linarith), min_eq_left (by linarith)]
  have clip2 : clipTo bound (bound * 2) = bound := by
    unfold clipTo; rw [max_eq_left (by linarith), min_eq_right (by linarith)]
  have scalar : ∀ d, solveKepler k bq bound d = (open Classical in
      (if d < 0 then bracketPast k d bound 1100 (firstGuess bq bound d) 0 (firstGuess bq bound d)
       else if d > 0 then bracketFuture k d bound 1100 0 (firstGuess bq bound d) (firstGuess bq bound d)
       else some (0, 0)).map fun (lower, upper) =>
        bisectLoop k d 1100 lower upper (if lower ≤ upper then (upper + lower) / 2 else upper) 0 1000) := fun d => rfl
  have many : solveMany k bq bound l = (doublePast k bound (l.map fun d => d) (mask (l.map fun d => d) (· < 0)) 1100
      ⟨l.map fun d => open Classical in if d < 0 then firstGuess bq bound d else 0,
       l.map fun d => open Classical in if d > 0 then firstGuess bq bound d else 0,
       l.map (firstGuess bq bound), l.map fun d => k (firstGuess bq bound d)⟩).bind fun s =>
      (doubleFuture k bound (l.map fun d => d) (mask (l.map fun d => d) (· > 0)) 1100 s).map fun s =>
      let x := npWhere (mask2 s.lower s.upper (· ≤ ·)) (List.zipWith (fun u l => (u + l) / 2) s.upper s.lower) s.upper
      bisectMany k (l.map fun d => d) 1100 ⟨s.lower, s.upper, x, s.kfun, (l.map fun d => d).map fun _ => 0, (l.map fun d => d).map fun _ => 1000⟩ := by
    conv_lhs => rw [hl]
    unfold solveMany
    simp only [map_maps, mask_map, npWhere_map, zeros_map, decide_eq_true_eq]
    rfl
  rw [many]
  by_cases hA : ∃ d ∈ l, d < 0 ∧ k (firstGuess bq bound d) > d
  · obtain ⟨d, hd, h0, hk⟩ := hA
    have hx := past d h0 hk
    rw [doublePast_fail (i := d) hd h0 hk (by rw [if_pos h0, hx, clip1])]
    rw [mapM_none hd]
    · rfl
    · rw [scalar, if_pos h0, bracketPast, if_pos hk]
      simp only
      rw [if_pos]
      · rfl
      · rw [hx]; exact clip1
  · push Not at hA
    rw [doublePast_stop (n := 1099) (by intro d hd h0; exact not_lt.2 (hA d hd h0))]
    rw [Option.bind_some]
    by_cases hB : ∃ d ∈ l, d > 0 ∧ k (firstGuess bq bound d) < d
    · obtain ⟨d, hd, h0, hk⟩ := hB
      have hx := future d h0 hk
      rw [doubleFuture_fail (i := d) hd h0 hk (by rw [if_pos h0, hx, clip2])]
      rw [mapM_none hd]
      · rfl
      · rw [scalar, if_neg (not_lt.2 h0.le), if_pos h0, bracketFuture, if_pos hk]
        simp only
        rw [if_pos]
        · rfl
        · rw [hx]; exact clip2
    · push Not at hB
      rw [doubleFuture_stop (n := 1099) (by intro d hd h0; exact not_lt.2 (hB d hd h0))]
      rw [Option.map_some]
      simp only [mask2_map, map_maps, zipWith_maps, npWhere_map, bisectMany_map, decide_eq_true_eq]
      symm
      apply mapM_some
      intro d hd
      rw [scalar]
      rcases lt_trichotomy d 0 with h0 | h0 | h0
      · rw [if_pos h0, bracketPast_stop (by norm_num) (not_lt.2 (hA d hd h0)), if_pos h0, if_neg (not_lt.2 h0.le)]; rfl
      · subst h0; simp
      · rw [if_neg (not_lt.2 h0.le), if_pos h0, bracketFuture_stop (by norm_num) (not_lt.2 (hB d hd h0)), if_neg (not_lt.2 h0.le),
          if_pos h0]; rfl

/-- **C86.** Propagating an orbit to an array of times gives, entry for entry, what propagating it to each time by itself
gives; and a `ValueError` exactly if one of the times by itself gives one (or there is no orbit). -/
theorem _root_.Skyfield.C86_propagate (P V : Vec3) (t0 gm bound : ℝ) (ts : List ℝ) (hb : 0 ≤ bound) :
    (0 < gm → P.cross V ≠ 0 →
      propagateMany bound P V t0 ts gm = ts.mapM fun t => propagate bound P V t0 t gm) ∧
    (gm ≤ 0 ∨ P.cross V = 0 → propagateMany bound P V t0 ts gm = none) := by
  constructor
  · intro hgm hh
    have hP : P ≠ 0 := by rintro rfl; exact hh (by ext <;> simp [Vec3.cross])
    have hV : V ≠ 0 := by rintro rfl; exact hh (by ext <;> simp [Vec3.cross])
    have one : ∀ t, propagate bound P V t0 t gm = (solveKepler (keplerFn (orbitConstants P V gm)) (orbitConstants P V gm).bq bound
        (t - t0)).map fun x => stateAt (orbitConstants P V gm) P V (t - t0) x := by
      intro t
      unfold propagate
      rw [if_neg (not_le.2 hgm), if_neg (Vec3.length_pos hV).ne', if_neg (Vec3.length_pos hP).ne',
        if_neg fun e => hh (Vec3.dot_self_eq_zero.1 e)]
    unfold propagateMany
    rw [if_neg (not_le.2 hgm), if_neg (Vec3.length_pos hV).ne', if_neg (Vec3.length_pos hP).ne',
      if_neg fun e => hh (Vec3.dot_self_eq_zero.1 e)]
    simp only [one]
    obtain ⟨q, hf⟩ := orbit_facts hgm hh
    generalize orbitConstants P V gm = o at *
    rw [solveMany_eq hb (bq_pos hf) (fun d h => (kepler_guess hf (dt := d)).1 h) (fun d h => (kepler_guess hf (dt := d)).2 h)]
    induction ts with
    | nil => rfl
    | cons t ts ih =>
      rw [List.map_cons, List.mapM_cons, List.mapM_cons, ← ih]
      cases solveKepler (keplerFn o) o.bq bound (t - t0) with
      | none => rfl
      | some x => cases List.mapM (solveKepler (keplerFn o) o.bq bound) (ts.map fun t => t - t0) <;> rfl
  · intro h
    unfold propagateMany
    split_ifs with h1 h2 h3 h4 <;> try rfl
    rcases h with h | h
    · exact absurd h h1
    · exact absurd (by rw [h]; simp [Vec3.dot]) h4

/-- Non-vacuity of `C86_propagate`: an orbit and three times, before, at and after the epoch, none beyond the limit. -/
example : (0 : ℝ) < 1 ∧ (⟨1, 0, 0⟩ : Vec3).cross ⟨0, 1, 0⟩ ≠ 0 ∧
    ∃ r, propagateMany 1000 ⟨1, 0, 0⟩ ⟨0, 1, 0⟩ 0 [-1, 0, 2] 1 = some r ∧ r.length = 3 := by
  have hh : (⟨1, 0, 0⟩ : Vec3).cross ⟨0, 1, 0⟩ ≠ 0 := fun h => by have := congrArg Vec3.z h; norm_num [Vec3.cross] at this
  refine ⟨one_pos, hh, ?_⟩
  rw [(C86_propagate _ _ _ _ _ _ (by norm_num)).1 one_pos hh]
  have e1 : (orbitConstants ⟨1, 0, 0⟩ ⟨0, 1, 0⟩ 1).bq = 1 := by
    have l1 : (⟨1, 0, 0⟩ : Vec3).length = 1 := by unfold Vec3.length; norm_num
    have l0 : (⟨0, 0, 0⟩ : Vec3).length = 0 := by unfold Vec3.length; norm_num
    have hv : ((1 / 1 : ℝ) • (⟨0, 1, 0⟩ : Vec3).cross ((⟨1, 0, 0⟩ : Vec3).cross ⟨0, 1, 0⟩) + (1 / (1 : ℝ)) • (-(⟨1, 0, 0⟩ : Vec3))) =
        ⟨0, 0, 0⟩ := by ext <;> simp [Vec3.cross]
    unfold orbitConstants
    simp only [l1, hv, l0]
    norm_num [Vec3.cross, Vec3.dot]
  have key : ∀ t : ℝ, |t| ≤ 1000 → ∃ s, propagate 1000 ⟨1, 0, 0⟩ ⟨0, 1, 0⟩ 0 t 1 = some s := by
    intro t ht
    obtain ⟨x, root, h, -⟩ := (C45_propagate ⟨1, 0, 0⟩ ⟨0, 1, 0⟩ 0 t 1 1000).2 one_pos hh (by rw [e1]; simpa using ht)
    exact ⟨_, h⟩
  obtain ⟨s1, h1⟩ := key (-1) (by norm_num)
  obtain ⟨s2, h2⟩ := key 0 (by norm_num)
  obtain ⟨s3, h3⟩ := key 2 (by norm_num)
  exact ⟨[s1, s2, s3], by rw [List.mapM_cons, List.mapM_cons, List.mapM_cons, h1, h2, h3]; rfl, rfl⟩

end ArrayBranch
end Skyfield
