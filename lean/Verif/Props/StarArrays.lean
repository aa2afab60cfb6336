import Verif.Model.StarArrays
import Verif.Spec.VectorArrays
import Mathlib.Tactic

/-
C88: arrays of stars, of times and of positions, with NumPy's broadcasting.
-/
namespace Skyfield
open Spec

private theorem bdim_self (n : ℕ) : Nd.bdim n n = some n := by simp [Nd.bdim]

private theorem bdim_one_left (n : ℕ) : Nd.bdim 1 n = some n := by
  by_cases h : 1 = n
  · subst h; rfl
  · simp [Nd.bdim, h]

private theorem bdim_one_right (n : ℕ) : Nd.bdim n 1 = some n := by
  by_cases h : n = 1
  · subst h; rfl
  · simp [Nd.bdim, h]

/-- The place of an index among the entries of an array, in C order. -/
def flatIndex : List ℕ → List ℕ → ℕ
  | _ :: s, i :: is => i * s.prod + flatIndex s is
  | _, _ => 0

/-- Flattening counts the entries in C order: every index of the array has its own place. -/
theorem unravel_flatIndex (shape index : List ℕ) (h : List.Forall₂ (· < ·) index shape) :
    flatIndex shape index < shape.prod ∧ Nd.unravel shape (flatIndex shape index) = index := by
  induction h with
  | nil => exact ⟨by simp [flatIndex], rfl⟩
  | @cons i d is s hi _ ih =>
    obtain ⟨h1, h2⟩ := ih
    simp only [flatIndex, List.prod_cons, Nd.unravel]
    have hs : 0 < s.prod := by omega
    refine ⟨by nlinarith, ?_⟩
    have e1 : (i * s.prod + flatIndex s is) / s.prod = i := by
      rw [mul_comm, Nat.mul_add_div hs, Nat.div_eq_of_lt h1, add_zero]
    have e2 : (i * s.prod + flatIndex s is) % s.prod = flatIndex s is := by
      rw [mul_comm, Nat.mul_add_mod, Nat.mod_eq_of_lt h1]
    rw [e1, e2, h2]

example : flatIndex [2, 3, 4] [1, 2, 3] = 23 ∧ Nd.unravel [2, 3, 4] 23 = [1, 2, 3] := ⟨rfl, rfl⟩

/-- **C88**: one star observed at any number of times: every member of the result is what observing at that one time gives. -/
theorem C88_star_at_times (tiny : ℝ) (m : ℕ) (position velocity epoch tdb tt observer observerVelocity : Nd ℝ)
    (hp : position.shape = [3]) (hv : velocity.shape = [3]) (he : epoch.shape = []) (ht : tdb.shape = [m])
    (ho : observer.shape = [3, m]) (hw : observerVelocity.shape = [3, m]) :
    ∃ r, starObserveNd tiny position velocity epoch tdb tt observer observerVelocity = some r ∧
      r.vector.shape = [3, m] ∧ r.velocity.shape = [3, m] ∧ r.lightTime.shape = [m] ∧ r.tt = tt ∧
      ∀ i < m, StarSight.mk (vectorAt r.vector [i]) (vectorAt r.velocity [i]) (r.lightTime.entry [i]) =
        starObserve tiny (vectorAt position [], vectorAt velocity []) (epoch.entry []) (tdb.entry [i])
          (vectorAt observer [i], vectorAt observerVelocity [i]) := by
  obtain ⟨_, p⟩ := position
  obtain ⟨_, v⟩ := velocity
  obtain ⟨_, ep⟩ := epoch
  obtain ⟨_, tdb⟩ := tdb
  obtain ⟨_, ob⟩ := observer
  obtain ⟨_, obv⟩ := observerVelocity
  simp only at hp hv he ht ho hw
  subst hp hv he ht ho hw
  refine ⟨_, by
    simp [starObserveNd, starMovedNd, starRelativeNd, lightTimeDifferenceNd, lengthNd, Nd.map2, Nd.bshape, Nd.bshapeRev,
      Nd.bdim, Nd.sum0, Nd.einsum0, Nd.map, Nd.outer, Nd.transpose]
    rfl, rfl, rfl, rfl, rfl, ?_⟩
  intro i hi
  have e : (if m = 1 then 0 else i) = i := by split_ifs <;> omega
  simp [vectorAt, Nd.bindex, Nd.unravel, Finset.sum_range_succ, e, starObserve, lightTimeDifference, Vec3.dot, Vec3.length]
  refine ⟨by ext <;> simp <;> ring, by ext <;> simp, ?_⟩
  congr 2
  ring

/-- **C88**: any number of stars observed at one time, with one epoch or an epoch each: every member of the result is what observing
that one star gives, and the time is repeated for every star. -/
theorem C88_stars_at_time (tiny : ℝ) (n : ℕ) (position velocity epoch tdb tt observer observerVelocity : Nd ℝ)
    (hp : position.shape = [3, n]) (hv : velocity.shape = [3, n]) (he : epoch.shape = [] ∨ epoch.shape = [n])
    (ht : tdb.shape = []) (ho : observer.shape = [3]) (hw : observerVelocity.shape = [3]) :
    ∃ r, starObserveNd tiny position velocity epoch tdb tt observer observerVelocity = some r ∧
      r.vector.shape = [3, n] ∧ r.velocity.shape = [3, n] ∧ r.lightTime.shape = [n] ∧ r.tt.shape = [n] ∧
      ∀ i < n, r.tt.entry [i] = tt.entry [] ∧
        StarSight.mk (vectorAt r.vector [i]) (vectorAt r.velocity [i]) (r.lightTime.entry [i]) =
        starObserve tiny (vectorAt position [i], vectorAt velocity [i])
          (epoch.entry (if epoch.shape = [] then [] else [i])) (tdb.entry [])
          (vectorAt observer [], vectorAt observerVelocity []) := by
  obtain ⟨_, p⟩ := position
  obtain ⟨_, v⟩ := velocity
  obtain ⟨_, ep⟩ := epoch
  obtain ⟨_, tdb⟩ := tdb
  obtain ⟨_, ob⟩ := observer
  obtain ⟨_, obv⟩ := observerVelocity
  simp only at hp hv he ht ho hw
  subst hp hv ht ho hw
  rcases he with he | he <;> subst he
  all_goals
    refine ⟨_, by
      simp [starObserveNd, starMovedNd, starRelativeNd, lightTimeDifferenceNd, lengthNd, Nd.map2, Nd.bshape, Nd.bshapeRev,
        Nd.bdim, Nd.sum0, Nd.einsum0, Nd.map, Nd.outer, Nd.transpose]
      rfl, rfl, rfl, rfl, rfl, ?_⟩
    intro i hi
    refine ⟨rfl, ?_⟩
    have e : (if n = 1 then 0 else i) = i := by split_ifs <;> omega
    simp [vectorAt, Nd.bindex, Finset.sum_range_succ, e, starObserve, lightTimeDifference, Vec3.dot, Vec3.length]
    refine ⟨by ext <;> simp <;> ring, by ext <;> simp, ?_⟩
    congr 2
    ring

/-- **C88**: one star at one time: the arrays hold what the scalar computation gives. -/
theorem C88_star_at_time (tiny : ℝ) (position velocity epoch tdb tt observer observerVelocity : Nd ℝ)
    (hp : position.shape = [3]) (hv : velocity.shape = [3]) (he : epoch.shape = []) (ht : tdb.shape = [])
    (ho : observer.shape = [3]) (hw : observerVelocity.shape = [3]) :
    ∃ r, starObserveNd tiny position velocity epoch tdb tt observer observerVelocity = some r ∧
      r.vector.shape = [3] ∧ r.velocity.shape = [3] ∧ r.lightTime.shape = [] ∧ r.tt = tt ∧
      StarSight.mk (vectorAt r.vector []) (vectorAt r.velocity []) (r.lightTime.entry []) =
        starObserve tiny (vectorAt position [], vectorAt velocity []) (epoch.entry []) (tdb.entry [])
          (vectorAt observer [], vectorAt observerVelocity []) := by
  obtain ⟨_, p⟩ := position
  obtain ⟨_, v⟩ := velocity
  obtain ⟨_, ep⟩ := epoch
  obtain ⟨_, tdb⟩ := tdb
  obtain ⟨_, ob⟩ := observer
  obtain ⟨_, obv⟩ := observerVelocity
  simp only at hp hv he ht ho hw
  subst hp hv he ht ho hw
  refine ⟨_, by
    simp [starObserveNd, starMovedNd, starRelativeNd, lightTimeDifferenceNd, lengthNd, Nd.map2, Nd.bshape, Nd.bshapeRev,
      Nd.bdim, Nd.sum0, Nd.einsum0, Nd.map, Nd.outer, Nd.transpose]
    rfl, rfl, rfl, rfl, rfl, ?_⟩
  simp [vectorAt, Nd.bindex, Finset.sum_range_succ, starObserve, lightTimeDifference, Vec3.dot, Vec3.length]
  refine ⟨by ext <;> simp <;> ring, by ext <;> simp, ?_⟩
  congr 2
  ring

/-- **C88**: two or more stars cannot be observed at an array of times, whatever its length: `ValueError`. -/
theorem C88_stars_at_times_raise (tiny : ℝ) (n : ℕ) (hn : 2 ≤ n)
    (position velocity epoch tdb tt observer observerVelocity : Nd ℝ)
    (hp : position.shape = [3, n]) (hv : velocity.shape = [3, n]) (ht : tdb.shape ≠ []) :
    starObserveNd tiny position velocity epoch tdb tt observer observerVelocity = none := by
  have key : ∀ e : Nd ℝ, Nd.map2 (fun x y : ℝ => x + y) (Nd.outer (fun x y : ℝ => x * y) velocity e).transpose position = none := by
    intro e
    have hb : Nd.bdim (3 * n) n = none := by
      simp only [Nd.bdim]
      rw [if_neg (by omega), if_neg (by omega), if_neg (by omega)]
    simp [Nd.map2, Nd.outer, Nd.transpose, hp, hv, Nd.bshape, Nd.bshapeRev, hb]
  simp only [starObserveNd, starMovedNd, if_pos ht, key]
  cases lightTimeDifferenceNd tiny position observer with
  | none => rfl
  | some dt =>
    simp only [Option.bind_eq_bind, Option.bind_some]
    cases Nd.map2 (fun x y : ℝ => x + y) tdb dt with
    | none => rfl
    | some s =>
      simp only [Option.bind_some]
      cases Nd.map2 (fun x y : ℝ => x - y) s epoch <;> rfl

/-- **C88**: an array of one star (a catalogue of one row) cannot be observed at an array of times either, unless there are one or
three of them. -/
theorem C88_one_row_raises (tiny : ℝ) (m : ℕ) (h1 : m ≠ 1) (h3 : m ≠ 3)
    (position velocity epoch tdb tt observer observerVelocity : Nd ℝ)
    (hp : position.shape = [3, 1]) (hv : velocity.shape = [3, 1]) (he : epoch.shape = [] ∨ epoch.shape = [1])
    (ht : tdb.shape = [m]) (ho : observer.shape = [3, m]) :
    starObserveNd tiny position velocity epoch tdb tt observer observerVelocity = none := by
  obtain ⟨_, p⟩ := position
  obtain ⟨_, v⟩ := velocity
  obtain ⟨_, ep⟩ := epoch
  obtain ⟨_, tdb⟩ := tdb
  obtain ⟨_, ob⟩ := observer
  simp only at hp hv ht ho he
  subst hp hv ht ho
  have h1' : (1 : ℕ) ≠ m := fun h => h1 h.symm
  rcases he with he | he <;> subst he <;>
    simp [starObserveNd, starMovedNd, lightTimeDifferenceNd, lengthNd, Nd.map2, Nd.bshape, Nd.bshapeRev,
      Nd.bdim, Nd.sum0, Nd.einsum0, Nd.map, Nd.outer, Nd.transpose, h1, h3, h1']

/-- **C88** (defect): an array of one star observed at one or three times gives three vectors, which are not those of the star: the
`i`-th coordinate of the star's position is added to all three coordinates of the `i`-th vector. -/
theorem C88_one_row_mixes_coordinates (tiny : ℝ) (m : ℕ) (hm : m = 1 ∨ m = 3)
    (position velocity epoch tdb tt observer observerVelocity : Nd ℝ)
    (hp : position.shape = [3, 1]) (hv : velocity.shape = [3, 1]) (he : epoch.shape = [] ∨ epoch.shape = [1])
    (ht : tdb.shape = [m]) (ho : observer.shape = [3, m]) (hw : observerVelocity.shape = [3, m]) :
    ∃ r, starObserveNd tiny position velocity epoch tdb tt observer observerVelocity = some r ∧ r.vector.shape = [3, 3] ∧
      ∀ i < 3, ∀ j < 3,
        let k := if m = 1 then 0 else i
        r.vector.entry [j, i] = position.entry [i, 0] + velocity.entry [j, 0] *
          (tdb.entry [k] + lightTimeDifference tiny (vectorAt position [0]) (vectorAt observer [k])
            - epoch.entry (if epoch.shape = [] then [] else [0])) - observer.entry [j, k] := by
  obtain ⟨_, p⟩ := position
  obtain ⟨_, v⟩ := velocity
  obtain ⟨_, ep⟩ := epoch
  obtain ⟨_, tdb⟩ := tdb
  obtain ⟨_, ob⟩ := observer
  obtain ⟨_, obv⟩ := observerVelocity
  simp only at hp hv ht ho he hw
  subst hp hv ht ho hw
  rcases he with he | he <;> subst he <;> rcases hm with rfl | rfl
  all_goals
    refine ⟨_, by
      simp [starObserveNd, starMovedNd, starRelativeNd, lightTimeDifferenceNd, lengthNd, Nd.map2, Nd.bshape, Nd.bshapeRev,
        Nd.bdim, Nd.sum0, Nd.einsum0, Nd.map, Nd.outer, Nd.transpose]
      rfl, rfl, ?_⟩
    intro i hi j hj
    simp [vectorAt, Nd.bindex, Nd.unravel, Finset.sum_range_succ, lightTimeDifference, Vec3.dot, Vec3.length,
      Nat.mod_one]
    ring

/-- **C88** (defect, in the simplest case): a star that does not move, seen at three times from the barycentre.  Its three vectors
should all be its position; the `i`-th is instead its `i`-th coordinate, three times over, so that every star is seen in the direction
`(1, 1, 1)` or opposite to it. -/
theorem C88_one_row_direction (tiny : ℝ) (star : Vec3) (t : ℝ) :
    ∃ r, starObserveNd tiny ⟨[3, 1], fun i => if i = [0, 0] then star.x else if i = [1, 0] then star.y else star.z⟩
        ⟨[3, 1], fun _ => 0⟩ ⟨[1], fun _ => t⟩ ⟨[3], fun _ => t⟩ ⟨[3], fun _ => t⟩ ⟨[3, 3], fun _ => 0⟩ ⟨[3, 3], fun _ => 0⟩ = some r ∧
      vectorAt r.vector [0] = ⟨star.x, star.x, star.x⟩ ∧ vectorAt r.vector [1] = ⟨star.y, star.y, star.y⟩ ∧
      vectorAt r.vector [2] = ⟨star.z, star.z, star.z⟩ := by
  obtain ⟨r, h, -, e⟩ := C88_one_row_mixes_coordinates tiny 3 (Or.inr rfl)
    ⟨[3, 1], fun i => if i = [0, 0] then star.x else if i = [1, 0] then star.y else star.z⟩
    ⟨[3, 1], fun _ => 0⟩ ⟨[1], fun _ => t⟩ ⟨[3], fun _ => t⟩ ⟨[3], fun _ => t⟩ ⟨[3, 3], fun _ => 0⟩ ⟨[3, 3], fun _ => 0⟩
    rfl rfl (Or.inr rfl) rfl rfl rfl
  refine ⟨r, h, ?_, ?_, ?_⟩
  all_goals
    ext
    · rw [vectorAt, e _ (by norm_num) 0 (by norm_num)]; simp
    · rw [vectorAt, e _ (by norm_num) 1 (by norm_num)]; simp
    · rw [vectorAt, e _ (by norm_num) 2 (by norm_num)]; simp

/-- A case that meets the hypotheses of the theorems above: arrays of these shapes exist, for every number of members. -/
example (n : ℕ) : ∃ position velocity epoch tdb observer observerVelocity : Nd ℝ,
    position.shape = [3, n] ∧ velocity.shape = [3, n] ∧ epoch.shape = [n] ∧ tdb.shape = [] ∧ observer.shape = [3] ∧
    observerVelocity.shape = [3] ∧ vectorAt position [0] = ⟨1, 2, 3⟩ :=
  ⟨⟨[3, n], fun i => i.head! + 1⟩, ⟨[3, n], fun _ => 0⟩, ⟨[n], fun _ => 2451545⟩, ⟨[], fun _ => 2451545⟩, ⟨[3], fun _ => 0⟩,
    ⟨[3], fun _ => 0⟩, rfl, rfl, rfl, rfl, rfl, rfl, by ext <;> simp [vectorAt] <;> norm_num⟩

/-- Two stars at two times are refused. -/
example : starObserveNd 0 ⟨[3, 2], fun _ => 1⟩ ⟨[3, 2], fun _ => 0⟩ ⟨[], fun _ => 0⟩ ⟨[2], fun _ => 0⟩ ⟨[2], fun _ => 0⟩
    ⟨[3, 2], fun _ => 0⟩ ⟨[3, 2], fun _ => 0⟩ = none :=
  C88_stars_at_times_raise 0 2 le_rfl _ _ _ _ _ _ _ rfl rfl (by simp)

/-- **C88**: separations of an array of positions from one position, of one position from an array, and of two arrays of the same
shape are the separations of the members. -/
theorem C88_separation (n : ℕ) (u v : Nd ℝ)
    (h : (u.shape = [3, n] ∧ v.shape = [3]) ∨ (u.shape = [3] ∧ v.shape = [3, n]) ∨ (u.shape = [3, n] ∧ v.shape = [3, n])) :
    ∃ r, separationNd u v = some r ∧ r.shape = [n] ∧
      ∀ i < n, r.entry [i] = angleBetween (vectorAt u (if u.shape = [3] then [] else [i])) (vectorAt v (if v.shape = [3] then [] else [i])) := by
  obtain ⟨_, u⟩ := u
  obtain ⟨_, v⟩ := v
  simp only at h
  rcases h with ⟨h, h'⟩ | ⟨h, h'⟩ | ⟨h, h'⟩ <;> subst h h'
  all_goals
    refine ⟨_, by
      simp [separationNd, angleBetweenNd, lengthNd, Nd.map2, Nd.bshape, Nd.bshapeRev, bdim_self, bdim_one_left, bdim_one_right, Nd.sum0, Nd.map, Nd.addAxes]
      rfl, rfl, ?_⟩
    intro i hi
    have e : (if n = 1 then 0 else i) = i := by split_ifs <;> omega
    simp [vectorAt, Nd.bindex, Finset.sum_range_succ, e, angleBetween, Vec3.length]
    norm_num
    try (simp only [mul_comm])

/-- A row of numbers, one for every member or one for all. -/
private def Row (n k : ℕ) (a : Nd ℝ) (f : ℕ → ℝ) : Prop :=
  (k = 1 ∨ k = n) ∧ a.shape = [k] ∧ ∀ i < n, a.entry (Nd.bindex [k] [i]) = f i

/-- A row of vectors, one for every member or one for all. -/
private def Rows (n k : ℕ) (a : Nd ℝ) (f : ℕ → Vec3) : Prop :=
  (k = 1 ∨ k = n) ∧ a.shape = [3, k] ∧ ∀ i < n, vectorAt a (Nd.bindex [k] [i]) = f i

private theorem Row.map {n k : ℕ} {a : Nd ℝ} {f : ℕ → ℝ} (h : Row n k a f) (g : ℝ → ℝ) : Row n k (a.map g) (fun i => g (f i)) :=
  ⟨h.1, h.2.1, fun i hi => congrArg g (h.2.2 i hi)⟩

private theorem bdim_join {n k l : ℕ} (hk : k = 1 ∨ k = n) (hl : l = 1 ∨ l = n) :
    Nd.bdim k l = some (if k = 1 then l else k) := by
  by_cases h : k = 1
  · subst h; simp [bdim_one_left]
  · have := hk.resolve_left h
    subst this
    rw [if_neg h]
    rcases hl with rfl | rfl
    · exact bdim_one_right _
    · exact bdim_self _

private theorem join_mem {n k l : ℕ} (hk : k = 1 ∨ k = n) (hl : l = 1 ∨ l = n) :
    (if k = 1 then l else k) = 1 ∨ (if k = 1 then l else k) = n := by
  by_cases h : k = 1
  · rw [if_pos h]; exact hl
  · rw [if_neg h]; exact hk

private theorem bindex_left {n k l i : ℕ} (hi : i < n) (hk : k = 1 ∨ k = n) (hl : l = 1 ∨ l = n) :
    (if k = 1 then 0 else if (if k = 1 then l else k) = 1 then 0 else i) = if k = 1 then 0 else i := by
  by_cases h : k = 1
  · simp [h]
  · simp [h]

private theorem bindex_right {n k l i : ℕ} (hi : i < n) (hk : k = 1 ∨ k = n) (hl : l = 1 ∨ l = n) :
    (if l = 1 then 0 else if (if k = 1 then l else k) = 1 then 0 else i) = if l = 1 then 0 else i := by
  by_cases h : l = 1
  · simp [h]
  · by_cases h' : k = 1
    · simp [h, h']
    · simp [h, h']

private theorem Row.map2 {n k l : ℕ} {a b : Nd ℝ} {f g : ℕ → ℝ} (ha : Row n k a f) (hb : Row n l b g) (op : ℝ → ℝ → ℝ) :
    ∃ r, Nd.map2 op a b = some r ∧ Row n (if k = 1 then l else k) r (fun i => op (f i) (g i)) := by
  obtain ⟨hk, hs, he⟩ := ha
  obtain ⟨hl, hs', he'⟩ := hb
  refine ⟨_, by
    simp only [Nd.map2, hs, hs', Nd.bshape, List.reverse_cons, List.reverse_nil, List.nil_append, Nd.bshapeRev, bdim_join hk hl]
    rfl, join_mem hk hl, rfl, ?_⟩
  intro i hi
  have e1 := he i hi
  have e2 := he' i hi
  simp only [Nd.bindex, List.length_cons, List.length_nil, Nat.sub_self, List.drop_zero, List.zipWith_cons_cons,
    List.zipWith_nil_left] at e1 e2 ⊢
  rw [bindex_left hi hk hl, bindex_right hi hk hl, e1, e2]

private theorem Rows.row {n k l : ℕ} {a b : Nd ℝ} {f : ℕ → Vec3} {g : ℕ → ℝ} (ha : Rows n k a f) (hb : Row n l b g)
    (op : ℝ → ℝ → ℝ) :
    ∃ r, Nd.map2 op a b = some r ∧
      Rows n (if k = 1 then l else k) r (fun i => ⟨op (f i).x (g i), op (f i).y (g i), op (f i).z (g i)⟩) := by
  obtain ⟨hk, hs, he⟩ := ha
  obtain ⟨hl, hs', he'⟩ := hb
  refine ⟨_, by
    simp only [Nd.map2, hs, hs', Nd.bshape, List.reverse_cons, List.reverse_nil, List.nil_append, List.cons_append, Nd.bshapeRev,
      bdim_join hk hl]
    rfl, join_mem hk hl, rfl, ?_⟩
  intro i hi
  have e1 := he i hi
  have e2 := he' i hi
  simp only [vectorAt, Nd.bindex, List.length_cons, List.length_nil, Nat.sub_self, List.drop_zero, List.zipWith_cons_cons,
    List.zipWith_nil_left, Nat.reduceAdd, Nat.reduceSub, List.drop_succ_cons, Nat.reduceEqDiff, if_false] at e1 e2 ⊢
  rw [bindex_left hi hk hl, bindex_right hi hk hl, e2, ← e1]

private theorem Row.rows {n k l : ℕ} {a b : Nd ℝ} {f : ℕ → ℝ} {g : ℕ → Vec3} (ha : Row n k a f) (hb : Rows n l b g)
    (op : ℝ → ℝ → ℝ) :
    ∃ r, Nd.map2 op a b = some r ∧
      Rows n (if k = 1 then l else k) r (fun i => ⟨op (f i) (g i).x, op (f i) (g i).y, op (f i) (g i).z⟩) := by
  obtain ⟨hk, hs, he⟩ := ha
  obtain ⟨hl, hs', he'⟩ := hb
  refine ⟨_, by
    simp only [Nd.map2, hs, hs', Nd.bshape, List.reverse_cons, List.reverse_nil, List.nil_append, List.cons_append, Nd.bshapeRev,
      bdim_join hk hl]
    rfl, join_mem hk hl, rfl, ?_⟩
  intro i hi
  have e1 := he i hi
  have e2 := he' i hi
  simp only [vectorAt, Nd.bindex, List.length_cons, List.length_nil, Nat.sub_self, List.drop_zero, List.zipWith_cons_cons,
    List.zipWith_nil_left, Nat.reduceAdd, Nat.reduceSub, List.drop_succ_cons, Nat.reduceEqDiff, if_false] at e1 e2 ⊢
  rw [bindex_left hi hk hl, bindex_right hi hk hl, e1, ← e2]

private theorem Rows.map2 {n k l : ℕ} {a b : Nd ℝ} {f g : ℕ → Vec3} (ha : Rows n k a f) (hb : Rows n l b g)
    (op : ℝ → ℝ → ℝ) :
    ∃ r, Nd.map2 op a b = some r ∧
      Rows n (if k = 1 then l else k) r (fun i => ⟨op (f i).x (g i).x, op (f i).y (g i).y, op (f i).z (g i).z⟩) := by
  obtain ⟨hk, hs, he⟩ := ha
  obtain ⟨hl, hs', he'⟩ := hb
  refine ⟨_, by
    simp only [Nd.map2, hs, hs', Nd.bshape, List.reverse_cons, List.reverse_nil, List.nil_append, List.cons_append, Nd.bshapeRev,
      bdim_join hk hl, bdim_self]
    rfl, join_mem hk hl, rfl, ?_⟩
  intro i hi
  have e1 := he i hi
  have e2 := he' i hi
  simp only [vectorAt, Nd.bindex, List.length_cons, List.length_nil, Nat.sub_self, List.drop_zero, List.zipWith_cons_cons,
    List.zipWith_nil_left, Nat.reduceEqDiff, if_false] at e1 e2 ⊢
  rw [bindex_left hi hk hl, bindex_right hi hk hl, ← e1, ← e2]

private theorem Rows.sum0 {n k : ℕ} {a : Nd ℝ} {f : ℕ → Vec3} (ha : Rows n k a f) :
    ∃ r, a.sum0 = some r ∧ Row n k r (fun i => (f i).x + (f i).y + (f i).z) := by
  obtain ⟨hk, hs, he⟩ := ha
  refine ⟨_, by simp only [Nd.sum0, hs]; rfl, hk, rfl, ?_⟩
  intro i hi
  have e1 := he i hi
  simp only [vectorAt] at e1
  simp only [Finset.sum_range_succ, Finset.sum_range_zero, zero_add, ← e1]

private theorem join_self (k : ℕ) : (if k = 1 then k else k) = k := by split_ifs <;> rfl

private theorem Rows.length {n k : ℕ} {a : Nd ℝ} {f : ℕ → Vec3} (ha : Rows n k a f) :
    ∃ r, lengthNd a = some r ∧ Row n k r (fun i => (f i).length) := by
  obtain ⟨s, hs, h1⟩ := ha.map2 ha (· * ·)
  rw [join_self] at h1
  obtain ⟨t, ht, h2⟩ := h1.sum0
  exact ⟨t.map Real.sqrt, by simp [lengthNd, hs, ht], h2.map Real.sqrt⟩

private theorem Rows.dots {n k l : ℕ} {a b : Nd ℝ} {f g : ℕ → Vec3} (ha : Rows n k a f) (hb : Rows n l b g) :
    ∃ r, dotsNd a b = some r ∧ Row n (if k = 1 then l else k) r (fun i => (f i).dot (g i)) := by
  obtain ⟨s, hs, h1⟩ := ha.map2 hb (· * ·)
  obtain ⟨t, ht, h2⟩ := h1.sum0
  exact ⟨t, by simp [dotsNd, hs, ht], h2⟩

/-- **C88**: aberration of an array of targets, seen by one observer or by an observer each, is the aberration of the members. -/
theorem C88_aberration (tiny : ℝ) (n : ℕ) (target velocity lightTime : Nd ℝ) (ht : target.shape = [3, n])
    (hv : velocity.shape = [3] ∨ velocity.shape = [3, n]) (hl : lightTime.shape = [n]) :
    ∃ r, apparentAberrationNd tiny target velocity lightTime = some r ∧ r.shape = [3, n] ∧
      ∀ i < n, vectorAt r [i] =
        addAberration tiny (vectorAt target [i]) (vectorAt velocity (if velocity.shape = [3] then [] else [i])) (lightTime.entry [i]) := by
  have hidx : ∀ i < n, Nd.bindex [n] [i] = [i] := by
    intro i hi
    have e : (if n = 1 then 0 else i) = i := by split_ifs <;> omega
    simp [Nd.bindex, e]
  have T : Rows n n target (fun i => vectorAt target [i]) := ⟨Or.inr rfl, ht, fun i hi => by rw [hidx i hi]⟩
  have L : Row n n lightTime (fun i => lightTime.entry [i]) := ⟨Or.inr rfl, hl, fun i hi => by rw [hidx i hi]⟩
  obtain ⟨k, w, hw, V⟩ : ∃ k w, w = (if velocity.shape.length < target.shape.length then velocity.addAxes 1 else velocity) ∧
      Rows n k w (fun i => vectorAt velocity (if velocity.shape = [3] then [] else [i])) := by
    rcases hv with hv | hv
    · refine ⟨1, _, rfl, Or.inl rfl, by simp [hv, ht, Nd.addAxes], ?_⟩
      intro i hi
      simp [hv, ht, Nd.addAxes, vectorAt]
    · refine ⟨n, _, rfl, Or.inr rfl, by simp [hv, ht], ?_⟩
      intro i hi
      rw [hidx i hi]
      simp [hv, ht]
  have hkn : ∀ l, (l = 1 ∨ l = n) → (if n = 1 then l else n) = n := by
    intro l hl
    split_ifs with h
    · subst h; rcases hl with rfl | rfl <;> rfl
    · rfl
  have hk : (if k = 1 then n else k) = n := by
    rcases V.1 with h | h
    · rw [if_pos h]
    · split_ifs <;> first | rfl | exact h
  have P1 := L.map (· * cAuDay)
  obtain ⟨vemag, e1, M⟩ := V.length
  have B := M.map (· / cAuDay)
  obtain ⟨dot, e2, D⟩ := T.dots V
  rw [hkn k V.1] at D
  obtain ⟨pv, e3, PV⟩ := P1.map2 M (· * ·)
  rw [hkn k V.1] at PV
  obtain ⟨cosd, e4, C⟩ := D.map2 (PV.map (· + tiny)) (· / ·)
  rw [join_self] at C
  obtain ⟨bb, e5, BB⟩ := B.map2 B (· * ·)
  rw [join_self] at BB
  have G := BB.map fun b => √(1 - b)
  obtain ⟨p, e6, P⟩ := B.map2 C (· * ·)
  rw [hk] at P
  obtain ⟨pg, e7, PG⟩ := P.map2 (G.map (1 + ·)) (· / ·)
  rw [hkn k V.1] at PG
  obtain ⟨q, e8, Q⟩ := (PG.map (1 + ·)).map2 L (· * ·)
  rw [join_self] at Q
  obtain ⟨a1, e9, A1⟩ := T.row G (· * ·)
  rw [hkn k V.1] at A1
  obtain ⟨qv, e10, QV⟩ := Q.rows V (· * ·)
  rw [hkn k V.1] at QV
  obtain ⟨a2, e11, A2⟩ := A1.map2 QV (· + ·)
  rw [join_self] at A2
  obtain ⟨a3, e12, A3⟩ := A2.row (P.map (1 + ·)) (· / ·)
  rw [join_self] at A3
  refine ⟨a3, ?_, A3.2.1, ?_⟩
  · have s1 : a1.shape = target.shape := by rw [A1.2.1, ht]
    have s2 : a2.shape = a1.shape := by rw [A1.2.1, A2.2.1]
    have s3 : a3.shape = a2.shape := by rw [A3.2.1, A2.2.1]
    simp only [apparentAberrationNd, ← hw, addAberrationNd, e1, e2, e3, e4, e5, e6, e7, e8, e9, e10, e11, e12, Nd.inPlace,
      Option.bind_eq_bind, Option.bind_some, if_pos s1, if_pos s2, if_pos s3]
  · intro i hi
    have := A3.2.2 i hi
    rw [hidx i hi] at this
    rw [this]
    ext <;> simp [addAberration] <;> ring

end Skyfield
