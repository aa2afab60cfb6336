import Verif.Model.LightTime
import Verif.Lemmas.Linear
import Mathlib.Tactic.NormNum
import Mathlib.Topology.MetricSpace.Contracting
import Mathlib.Topology.MetricSpace.Pseudo.Basic
import Mathlib.Topology.MetricSpace.Pseudo.Constructions
import Mathlib.Topology.Instances.Real.Lemmas

/-
C34: light-time correction.
-/
namespace Skyfield
variable {n : ℕ}

theorem foldl_max_lt (l : List ℝ) (a b : ℝ) : l.foldl max a < b ↔ a < b ∧ ∀ x ∈ l, x < b := by
  induction l generalizing a with
  | nil => simp
  | cons x l ih => rw [List.foldl_cons, ih]; simp [and_assoc]

theorem maxAbs_lt (delta : Fin n → ℝ) (b : ℝ) (hb : 0 < b) : maxAbs delta < b ↔ ∀ i, |delta i| < b := by
  unfold maxAbs
  rw [foldl_max_lt]
  constructor
  · intro h i; exact h.2 _ (by simp [List.mem_ofFn])
  · intro h
    refine ⟨hb, ?_⟩
    intro x hx
    rw [List.mem_ofFn] at hx
    obtain ⟨i, rfl⟩ := hx
    exact h i

theorem evalAll_some (target : ℝ → Option (Vec3 × Vec3)) (ts : Fin n → ℝ) (cur : Fin n → Vec3 × Vec3)
    (h : evalAll target ts = some cur) (i : Fin n) : target (ts i) = some (cur i) := by
  unfold evalAll at h
  split_ifs at h with hs
  rw [Option.some.injEq] at h
  rw [← h]
  simp

theorem evalAll_total (P W : ℝ → Vec3) (ts : Fin n → ℝ) :
    evalAll (fun s => some (P s, W s)) ts = some fun i => (P (ts i), W (ts i)) := by
  unfold evalAll
  rw [dif_pos (by intro i; rfl)]
  rfl

/-- Specification: `d`, `v` and `lt` are an answer to "where is the target seen from `obs` at `t`", consistent to
within `tol` days: they come from the target's state at some time of emission, `lt` is the light's travel time
over the distance found, and the emission is `lt` before `t` up to the tolerance. -/
def SeenFrom (c tol : ℝ) (target : ℝ → Option (Vec3 × Vec3)) (t : ℝ) (obs : Vec3 × Vec3) (d v : Vec3) (lt : ℝ) : Prop :=
  ∃ emitted p w, target emitted = some (p, w) ∧ d = p - obs.1 ∧ v = w - obs.2 ∧ lt = d.length / c ∧
    |(t - emitted) - lt| < tol

theorem loop_consistent (c : ℝ) (target : ℝ → Option (Vec3 × Vec3)) (t : Fin n → ℝ) (obs : Fin n → Vec3 × Vec3)
    (fuel : ℕ) (cur : Fin n → Vec3 × Vec3) (lt0 : Fin n → ℝ) (hcur : ∀ i, target (t i - lt0 i) = some (cur i))
    (d v : Fin n → Vec3) (lt : Fin n → ℝ) (h : lightTimeLoop c target t obs fuel cur lt0 = .ok d v lt) (i : Fin n) :
    SeenFrom c 1e-12 target (t i) (obs i) (d i) (v i) (lt i) := by
  induction fuel generalizing cur lt0 with
  | zero => rw [lightTimeLoop] at h; cases h
  | succ fuel ih =>
    rw [lightTimeLoop] at h
    simp only at h
    split_ifs at h with hc
    · rw [maxAbs_lt _ _ (by norm_num)] at hc
      have := hc i
      simp only [Observed.ok.injEq] at h
      obtain ⟨rfl, rfl, rfl⟩ := h
      refine ⟨t i - lt0 i, (cur i).1, (cur i).2, hcur i, rfl, rfl, rfl, ?_⟩
      rw [abs_sub_comm] at this
      rw [show t i - (t i - lt0 i) = lt0 i by ring]
      exact this
    · split at h
      · cases h
      · rename_i cur' he
        exact ih cur' _ (fun j => evalAll_some _ _ _ he j) h

/-- **C34.** When observing returns, then for every element of the array: the vector is the target's position at the
time of emission minus the observer's position (likewise velocity), the light time is its length divided by the speed
of light, and the emission was that long before, to within 10⁻¹² days. -/
theorem C34_consistent (c : ℝ) (target : ℝ → Option (Vec3 × Vec3)) (t : Fin n → ℝ) (obs : Fin n → Vec3 × Vec3)
    (d v : Fin n → Vec3) (lt : Fin n → ℝ) (h : correctForLightTime c target t obs = .ok d v lt) (i : Fin n) :
    SeenFrom c 1e-12 target (t i) (obs i) (d i) (v i) (lt i) := by
  unfold correctForLightTime at h
  split at h
  · cases h
  · rename_i cur he
    refine loop_consistent c target t obs 10 cur _ (fun j => ?_) d v lt h i
    rw [sub_zero]
    exact evalAll_some _ _ _ he j

/-- The target never moves faster than `β` times the speed of light. -/
def SlowerThan (c β : ℝ) (P : ℝ → Vec3) : Prop := ∀ s s', (P s - P s').length ≤ β * c * |s - s'|

theorem lt_contract (c β : ℝ) (hc : 0 < c) (P : ℝ → Vec3) (hP : SlowerThan c β P) (o : Vec3) (t a b : ℝ) :
    |(P (t - a) - o).length / c - (P (t - b) - o).length / c| ≤ β * |a - b| := by
  have h1 := Vec3.abs_length_sub_le (P (t - a) - o) (P (t - b) - o)
  have h2 := hP (t - a) (t - b)
  have e1 : P (t - a) - o - (P (t - b) - o) = P (t - a) - P (t - b) := by abel
  have e2 : |t - a - (t - b)| = |a - b| := by rw [abs_sub_comm a b]; congr 1; ring
  rw [e1] at h1
  rw [e2] at h2
  rw [← sub_div, abs_div, abs_of_pos hc, div_le_iff₀ hc]
  calc _ ≤ _ := h1
    _ ≤ _ := h2
    _ = _ := by ring

theorem loop_converges (c β : ℝ) (hc : 0 < c) (hβ : 0 ≤ β) (P W : ℝ → Vec3) (hP : SlowerThan c β P)
    (t : Fin n → ℝ) (obs : Fin n → Vec3 × Vec3) (k : ℕ) (lt0 : Fin n → ℝ) (B : ℝ)
    (hB : ∀ i, |(P (t i - lt0 i) - (obs i).1).length / c - lt0 i| ≤ B) (hk : β ^ k * B < 1e-12) :
    ∃ d v lt, lightTimeLoop c (fun s => some (P s, W s)) t obs (k + 1) (fun i => (P (t i - lt0 i), W (t i - lt0 i)))
      lt0 = .ok d v lt := by
  induction k generalizing lt0 B with
  | zero =>
    rw [lightTimeLoop]
    simp only
    rw [if_pos]
    · exact ⟨_, _, _, rfl⟩
    · rw [maxAbs_lt _ _ (by norm_num)]
      intro i
      exact lt_of_le_of_lt (hB i) (by simpa using hk)
  | succ k ih =>
    rw [lightTimeLoop]
    simp only
    split_ifs with hc'
    · exact ⟨_, _, _, rfl⟩
    · rw [evalAll_total]
      simp only
      refine ih (fun i => (P (t i - lt0 i) - (obs i).1).length / c) (β * B) ?_ ?_
      · intro i
        refine (lt_contract c β hc P hP (obs i).1 (t i) _ (lt0 i)).trans ?_
        exact mul_le_mul_of_nonneg_left (hB i) hβ
      · calc β ^ k * (β * B) = β ^ (k + 1) * B := by ring
          _ < _ := hk

/-- **C34.** If the target moves at most `β` times as fast as light, is at most `D` light days away, and
`β⁹ D < 10⁻¹²`, then observing it returns an answer: no exception. -/
theorem C34_converges (c β D : ℝ) (hc : 0 < c) (hβ : 0 ≤ β) (P W : ℝ → Vec3) (hP : SlowerThan c β P)
    (t : Fin n → ℝ) (obs : Fin n → Vec3 × Vec3) (hD : ∀ i, (P (t i) - (obs i).1).length ≤ D * c)
    (hk : β ^ 9 * D < 1e-12) :
    ∃ d v lt, correctForLightTime c (fun s => some (P s, W s)) t obs = .ok d v lt := by
  unfold correctForLightTime
  rw [evalAll_total]
  simp only
  have := loop_converges c β hc hβ P W hP t obs 9 (fun _ => 0) D (by
    intro i
    rw [sub_zero, sub_zero, abs_of_nonneg (div_nonneg (Vec3.length_nonneg _) hc.le), div_le_iff₀ hc]
    exact hD i) hk
  simpa using this

/-- **C34.** In particular everything slower than a hundredth of the speed of light (3000 km/s) within 900 000 light
days (2400 light years). -/
theorem C34_converges_solar_system (c : ℝ) (hc : 0 < c) (P W : ℝ → Vec3) (hP : SlowerThan c (1 / 100) P)
    (t : Fin n → ℝ) (obs : Fin n → Vec3 × Vec3) (hD : ∀ i, (P (t i) - (obs i).1).length ≤ 900000 * c) :
    ∃ d v lt, correctForLightTime c (fun s => some (P s, W s)) t obs = .ok d v lt :=
  C34_converges c (1 / 100) 900000 hc (by norm_num) P W hP t obs hD (by norm_num)

/-- **C34.** For a target slower than light there is exactly one time of emission. -/
theorem C34_unique_light_time (c β : ℝ) (hc : 0 < c) (hβ : 0 ≤ β) (hβ1 : β < 1) (P : ℝ → Vec3)
    (hP : SlowerThan c β P) (t : ℝ) (o : Vec3) : ∃! lt, lt = (P (t - lt) - o).length / c := by
  let g : ℝ → ℝ := fun lt => (P (t - lt) - o).length / c
  have hcontr : ContractingWith ⟨β, hβ⟩ g := by
    refine ⟨by exact_mod_cast hβ1, LipschitzWith.of_dist_le_mul ?_⟩
    intro a b
    rw [Real.dist_eq, Real.dist_eq]
    exact lt_contract c β hc P hP o t a b
  refine ⟨ContractingWith.fixedPoint g hcontr, hcontr.fixedPoint_isFixedPt.symm, ?_⟩
  intro y hy
  exact hcontr.fixedPoint_unique (show g y = y from hy.symm)

/-- **C34.** ... and the light time returned is that far from it at most: `β / (1 - β)` times the tolerance. -/
theorem C34_accuracy (c β : ℝ) (hc : 0 < c) (hβ : 0 ≤ β) (hβ1 : β < 1) (P W : ℝ → Vec3) (hP : SlowerThan c β P)
    (t : Fin n → ℝ) (obs : Fin n → Vec3 × Vec3) (d v : Fin n → Vec3) (lt : Fin n → ℝ)
    (h : correctForLightTime c (fun s => some (P s, W s)) t obs = .ok d v lt) (i : Fin n) (exact : ℝ)
    (hexact : exact = (P (t i - exact) - (obs i).1).length / c) :
    |lt i - exact| ≤ β / (1 - β) * 1e-12 := by
  obtain ⟨e, p, w, he, hd, _, hlt, htol⟩ := C34_consistent c _ t obs d v lt h i
  simp only [Option.some.injEq, Prod.mk.injEq] at he
  obtain ⟨rfl, -⟩ := he
  have h1 := lt_contract c β hc P hP (obs i).1 (t i) (t i - e) exact
  rw [← hexact, sub_sub_cancel, ← hd, ← hlt] at h1
  have h2 : |t i - e - exact| ≤ |t i - e - lt i| + |lt i - exact| := by
    have := abs_add_le (t i - e - lt i) (lt i - exact)
    rwa [sub_add_sub_cancel] at this
  have h3 : 0 < 1 - β := by linarith
  rw [div_mul_eq_mul_div, le_div_iff₀ h3]
  have h4 := mul_le_mul_of_nonneg_left h2 hβ
  have h5 := mul_le_mul_of_nonneg_left htol.le hβ
  nlinarith

/-- **C34.** The place returned is off by at most the way the target makes in the time by which the emission is off. -/
theorem C34_place (c β : ℝ) (hc : 0 < c) (hβ : 0 ≤ β) (hβ1 : β < 1) (P W : ℝ → Vec3) (hP : SlowerThan c β P)
    (t : Fin n → ℝ) (obs : Fin n → Vec3 × Vec3) (d v : Fin n → Vec3) (lt : Fin n → ℝ)
    (h : correctForLightTime c (fun s => some (P s, W s)) t obs = .ok d v lt) (i : Fin n) (exact : ℝ)
    (hexact : exact = (P (t i - exact) - (obs i).1).length / c) :
    (d i - (P (t i - exact) - (obs i).1)).length ≤ β * c * (1e-12 / (1 - β)) := by
  have h1 := C34_accuracy c β hc hβ hβ1 P W hP t obs d v lt h i exact hexact
  obtain ⟨e, p, w, he, hd, _, hlt, htol⟩ := C34_consistent c _ t obs d v lt h i
  simp only [Option.some.injEq, Prod.mk.injEq] at he
  obtain ⟨rfl, -⟩ := he
  have h2 : |t i - e - exact| ≤ |t i - e - lt i| + |lt i - exact| := by
    have := abs_add_le (t i - e - lt i) (lt i - exact)
    rwa [sub_add_sub_cancel] at this
  have h3 : 0 < 1 - β := by linarith
  have h4 : β / (1 - β) * 1e-12 + 1e-12 = 1e-12 / (1 - β) := by field_simp; ring
  have h5 := hP e (t i - exact)
  have e1 : |e - (t i - exact)| = |t i - e - exact| := by rw [abs_sub_comm]; congr 1; ring
  rw [hd, show P e - (obs i).1 - (P (t i - exact) - (obs i).1) = P e - P (t i - exact) by abel]
  rw [e1] at h5
  refine h5.trans (mul_le_mul_of_nonneg_left ?_ (by positivity))
  linarith

/-- **C34.** A time observed as one of an array gives what it gives alone, up to the tolerance: the array is iterated until all its
members have converged. -/
theorem C34_array_agrees (c β : ℝ) (hc : 0 < c) (hβ : 0 ≤ β) (hβ1 : β < 1) (P W : ℝ → Vec3) (hP : SlowerThan c β P)
    (t : Fin n → ℝ) (obs : Fin n → Vec3 × Vec3) (d v : Fin n → Vec3) (lt : Fin n → ℝ)
    (h : correctForLightTime c (fun s => some (P s, W s)) t obs = .ok d v lt) (i : Fin n)
    (d' v' : Fin 1 → Vec3) (lt' : Fin 1 → ℝ)
    (h' : correctForLightTime c (fun s => some (P s, W s)) (fun _ => t i) (fun _ => obs i) = .ok d' v' lt') :
    |lt i - lt' 0| ≤ 2 * (β / (1 - β)) * 1e-12 ∧ (d i - d' 0).length ≤ 2 * (β * c * (1e-12 / (1 - β))) := by
  obtain ⟨x, hx, -⟩ := C34_unique_light_time c β hc hβ hβ1 P hP (t i) (obs i).1
  have a := C34_accuracy c β hc hβ hβ1 P W hP t obs d v lt h i x hx
  have a' := C34_accuracy c β hc hβ hβ1 P W hP _ _ d' v' lt' h' 0 x hx
  have b := C34_place c β hc hβ hβ1 P W hP t obs d v lt h i x hx
  have b' := C34_place c β hc hβ hβ1 P W hP _ _ d' v' lt' h' 0 x hx
  constructor
  · have := abs_sub_le (lt i) x (lt' 0)
    rw [abs_sub_comm x] at this
    linarith
  · have e : d i - d' 0 = (d i - (P (t i - x) - (obs i).1)) + -(d' 0 - (P (t i - x) - (obs i).1)) := by abel
    rw [e]
    refine (Vec3.length_add_le _ _).trans ?_
    rw [Vec3.length_neg]
    linarith

theorem fast_loop (c : ℝ) (hc : 0 < c) (fuel : ℕ) (a δ : ℝ) (ha : 0 ≤ a ∧ a ≤ 1)
    (hδ : |(9 / 10) * (1 - a) - a| = δ) (hbig : 1e-12 ≤ δ * (9 / 10) ^ fuel) :
    lightTimeLoop (n := 1) c (fun s => some (⟨9 / 10 * c * s, 0, 0⟩, ⟨9 / 10 * c, 0, 0⟩)) (fun _ => 1) (fun _ => (0, 0)) fuel
      (fun _ => (⟨9 / 10 * c * (1 - a), 0, 0⟩, ⟨9 / 10 * c, 0, 0⟩)) (fun _ => a) = .notConverged := by
  induction fuel generalizing a δ with
  | zero => rw [lightTimeLoop]
  | succ fuel ih =>
    have hlen : ((⟨9 / 10 * c * (1 - a), 0, 0⟩ : Vec3) - 0).length / c = 9 / 10 * (1 - a) := by
      have : ((⟨9 / 10 * c * (1 - a), 0, 0⟩ : Vec3) - 0).length = 9 / 10 * c * (1 - a) := by
        unfold Vec3.length
        simp only [Vec3.sub_x, Vec3.sub_y, Vec3.sub_z, Vec3.zero_x, Vec3.zero_y, Vec3.zero_z, sub_zero, mul_zero, add_zero]
        apply Real.sqrt_mul_self
        have : 0 ≤ 1 - a := by linarith [ha.2]
        positivity
      rw [this]
      field_simp
    have hδ0 : 0 ≤ δ := by rw [← hδ]; exact abs_nonneg _
    rw [lightTimeLoop]
    simp only [hlen]
    rw [if_neg, evalAll_total (fun s => ⟨9 / 10 * c * s, 0, 0⟩) (fun _ => ⟨9 / 10 * c, 0, 0⟩)]
    · simp only
      refine ih (9 / 10 * (1 - a)) (9 / 10 * δ) ⟨?_, ?_⟩ ?_ ?_
      · linarith [ha.2]
      · linarith [ha.1]
      · rw [← hδ, ← abs_of_pos (show (0 : ℝ) < 9 / 10 by norm_num), ← abs_mul,
          abs_of_pos (show (0 : ℝ) < 9 / 10 by norm_num), ← abs_neg]
        congr 1; ring
      · rw [pow_succ] at hbig; linarith
    · rw [maxAbs_lt _ _ (by norm_num)]
      intro hall
      have := hall 0
      rw [hδ] at this
      have hp : (9 / 10 : ℝ) ^ (fuel + 1) ≤ 1 := pow_le_one₀ (by norm_num) (by norm_num)
      have := mul_le_mul_of_nonneg_left hp hδ0
      linarith

/-- **C34, limitation.** "Slower than light" alone is not enough for ten rounds: here a target receding at nine tenths
of the speed of light, for which there is an exact answer, is refused as not converging. -/
theorem C34_fast_refused (c : ℝ) (hc : 0 < c) :
    let P : ℝ → Vec3 := fun s => ⟨9 / 10 * c * s, 0, 0⟩
    SlowerThan c (9 / 10) P ∧
    correctForLightTime (n := 1) c (fun s => some (P s, ⟨9 / 10 * c, 0, 0⟩)) (fun _ => 1) (fun _ => (0, 0)) =
      .notConverged := by
  refine ⟨?_, ?_⟩
  · intro s s'
    apply le_of_eq
    have : (⟨9 / 10 * c * s, 0, 0⟩ : Vec3) - ⟨9 / 10 * c * s', 0, 0⟩ = (9 / 10 * c * (s - s')) • (⟨1, 0, 0⟩ : Vec3) := by
      ext <;> simp; ring
    rw [this, Vec3.length_smul]
    have h1 : (⟨1, 0, 0⟩ : Vec3).length = 1 := by simp [Vec3.length]
    rw [h1, mul_one, abs_mul, abs_of_pos (by positivity)]
  · unfold correctForLightTime
    rw [evalAll_total (fun s => ⟨9 / 10 * c * s, 0, 0⟩) (fun _ => ⟨9 / 10 * c, 0, 0⟩)]
    have := fast_loop c hc 10 0 (9 / 10) (by norm_num) (by norm_num) (by norm_num)
    simpa using this

/-- Non-vacuity: a target moving at a thousandth of the speed of light, seen at two times. -/
example : ∃ d v lt, correctForLightTime (n := 2) 173 (fun s => some (⟨173 / 1000 * s, 5, 7⟩, ⟨173 / 1000, 0, 0⟩))
    (fun i => i) (fun _ => (0, 0)) = .ok d v lt := by
  apply C34_converges_solar_system 173 (by norm_num) (fun s => ⟨173 / 1000 * s, 5, 7⟩) (fun _ => ⟨173 / 1000, 0, 0⟩)
  · intro s s'
    have : (⟨173 / 1000 * s, 5, 7⟩ : Vec3) - ⟨173 / 1000 * s', 5, 7⟩ = (173 / 1000 * (s - s')) • (⟨1, 0, 0⟩ : Vec3) := by
      ext <;> simp; ring
    rw [this, Vec3.length_smul]
    have h1 : (⟨1, 0, 0⟩ : Vec3).length = 1 := by simp [Vec3.length]
    rw [h1, mul_one, abs_mul, abs_of_pos (by norm_num)]
    nlinarith [abs_nonneg (s - s')]
  · intro i
    have h1 := Vec3.length_add_le (⟨173 / 1000 * (i : ℕ), 0, 0⟩) ⟨0, 5, 7⟩
    refine le_trans (le_of_eq ?_) (h1.trans ?_)
    · congr 1; ext <;> simp
    · have a1 : (⟨173 / 1000 * (i : ℕ), 0, 0⟩ : Vec3).length ≤ 1 := by
        unfold Vec3.length
        rw [Real.sqrt_le_left (by norm_num)]
        have : ((i : ℕ) : ℝ) ≤ 1 := by exact_mod_cast (by omega : (i : ℕ) ≤ 1)
        have : (0 : ℝ) ≤ ((i : ℕ) : ℝ) := Nat.cast_nonneg _
        simp only [mul_zero, add_zero]
        nlinarith
      have a2 : (⟨0, 5, 7⟩ : Vec3).length ≤ 9 := by
        unfold Vec3.length
        rw [Real.sqrt_le_left (by norm_num)]
        norm_num
      linarith

end Skyfield
