import Verif.Model.ElementArrays
import Verif.Props.PeriapsisTime

/-
C86: the elements of many states at once are the elements of each state by itself.
-/
namespace Skyfield
open Real

section Masks
variable {ι α β γ : Type*} (l : List ι)

theorem pick_map (p : ι → Bool) (g : ι → α) : pick (l.map p) (l.map g) = (l.filter p).map g := by
  induction l with
  | nil => rfl
  | cons a l ih => cases h : p a <;> simp [pick, h, ih]

theorem put_map (b g : ι → α) (p : ι → Bool) :
    put (l.map b) (l.map p) ((l.filter p).map g) = l.map fun i => if p i then g i else b i := by
  induction l with
  | nil => rfl
  | cons a l ih => cases h : p a <;> simp [put, h, ih]

theorem npWhere_map (p : ι → Bool) (g h : ι → α) :
    npWhere (l.map p) (l.map g) (l.map h) = l.map fun i => if p i then g i else h i := by
  unfold npWhere
  induction l with
  | nil => rfl
  | cons a l ih => simpa using ih

theorem zipWith_maps (f : α → β → γ) (g : ι → α) (h : ι → β) :
    List.zipWith f (l.map g) (l.map h) = l.map fun i => f (g i) (h i) := by
  induction l with
  | nil => rfl
  | cons a l ih => simpa using ih

theorem opWhere_map (f : α → β → γ) (g : ι → α) (h : ι → β) (o : ι → γ) (p : ι → Bool) :
    opWhere f (l.map g) (l.map h) (l.map o) (l.map p) = l.map fun i => if p i then f (g i) (h i) else o i := by
  unfold opWhere
  rw [zipWith_maps, npWhere_map]

end Masks

namespace ArrayBranch
section Maps
variable {ι : Type*} (l : List ι)

theorem mask_map {α : Type*} (g : ι → α) (p : α → Prop) : mask (l.map g) p = l.map fun i => open Classical in decide (p (g i)) := by
  unfold mask; rw [List.map_map]; rfl
theorem maskNot_map (p : ι → Bool) : maskNot (l.map p) = l.map fun i => !p i := by unfold maskNot; rw [List.map_map]; rfl
theorem maskAnd_map (p q : ι → Bool) : maskAnd (l.map p) (l.map q) = l.map fun i => p i && q i := zipWith_maps l _ _ _
theorem zeros_map {α : Type*} (g : ι → α) : zeros (l.map g) = l.map fun _ => (0 : ℝ) := by unfold zeros; rw [List.map_map]; rfl
theorem infinities_map {α : Type*} (g : ι → α) : infinities (l.map g) = l.map fun _ => (none : Option ℝ) := by
  unfold infinities; rw [List.map_map]; rfl
theorem mirrored_map (g : ι → ℝ) : mirrored (l.map g) = l.map fun i => pyMod (-g i) tau := by
  unfold mirrored; rw [List.map_map]; rfl
theorem lengths_map (g : ι → Vec3) : lengths (l.map g) = l.map fun i => (g i).length := by unfold lengths; rw [List.map_map]; rfl
theorem angles_map (g h : ι → Vec3) : angles (l.map g) (l.map h) = l.map fun i => angleBetween (g i) (h i) := zipWith_maps l _ _ _
theorem dotsOf_map (g h : ι → Vec3) : dotsOf (l.map g) (l.map h) = l.map fun i => (g i).dot (h i) := zipWith_maps l _ _ _
theorem map_maps {α β : Type*} (f : α → β) (g : ι → α) : (l.map g).map f = l.map fun i => f (g i) := by rw [List.map_map]; rfl

end Maps
end ArrayBranch

namespace OsculatingArray
open ArrayBranch

/-- The array that holds the states of a list of orbits, all with the same GM. -/
def ofList (mu : ℝ) (l : List (Vec3 × Vec3)) : OsculatingArray := ⟨l.map (·.1), l.map (·.2), mu⟩

/-- One of the states by itself. -/
def one (mu : ℝ) (s : Vec3 × Vec3) : Osculating := ⟨s.1, s.2, mu⟩

variable (mu : ℝ) (l : List (Vec3 × Vec3))

theorem hVec_map : (ofList mu l).hVec = l.map fun s => (one mu s).hVec := zipWith_maps l _ _ _
theorem eVec_map : (ofList mu l).eVec = l.map fun s => (one mu s).eVec := zipWith_maps l _ _ _

theorem nVec_map : (ofList mu l).nVec = l.map fun s => (one mu s).nVec := by
  unfold nVec nodeVectors
  rw [hVec_map]
  simp only [map_maps, lengths_map, mask_map, opWhere_map]
  refine List.map_congr_left fun s _ => ?_
  simp only [Osculating.nVec, nodeVector, decide_eq_true_eq]

theorem eccentricity_map : (ofList mu l).eccentricity = l.map fun s => (one mu s).eccentricity := by
  unfold eccentricity; rw [eVec_map, lengths_map]; rfl

theorem inclination_map : (ofList mu l).inclination = l.map fun s => (one mu s).inclination := by
  unfold inclination inclinations; rw [hVec_map, map_maps, angles_map]; rfl

theorem ascendingNode_map : (ofList mu l).ascendingNode = l.map fun s => (one mu s).ascendingNode := by
  unfold ascendingNode ascendingNodes
  rw [hVec_map, inclination_map]
  simp only [map_maps, zeros_map, mask_map, opWhere_map]
  refine List.map_congr_left fun s _ => ?_
  simp only [Osculating.ascendingNode, longitudeOfAscendingNode, decide_eq_true_eq]
  split
  · rfl
  · simp [pyMod]

theorem periapsisArgument_map : (ofList mu l).periapsisArgument = l.map fun s => (one mu s).periapsisArgument := by
  unfold periapsisArgument periapsisArguments
  rw [nVec_map, eVec_map]
  simp only [ofList, map_maps, zeros_map, mask_map, lengths_map, maskNot_map, maskAnd_map, pick_map, zipWith_maps, mirrored_map,
    npWhere_map, angles_map, put_map]
  refine List.map_congr_left fun s _ => ?_
  simp only [Osculating.periapsisArgument, argumentOfPeriapsis, decide_eq_true_eq, Bool.and_eq_true, Bool.not_eq_true',
    decide_eq_false_iff_not]
  by_cases h1 : (one mu s).eVec.length < 1e-15 <;> by_cases h2 : (one mu s).nVec.length < 1e-15 <;>
    simp only [h1, h2, not_true_eq_false, not_false_eq_true, and_true, true_and, and_false, false_and, and_self, if_true, if_false] <;> rfl

theorem latusRectum_map : (ofList mu l).latusRectum = l.map fun s => (one mu s).latusRectum := by
  unfold latusRectum latusRectums
  rw [hVec_map]
  simp only [lengths_map, map_maps]; rfl

theorem majorAxis_map : (ofList mu l).majorAxis = l.map fun s => (one mu s).majorAxis := by
  unfold majorAxis majorAxes
  rw [latusRectum_map, eccentricity_map]
  simp only [map_maps, infinities_map, mask_map, opWhere_map, decide_eq_true_eq]; rfl

theorem minorAxis_map : (ofList mu l).minorAxis = l.map fun s => (one mu s).minorAxis := by
  unfold minorAxis minorAxes
  rw [latusRectum_map, eccentricity_map]
  simp only [zeros_map, mask_map, pick_map, zipWith_maps, put_map, decide_eq_true_eq]
  refine List.map_congr_left fun s _ => ?_
  simp only [Osculating.minorAxis, semiMinorAxis]
  rcases lt_trichotomy (one mu s).eccentricity 1 with h | h | h
  · simp [h, not_lt.2 h.le]
  · simp [h]
  · simp [h, not_lt.2 h.le]

theorem periapsis_map : (ofList mu l).periapsis = l.map fun s => (one mu s).periapsis := by
  unfold periapsis periapsisDistances
  rw [latusRectum_map, eccentricity_map]
  simp only [map_maps, mask_map, zipWith_maps, opWhere_map, decide_eq_true_eq]; rfl

theorem period_map : (ofList mu l).period = l.map fun s => (one mu s).period := by
  unfold period periods
  rw [majorAxis_map]
  simp only [map_maps, infinities_map, mask_map, npWhere_map, decide_eq_true_eq]
  refine List.map_congr_left fun s _ => ?_
  simp only [Osculating.period, periodOf]
  cases (one mu s).majorAxis with
  | none => simp [ofList]
  | some a => simp [ofList, one]

theorem motion_map : (ofList mu l).motion = l.map fun s => (one mu s).motion := by
  unfold motion motions
  rw [majorAxis_map, map_maps]; rfl

theorem trueAnomaly_map (hc : ∀ s ∈ l, (one mu s).eccentricity ≠ 1e-15) (ho : ∀ s ∈ l, (one mu s).eccentricity ≠ 1 - 1e-15) :
    (ofList mu l).trueAnomaly = l.map fun s => (one mu s).trueAnomaly := by
  unfold trueAnomaly trueAnomalies
  rw [nVec_map, eVec_map]
  simp only [ofList, map_maps, zeros_map, mask_map, lengths_map, maskNot_map, maskAnd_map, pick_map, zipWith_maps, mirrored_map,
    npWhere_map, angles_map, dotsOf_map, put_map]
  refine List.map_congr_left fun s hs => ?_
  have hc' := hc s hs
  have ho' := ho s hs
  simp only [Osculating.eccentricity] at hc' ho'
  simp only [Osculating.trueAnomaly, trueAnomalyOf, decide_eq_true_eq, Bool.and_eq_true, Bool.not_eq_true', decide_eq_false_iff_not]
  have e1 : (one mu s).eVec.length > 1e-15 ↔ ¬ (one mu s).eVec.length < 1e-15 := by
    rw [not_lt]; exact ⟨le_of_lt, fun h => lt_of_le_of_ne h (Ne.symm hc')⟩
  have e2 : (one mu s).eVec.length > 1 - 1e-15 ↔ ¬ (one mu s).eVec.length < 1 - 1e-15 := by
    rw [not_lt]; exact ⟨le_of_lt, fun h => lt_of_le_of_ne h (Ne.symm ho')⟩
  rw [if_congr e2 rfl rfl, ite_not]
  simp only [e1]
  have hv : ∀ a b : ℝ, a = b → (if (one mu s).eVec.length < 1 - 1e-15 then a else normpi a) =
      (if (one mu s).eVec.length < 1 - 1e-15 then b else normpi b) := fun a b h => by rw [h]
  apply hv
  by_cases h1 : (one mu s).eVec.length < 1e-15 <;> by_cases h2 : (one mu s).nVec.length < 1e-15 <;>
    simp only [h1, h2, not_true_eq_false, not_false_eq_true, and_true, true_and, and_false, false_and, and_self, if_true, if_false] <;> rfl

/-- **C86.** The elements of an array of states are, entry for entry, the elements of each state taken by itself: for any
number of states, elliptic, parabolic and hyperbolic mixed in any order.  (The array code meets the masks in several
passes; the two branches differ only at the exact thresholds excluded here, and in the apoapsis distance, see
`C86_apoapsis`.) -/
theorem _root_.Skyfield.C86_elementwise :
    let o : OsculatingArray := ⟨l.map (·.1), l.map (·.2), mu⟩
    let each {α : Type} (f : Osculating → α) : List α := l.map fun s => f ⟨s.1, s.2, mu⟩
    o.eccentricity = each (·.eccentricity) ∧ o.inclination = each (·.inclination) ∧
    o.ascendingNode = each (·.ascendingNode) ∧ o.periapsisArgument = each (·.periapsisArgument) ∧
    o.periapsisLongitude = each (·.periapsisLongitude) ∧ o.latusRectum = each (·.latusRectum) ∧
    o.majorAxis = each (·.majorAxis) ∧ o.minorAxis = each (·.minorAxis) ∧ o.periapsis = each (·.periapsis) ∧
    o.period = each (·.period) ∧ o.motion = each (·.motion) ∧
    ((∀ e ∈ o.eccentricity, e ≠ 1e-15 ∧ e ≠ 1 - 1e-15) →
      o.trueAnomaly = each (·.trueAnomaly) ∧ o.latitudeArgument = each (·.latitudeArgument) ∧
      o.trueLongitude = each (·.trueLongitude) ∧ o.eccentricAnomaly = each (·.eccentricAnomaly) ∧
      o.meanAnomaly = each (·.meanAnomaly) ∧ o.meanLongitude = each (·.meanLongitude) ∧
      o.sincePeriapsis = each (·.sincePeriapsis)) := by
  intro o each
  have hP : (ofList mu l).periapsisLongitude = l.map fun s => (one mu s).periapsisLongitude := by
    unfold periapsisLongitude
    rw [ascendingNode_map, periapsisArgument_map, zipWith_maps]; rfl
  refine ⟨eccentricity_map mu l, inclination_map mu l, ascendingNode_map mu l, periapsisArgument_map mu l, hP, latusRectum_map mu l,
    majorAxis_map mu l, minorAxis_map mu l, periapsis_map mu l, period_map mu l, motion_map mu l, fun h => ?_⟩
  have he : ∀ s ∈ l, (one mu s).eccentricity ∈ o.eccentricity := fun s hs => by
    rw [show o.eccentricity = _ from eccentricity_map mu l]; exact List.mem_map_of_mem hs
  have hv := trueAnomaly_map mu l (fun s hs => (h _ (he s hs)).1) (fun s hs => (h _ (he s hs)).2)
  have hE : (ofList mu l).eccentricAnomaly = l.map fun s => (one mu s).eccentricAnomaly := by
    unfold eccentricAnomaly eccentricAnomalies
    rw [hv, eccentricity_map]
    simp only [zeros_map, mask_map, pick_map, zipWith_maps, put_map, decide_eq_true_eq]
    refine List.map_congr_left fun s _ => ?_
    simp only [Osculating.eccentricAnomaly, eccentricAnomalyOf]
    rcases lt_trichotomy (one mu s).eccentricity 1 with h | h | h
    · simp [h, not_lt.2 h.le]
    · simp [h]
    · simp [h, not_lt.2 h.le]
  have hM : ∀ b, meanAnomalies (ofList mu l).eccentricAnomaly (ofList mu l).eccentricity b =
      l.map fun s => meanAnomalyOf (one mu s).eccentricAnomaly (one mu s).eccentricity b := by
    intro b
    unfold meanAnomalies
    rw [hE, eccentricity_map]
    simp only [zeros_map, mask_map, pick_map, zipWith_maps, put_map, decide_eq_true_eq]
    cases b
    · simp only [Bool.false_eq_true, if_false]
      refine List.map_congr_left fun s _ => ?_
      unfold meanAnomalyOf
      rcases lt_trichotomy (one mu s).eccentricity 1 with h | h | h
      · simp [h, not_lt.2 h.le]
      · simp [h]
      · simp [h, not_lt.2 h.le]
    · simp only [if_true]
      refine List.map_congr_left fun s _ => ?_
      unfold meanAnomalyOf
      rcases lt_trichotomy (one mu s).eccentricity 1 with h | h | h
      · simp [h, not_lt.2 h.le]
      · simp [h]
      · simp [h, not_lt.2 h.le]
  have hMA : (ofList mu l).meanAnomaly = l.map fun s => (one mu s).meanAnomaly := hM true
  refine ⟨hv, ?_, ?_, hE, hMA, ?_, ?_⟩
  · change (ofList mu l).latitudeArgument = _
    unfold latitudeArgument
    rw [periapsisArgument_map, hv, zipWith_maps]; rfl
  · change (ofList mu l).trueLongitude = _
    unfold trueLongitude
    rw [ascendingNode_map, periapsisArgument_map, hv, zipWith_maps, zipWith_maps]; rfl
  · change (ofList mu l).meanLongitude = _
    unfold meanLongitude
    rw [ascendingNode_map, periapsisArgument_map, hMA, zipWith_maps, zipWith_maps]; rfl
  · change (ofList mu l).sincePeriapsis = _
    unfold sincePeriapsis timesSincePeriapsis
    rw [hM, motion_map, hv, latusRectum_map]
    simp only [zeros_map, mask_map, maskNot_map, pick_map, opWhere_map, map_maps, zipWith_maps, put_map, decide_eq_true_eq,
      Bool.not_eq_true', decide_eq_false_iff_not]
    refine List.map_congr_left fun s _ => ?_
    change _ = timeSincePeriapsis _ (one mu s).motion (one mu s).trueAnomaly (one mu s).latusRectum mu
    unfold timeSincePeriapsis
    by_cases h : (one mu s).motion < 8.64e-15
    · rw [if_pos h, if_neg (not_le.2 h)]; rfl
    · rw [if_neg h, if_pos h, if_pos (not_lt.1 h)]; rfl

/-- **C86.** The apoapsis distance of an array: the same as by itself for every state whose eccentricity is below 1 - 1e-15 or
at least 1, and infinite in between, where the state by itself has a finite one. -/
theorem _root_.Skyfield.C86_apoapsis :
    let o : OsculatingArray := ⟨l.map (·.1), l.map (·.2), mu⟩
    ((∀ e ∈ o.eccentricity, e < 1 - 1e-15 ∨ 1 ≤ e) → o.apoapsis = l.map fun s => (⟨s.1, s.2, mu⟩ : Osculating).apoapsis) ∧
    ∀ i (hi : i < l.length), let one : Osculating := ⟨l[i].1, l[i].2, mu⟩
      1 - 1e-15 ≤ one.eccentricity → one.eccentricity < 1 → o.apoapsis[i]? = some none ∧ ∃ Q, one.apoapsis = some Q := by
  intro o
  have key : o.apoapsis = l.map fun s => if (one mu s).eccentricity < 1 - 1e-15 then (one mu s).apoapsis else none := by
    change (ofList mu l).apoapsis = _
    unfold apoapsis apoapsisDistances
    rw [latusRectum_map, eccentricity_map]
    simp only [map_maps, infinities_map, mask_map, zipWith_maps, opWhere_map, decide_eq_true_eq]
    refine List.map_congr_left fun s _ => ?_
    by_cases h : (one mu s).eccentricity < 1 - 1e-15
    · rw [if_pos h, if_pos h]
      unfold Osculating.apoapsis apoapsisDistance
      rw [if_pos (by linarith)]
    · rw [if_neg h, if_neg h]
  constructor
  · intro h
    rw [key]
    refine List.map_congr_left fun s hs => ?_
    have he : (one mu s).eccentricity ∈ o.eccentricity := by
      rw [show o.eccentricity = _ from eccentricity_map mu l]; exact List.mem_map_of_mem hs
    rcases h _ he with h1 | h1
    · rw [if_pos h1]; rfl
    · rw [if_neg (by linarith)]
      change _ = apoapsisDistance _ (one mu s).eccentricity
      unfold apoapsisDistance
      rw [if_neg (not_lt.2 h1)]
  · intro i hi one' h1 h2
    constructor
    · rw [key, List.getElem?_map, List.getElem?_eq_getElem hi, Option.map_some]
      exact congrArg some (if_neg (not_lt.2 h1))
    · exact ⟨_, by unfold Osculating.apoapsis apoapsisDistance; rw [if_pos h2]⟩

/-- Non-vacuity: an array of two states, an ellipse of eccentricity 0.21 and a hyperbola of eccentricity 3, away from the
thresholds. -/
example : let o : OsculatingArray := ⟨[⟨1, 0, 0⟩, ⟨1, 0, 0⟩], [⟨0, 11 / 10, 0⟩, ⟨0, 0, 2⟩], 1⟩
    o.eccentricity = [21 / 100, 3] ∧ (∀ e ∈ o.eccentricity, e ≠ 1e-15 ∧ e ≠ 1 - 1e-15) ∧
      ∀ e ∈ o.eccentricity, e < 1 - 1e-15 ∨ 1 ≤ e := by
  intro o
  have l1 : (⟨1, 0, 0⟩ : Vec3).length = 1 := by unfold Vec3.length; norm_num
  have l2 : (⟨0, 11 / 10, 0⟩ : Vec3).length ^ 2 = 121 / 100 := by rw [Vec3.length_sq]; norm_num [Vec3.dot]
  have l3 : (⟨0, 0, 2⟩ : Vec3).length ^ 2 = 4 := by rw [Vec3.length_sq]; norm_num [Vec3.dot]
  have e1 : eccentricityVector ⟨1, 0, 0⟩ ⟨0, 11 / 10, 0⟩ 1 = ⟨21 / 100, 0, 0⟩ := by
    unfold eccentricityVector
    simp only [l1, l2]
    ext <;> simp [Vec3.dot]
    norm_num
  have e2 : eccentricityVector ⟨1, 0, 0⟩ ⟨0, 0, 2⟩ 1 = ⟨3, 0, 0⟩ := by
    unfold eccentricityVector
    simp only [l1, l3]
    ext <;> simp [Vec3.dot]
    norm_num
  have he : o.eccentricity = [21 / 100, 3] := by
    change [(eccentricityVector _ _ _).length, (eccentricityVector _ _ _).length] = _
    rw [e1, e2]
    unfold Vec3.length
    rw [show (21 / 100 * (21 / 100) + 0 * 0 + 0 * 0 : ℝ) = (21 / 100) ^ 2 by ring, sqrt_sq (by norm_num),
      show (3 * 3 + 0 * 0 + 0 * 0 : ℝ) = 3 ^ 2 by ring, sqrt_sq (by norm_num)]
  refine ⟨he, fun e h => ?_, fun e h => ?_⟩ <;> rw [he] at h <;>
    simp only [List.mem_cons, List.not_mem_nil, or_false] at h <;> rcases h with rfl | rfl <;> norm_num

/-- Non-vacuity of the second half of `C86_apoapsis`: a state of eccentricity 1 - 5e-16, for which the array answers that
there is no apoapsis. -/
example : let o : Osculating := ⟨⟨1, 0, 0⟩, ⟨0, √(2 - 5e-16), 0⟩, 1⟩
    1 - 1e-15 ≤ o.eccentricity ∧ o.eccentricity < 1 := by
  intro o
  have l1 : (⟨1, 0, 0⟩ : Vec3).length = 1 := by unfold Vec3.length; norm_num
  have l2 : (⟨0, √(2 - 5e-16), 0⟩ : Vec3).length ^ 2 = 2 - 5e-16 := by
    rw [Vec3.length_sq]; simp only [Vec3.dot]
    rw [mul_self_sqrt (by norm_num)]; norm_num
  have e1 : o.eVec = ⟨1 - 5e-16, 0, 0⟩ := by
    change eccentricityVector ⟨1, 0, 0⟩ ⟨0, √(2 - 5e-16), 0⟩ 1 = _
    unfold eccentricityVector
    simp only [l1, l2]
    ext <;> simp [Vec3.dot]
    norm_num
  have he : o.eccentricity = 1 - 5e-16 := by
    unfold Osculating.eccentricity
    rw [e1]
    unfold Vec3.length
    rw [show ((1 - 5e-16) * (1 - 5e-16) + 0 * 0 + 0 * 0 : ℝ) = (1 - 5e-16) ^ 2 by ring, sqrt_sq (by norm_num)]
  rw [he]; norm_num

end OsculatingArray
end Skyfield
