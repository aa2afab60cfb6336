import Verif.Model.PlanetaryFrames
import Verif.Props.Rotations
import Verif.Props.Frames
import Mathlib.Analysis.Real.Pi.Bounds

/-
C73: frames and places of other bodies are those that the loaded kernels define.
-/
namespace Skyfield
open Real

/-! ### Segments -/

theorem foldl_segments (l : List PckSegment) (pc : PlanetaryConstants) :
    (l.foldl PlanetaryConstants.addSegment pc).segmentList = pc.segmentList ++ l ∧
    (l.foldl PlanetaryConstants.addSegment pc).vars = pc.vars ∧
    ∀ n, (l.foldl PlanetaryConstants.addSegment pc).segmentMap n =
      ((l.reverse.find? fun s => s.body == n).or (pc.segmentMap n)) := by
  induction l generalizing pc with
  | nil => simp
  | cons s l ih =>
    rw [List.foldl_cons]
    obtain ⟨h1, h2, h3⟩ := ih (pc.addSegment s)
    refine ⟨?_, ?_, fun n => ?_⟩
    · rw [h1]; simp [PlanetaryConstants.addSegment]
    · rw [h2]; rfl
    · rw [h3, List.reverse_cons, List.find?_append]
      cases hf : l.reverse.find? (fun s => s.body == n) with
      | some r => simp
      | none =>
        by_cases hn : n = s.body
        · simp [PlanetaryConstants.addSegment, hn]
        · have : (s.body == n) = false := by simpa using fun h => hn h.symm
          simp [PlanetaryConstants.addSegment, hn, this]

/-- Reading several binary files one after the other. -/
def PlanetaryConstants.readAll (pc : PlanetaryConstants) : List (List PckSegment) → Option PlanetaryConstants
  | [] => some pc
  | f :: fs => (pc.readBinary "DAF/PCK".toList f).bind (·.readAll fs)

/-- **C73.** After any number of binary files have been read, the segment used for a frame is the one read last, all are listed in the
order in which they were read, and the text constants are untouched; a file that does not start as a binary PCK file is refused. -/
theorem C73_last_segment (files : List (List PckSegment)) :
    (∃ pc, PlanetaryConstants.empty.readAll files = some pc ∧ pc.segmentList = files.flatten ∧ (∀ k, pc.vars k = none) ∧
      ∀ n s, pc.segmentMap n = some s ↔
        ∃ before after, files.flatten = before ++ s :: after ∧ s.body = n ∧ ∀ r ∈ after, r.body ≠ n) ∧
    (∀ (pc : PlanetaryConstants) start segs, start ≠ "DAF/PCK".toList → pc.readBinary start segs = none) := by
  refine ⟨?_, fun pc start segs h => by unfold PlanetaryConstants.readBinary; rw [if_pos h]⟩
  have key : ∀ (files : List (List PckSegment)) (pc : PlanetaryConstants),
      pc.readAll files = some (files.flatten.foldl PlanetaryConstants.addSegment pc) := by
    intro files
    induction files with
    | nil => intro pc; rfl
    | cons f fs ih =>
      intro pc
      rw [PlanetaryConstants.readAll, PlanetaryConstants.readBinary, if_neg (not_not.2 rfl), Option.bind_some, ih,
        List.flatten_cons, List.foldl_append]
  refine ⟨_, key files _, ?_⟩
  obtain ⟨h1, h2, h3⟩ := foldl_segments files.flatten PlanetaryConstants.empty
  refine ⟨by rw [h1]; rfl, fun k => by rw [h2]; rfl, fun n s => ?_⟩
  rw [h3]
  simp only [PlanetaryConstants.empty, Option.or_none]
  rw [List.find?_eq_some_iff_append]
  constructor
  · rintro ⟨hb, as, bs, heq, hall⟩
    refine ⟨bs.reverse, as.reverse, ?_, by simpa using hb, fun r hr => ?_⟩
    · have := congrArg List.reverse heq
      simpa using this
    · simpa using hall r (by simpa using hr)
  · rintro ⟨before, after, heq, hb, hall⟩
    refine ⟨by simpa using hb, after.reverse, before.reverse, ?_, fun r hr => ?_⟩
    · rw [heq]; simp
    · simpa using hall r (by simpa using hr)

/-! ### Frames -/

/-- Specification: the kernel defines for frame `n` the fixed rotation `m` from the frame it is relative to. -/
def DefinesRotation (pc : PlanetaryConstants) (n : List Char) (m : Mat3) : Prop :=
  (pc.vars (tkFrameKey n "_SPEC") = some (.scalar (.str "ANGLES".toList)) ∧
    ∃ as xs l, pc.vars (tkFrameKey n "_ANGLES") = some (.list as) ∧ pc.vars (tkFrameKey n "_AXES") = some (.list xs) ∧
      pc.vars (tkFrameKey n "_UNITS") = some (.scalar (.str "ARCSECONDS".toList)) ∧ zipAngles as xs = some l ∧
      m = anglesMatrix asec2rad l) ∨
  (pc.vars (tkFrameKey n "_SPEC") = some (.scalar (.str "MATRIX".toList)) ∧
    ∃ l, pc.vars (tkFrameKey n "_MATRIX") = some (.list l) ∧ matrixOf l = some m)

theorem lookUp_ok (pc : PlanetaryConstants) (k : List Char) (e : PckEntry ℝ) : pc.lookUp k = .ok e ↔ pc.vars k = some e := by
  unfold PlanetaryConstants.lookUp
  cases pc.vars k <;> simp

theorem getAssignment_ok (pc : PlanetaryConstants) (k : List Char) (e : PckEntry ℝ) :
    pc.getAssignment k = .ok e ↔ pc.vars k = some e := by
  unfold PlanetaryConstants.getAssignment
  cases pc.vars k <;> simp

theorem except_bind_ok {ε α β : Type} (x : Except ε α) (f : α → Except ε β) (b : β) :
    (x >>= f) = .ok b ↔ ∃ a, x = .ok a ∧ f a = .ok b := by
  cases x with
  | error e => constructor
               · intro h; cases h
               · rintro ⟨a, h, -⟩; cases h
  | ok a => constructor
            · intro h; exact ⟨a, rfl, h⟩
            · rintro ⟨a', h, h'⟩; cases h; exact h'

theorem anglesSpec_ok (pc : PlanetaryConstants) (n : List Char) (m : Mat3) :
    pc.anglesSpec n = .ok m ↔
      ∃ as xs l, pc.vars (tkFrameKey n "_ANGLES") = some (.list as) ∧ pc.vars (tkFrameKey n "_AXES") = some (.list xs) ∧
      pc.vars (tkFrameKey n "_UNITS") = some (.scalar (.str "ARCSECONDS".toList)) ∧ zipAngles as xs = some l ∧
      m = anglesMatrix asec2rad l := by
  unfold PlanetaryConstants.anglesSpec
  simp only [except_bind_ok, lookUp_ok]
  constructor
  · rintro ⟨ae, ha, xe, hx, ue, hu, h⟩
    cases ue with
    | list l => cases h
    | scalar v =>
      cases v with
      | int k => cases h
      | float k => cases h
      | str u =>
        simp only at h
        split_ifs at h with h1
        rw [not_not] at h1
        subst h1
        cases ae with
        | scalar v => cases h
        | list as =>
          cases xe with
          | scalar v => cases h
          | list xs =>
            simp only at h
            cases hz : zipAngles as xs with
            | none => rw [hz] at h; cases h
            | some l =>
              rw [hz] at h
              injection h with h
              exact ⟨as, xs, l, ha, hx, hu, hz, h.symm⟩
  · rintro ⟨as, xs, l, ha, hx, hu, hz, rfl⟩
    refine ⟨_, ha, _, hx, _, hu, ?_⟩
    simp [hz]

theorem matrixSpec_ok (pc : PlanetaryConstants) (n : List Char) (m : Mat3) :
    pc.matrixSpec n = .ok m ↔ ∃ l, pc.vars (tkFrameKey n "_MATRIX") = some (.list l) ∧ matrixOf l = some m := by
  unfold PlanetaryConstants.matrixSpec
  rw [except_bind_ok]
  constructor
  · rintro ⟨e, he, h⟩
    rw [lookUp_ok] at he
    cases e with
    | scalar v => cases h
    | list l =>
      simp only at h
      cases hm : matrixOf l with
      | none => rw [hm] at h; cases h
      | some m' => rw [hm] at h; injection h with h; subst h; exact ⟨l, he, hm⟩
  · rintro ⟨l, he, hm⟩
    exact ⟨_, (lookUp_ok _ _ _).2 he, by simp [hm]⟩

theorem finish_ok (pc : PlanetaryConstants) (c : PckEntry ℝ) (m : Option Mat3) (k : PckEntry ℝ) (f : PlanetFrame) :
    pc.finish c m k = .ok f ↔ f.center = c ∧ f.matrix = m ∧ f.segment.frame = 1 ∧
      ∃ n, k = .scalar (.int n) ∧ pc.segmentMap n = some f.segment := by
  unfold PlanetaryConstants.finish
  cases k with
  | list l => simp
  | scalar v =>
    cases v with
    | str s => simp
    | float x => simp
    | int n =>
      simp only
      cases hs : pc.segmentMap n with
      | none => simp [hs]
      | some s =>
        simp only
        split_ifs with h
        · constructor
          · intro h'; cases h'
          · rintro ⟨-, -, h1, n', h2, h3⟩
            cases h2
            rw [hs] at h3
            cases h3
            exact absurd h1 h
        · rw [not_not] at h
          constructor
          · intro h'
            injection h' with h'
            subst h'
            exact ⟨rfl, rfl, h, n, rfl, hs⟩
          · rintro ⟨rfl, rfl, h1, n', h2, h3⟩
            cases h2
            rw [hs] at h3
            cases h3
            rfl

/-- **C73.** When a frame is built, and what it is made of: its center is the defined one; without a fixed-offset definition it is the
frame's own segment; with one, it is the defined rotation applied to the segment of the frame that is named as the base;
in both cases the segment has to be relative to J2000.  In all other cases an exception is raised. -/
theorem C73_frame (showReal : ℝ → List Char) (pc : PlanetaryConstants) (n : ℕ) (f : PlanetFrame) :
    pc.buildFrame showReal (.scalar (.int n)) = .ok f ↔
      pc.vars (frameKey (toString n).toList "_CENTER") = some f.center ∧ f.segment.frame = 1 ∧
      ((pc.vars (tkFrameKey (toString n).toList "_SPEC") = none ∧ f.matrix = none ∧ pc.segmentMap n = some f.segment) ∨
       (∃ m v name k, f.matrix = some m ∧ DefinesRotation pc (toString n).toList m ∧
          pc.vars (tkFrameKey (toString n).toList "_RELATIVE") = some (.scalar v) ∧
          formatValue showReal (.scalar v) = some name ∧ pc.vars (frameKey name "") = some (.scalar (.int k)) ∧
          pc.segmentMap k = some f.segment)) := by
  have h0 : formatValue showReal (.scalar (.int n)) = some (toString n).toList := rfl
  unfold PlanetaryConstants.buildFrame
  rw [h0]
  simp only
  rw [except_bind_ok]
  simp only [getAssignment_ok]
  cases hs : pc.vars (tkFrameKey (toString n).toList "_SPEC") with
  | none =>
    simp only [finish_ok]
    constructor
    · rintro ⟨c, hc, rfl, hm, h1, n', hn, hseg⟩
      cases hn
      exact ⟨hc, h1, .inl ⟨trivial, hm, hseg⟩⟩
    · rintro ⟨hc, h1, ⟨-, hm, hseg⟩ | ⟨m, v, name, k, -, hd, -⟩⟩
      · exact ⟨_, hc, rfl, hm, h1, n, rfl, hseg⟩
      · rcases hd with ⟨h, -⟩ | ⟨h, -⟩ <;> rw [hs] at h <;> cases h
  | some spec =>
    have hfix : ∀ m, pc.fixedRotation (toString n).toList spec = .ok m ↔ DefinesRotation pc (toString n).toList m := by
      intro m
      unfold DefinesRotation
      rw [hs]
      unfold PlanetaryConstants.fixedRotation
      cases spec with
      | list l => simp
      | scalar v =>
        cases v with
        | int k => simp
        | float x => simp
        | str u =>
          simp only [Option.some.injEq, PckEntry.scalar.injEq, PckValue.str.injEq]
          by_cases h1 : u = "ANGLES".toList
          · subst h1
            rw [if_pos rfl, anglesSpec_ok]
            have : ("ANGLES".toList = "MATRIX".toList) = False := by simp
            simp only [this, true_and, false_and, or_false]
          · rw [if_neg h1]
            by_cases h2 : u = "MATRIX".toList
            · subst h2
              rw [if_pos rfl, matrixSpec_ok]
              simp only [h1, true_and, false_and, false_or]
            · rw [if_neg h2]
              simp only [h1, h2, false_and, or_self, reduceCtorEq]
    constructor
    · rintro ⟨c, hc, h⟩
      simp only [except_bind_ok] at h
      obtain ⟨m, hm, r, hr, h⟩ := h
      rw [hfix] at hm
      rw [lookUp_ok] at hr
      cases r with
      | list l => cases h
      | scalar v =>
        simp only at h
        cases hv : formatValue showReal (.scalar v) with
        | none => rw [hv] at h; cases h
        | some name =>
          rw [hv] at h
          simp only [except_bind_ok, lookUp_ok, finish_ok] at h
          obtain ⟨e, he, rfl, hfm, h1, k, rfl, hseg⟩ := h
          exact ⟨hc, h1, .inr ⟨m, v, name, k, hfm, hm, hr, hv, he, hseg⟩⟩
    · rintro ⟨hc, h1, ⟨h, -⟩ | ⟨m, v, name, k, hfm, hd, hr, hv, he, hseg⟩⟩
      · cases h
      · refine ⟨_, hc, ?_⟩
        simp only [except_bind_ok]
        refine ⟨m, (hfix m).2 hd, _, (lookUp_ok _ _ _).2 hr, ?_⟩
        simp only [hv, except_bind_ok, lookUp_ok, finish_ok]
        exact ⟨_, he, trivial, hfm, h1, k, rfl, hseg⟩

/-- **C73.** A frame asked for by name is the frame with the number that the constants give for the name. -/
theorem C73_named (showReal : ℝ → List Char) (pc : PlanetaryConstants) (name : List Char) :
    (pc.vars (frameKey name "") = none → pc.buildFrameNamed showReal name = .error .unknownConstant) ∧
    (∀ e, pc.vars (frameKey name "") = some e → pc.buildFrameNamed showReal name = pc.buildFrame showReal e) := by
  unfold PlanetaryConstants.buildFrameNamed PlanetaryConstants.getAssignment
  constructor
  · intro h; rw [h]; rfl
  · intro e h; rw [h]; rfl

/-- Specification, after the Frames Required Reading of the SPICE toolkit: coordinates after turning the axes by an angle about one
of them. -/
noncomputable def turnAxes : Axis → ℝ → Vec3 → Vec3
  | .x, θ, v => ⟨v.x, cos θ * v.y + sin θ * v.z, -sin θ * v.y + cos θ * v.z⟩
  | .y, θ, v => ⟨cos θ * v.x - sin θ * v.z, v.y, sin θ * v.x + cos θ * v.z⟩
  | .z, θ, v => ⟨cos θ * v.x + sin θ * v.y, -sin θ * v.x + cos θ * v.y, v.z⟩

/-- Specification: with angles a₁, a₂, … about axes x₁, x₂, …, coordinates in the frame become coordinates in its base frame by
[a₁]ₓ₁ [a₂]ₓ₂ … -/
noncomputable def toBaseFrame (unit : ℝ) : List (ℝ × Axis) → Vec3 → Vec3
  | [], v => v
  | (a, axis) :: l, v => turnAxes axis (a * unit) (toBaseFrame unit l v)

theorem turnAxes_axisRotation (axis : Axis) (θ : ℝ) (v : Vec3) :
    turnAxes axis θ ((axisRotation axis θ).mulVec v) = v := by
  have h := sin_sq_add_cos_sq θ
  cases axis
  · ext <;> simp [turnAxes, axisRotation, rotX, Mat3.mulVec, Vec3.dot]
    · linear_combination (v.y) * h
    · linear_combination (v.z) * h
  · ext <;> simp [turnAxes, axisRotation, rotY, Mat3.mulVec, Vec3.dot]
    · linear_combination (v.x) * h
    · linear_combination (v.z) * h
  · ext <;> simp [turnAxes, axisRotation, rotZ, Mat3.mulVec, Vec3.dot]
    · linear_combination (v.x) * h
    · linear_combination (v.y) * h

theorem toBaseFrame_foldl (unit : ℝ) (l : List (ℝ × Axis)) (m : Mat3) (v : Vec3) :
    toBaseFrame unit l ((l.foldl (fun m p => (axisRotation p.2 (p.1 * unit)).mul m) m).mulVec v) = m.mulVec v := by
  induction l generalizing m with
  | nil => rfl
  | cons p l ih =>
    rw [List.foldl_cons, toBaseFrame, ih, Mat3.mul_mulVec, turnAxes_axisRotation]

/-- **C73.** A frame defined by angles is oriented as the kernel says: its coordinates, taken to the base frame by the rotations in the
order listed, are the coordinates given by the base frame's segment.  The lists may have any length. -/
theorem C73_angles (f : PlanetFrame) (l : List (ℝ × Axis)) (hm : f.matrix = some (anglesMatrix asec2rad l)) (t : SkyTime) (v : Vec3) :
    toBaseFrame asec2rad l ((f.rotationAt t).mulVec v) =
      (planetRotation none (f.segment.angles t).ra (f.segment.angles t).dec (f.segment.angles t).w).mulVec v := by
  unfold PlanetFrame.rotationAt planetRotation
  rw [hm]
  simp only
  rw [Mat3.mul_mulVec, anglesMatrix, toBaseFrame_foldl]
  ext <;> simp [Mat3.one, Mat3.mulVec, Vec3.dot]

/-- **C73.** The axes are numbered from 1 for x to 3 for z, and the angles go with the axes in the order listed; with a number that is
no axis, no frame is built. -/
theorem C73_axes (l : List (ℝ × Axis)) :
    zipAngles (l.map fun p => .float p.1) (l.map fun p => .int (match p.2 with | .x => 1 | .y => 2 | .z => 3)) = some l ∧
    ∀ (before after : List (ℝ × Axis)) (a : ℝ) (k : ℕ), k < 1 ∨ 3 < k →
      zipAngles ((before.map fun p => .float p.1) ++ .float a :: (after.map fun p => .float p.1))
        ((before.map fun p => .int (match p.2 with | .x => 1 | .y => 2 | .z => 3)) ++ .int k ::
          (after.map fun p => .int (match p.2 with | .x => 1 | .y => 2 | .z => 3))) = none := by
  have haxis : ∀ x : Axis, (PckValue.int (match x with | .x => 1 | .y => 2 | .z => 3) : PckValue ℝ).axis = some x := by
    intro x; cases x <;> rfl
  constructor
  · induction l with
    | nil => rfl
    | cons p l ih =>
      rw [List.map_cons, List.map_cons, zipAngles, ih, haxis]
      rfl
  · intro before after a k hk
    have hnone : (PckValue.int k : PckValue ℝ).axis = none := by
      match k, hk with
      | 0, _ => rfl
      | 1, h => omega
      | 2, h => omega
      | 3, h => omega
      | k + 4, _ => rfl
    induction before with
    | nil => simp [zipAngles, hnone, PckValue.number]
    | cons p l ih =>
      simp only [List.map_cons, List.cons_append, zipAngles, ih, haxis, PckValue.number]

/-- **C73.** An arcsecond is a 1 296 000th of a turn. -/
theorem C73_arcsecond : |1296000 * asec2rad - 2 * π| < 1e-18 := by
  unfold asec2rad
  have h1 := Real.pi_gt_d20
  have h2 := Real.pi_lt_d20
  rw [abs_lt]
  constructor <;> norm_num at * <;> linarith

/-- **C73.** A frame defined by a matrix is oriented as the kernel says.  A kernel lists by columns the matrix that takes coordinates in
the frame to coordinates in the base frame; if that is a rotation, it takes the frame's coordinates to those of the base
frame's segment. -/
theorem C73_matrix (f : PlanetFrame) (a11 a21 a31 a12 a22 a32 a13 a23 a33 : ℝ)
    (hm : matrixOf [.float a11, .float a21, .float a31, .float a12, .float a22, .float a32, .float a13, .float a23,
      .float a33] = f.matrix) (h : IsIsometry ⟨⟨a11, a12, a13⟩, ⟨a21, a22, a23⟩, ⟨a31, a32, a33⟩⟩) (t : SkyTime) (v : Vec3) :
    (⟨⟨a11, a12, a13⟩, ⟨a21, a22, a23⟩, ⟨a31, a32, a33⟩⟩ : Mat3).mulVec ((f.rotationAt t).mulVec v) =
      (planetRotation none (f.segment.angles t).ra (f.segment.angles t).dec (f.segment.angles t).w).mulVec v := by
  have hm' : f.matrix = some (⟨⟨a11, a12, a13⟩, ⟨a21, a22, a23⟩, ⟨a31, a32, a33⟩⟩ : Mat3).transpose := by
    rw [← hm]; rfl
  unfold PlanetFrame.rotationAt planetRotation
  rw [hm']
  simp only
  rw [Mat3.mul_mulVec]
  exact h.undo' _

/-- **C73 (limitation).** Only arcseconds are understood as a unit of angles, and only `ANGLES` and `MATRIX` as kinds of definition:
degrees, for instance, raise `KeyError`. -/
theorem C73_other_units (showReal : ℝ → List Char) (pc : PlanetaryConstants) (n : ℕ) (u : List Char)
    (hs : pc.vars (tkFrameKey (toString n).toList "_SPEC") = some (.scalar (.str "ANGLES".toList)))
    (hu : pc.vars (tkFrameKey (toString n).toList "_UNITS") = some (.scalar (.str u))) (h : u ≠ "ARCSECONDS".toList)
    (f : PlanetFrame) : pc.buildFrame showReal (.scalar (.int n)) ≠ .ok f := by
  rw [Ne, C73_frame]
  rintro ⟨-, -, ⟨h1, -⟩ | ⟨m, v, name, k, -, hd, -⟩⟩
  · rw [hs] at h1; cases h1
  · rcases hd with ⟨-, as, xs, l, -, -, h2, -⟩ | ⟨h2, -⟩
    · rw [hu] at h2
      simp only [Option.some.injEq, PckEntry.scalar.injEq, PckValue.str.injEq] at h2
      exact h h2
    · rw [hs] at h2
      simp at h2

/-- **C73 (limitation).** A frame that is fixed relative to another fixed-offset frame is not supported: the base frame must have a
segment of its own, even if the base's own base has one. -/
theorem C73_nested (showReal : ℝ → List Char) (pc : PlanetaryConstants) (n : ℕ) (spec : PckEntry ℝ) (v : PckValue ℝ)
    (name : List Char) (k : ℕ) (hs : pc.vars (tkFrameKey (toString n).toList "_SPEC") = some spec)
    (hr : pc.vars (tkFrameKey (toString n).toList "_RELATIVE") = some (.scalar v))
    (hv : formatValue showReal (.scalar v) = some name) (hk : pc.vars (frameKey name "") = some (.scalar (.int k)))
    (hseg : pc.segmentMap k = none) (f : PlanetFrame) : pc.buildFrame showReal (.scalar (.int n)) ≠ .ok f := by
  rw [Ne, C73_frame]
  rintro ⟨-, -, ⟨h1, -⟩ | ⟨m, v', name', k', -, -, h1, h2, h3, h4⟩⟩
  · rw [hs] at h1; cases h1
  · rw [hr] at h1
    cases h1
    rw [hv] at h2
    cases h2
    rw [hk] at h3
    cases h3
    rw [hseg] at h4
    cases h4

private theorem zipAngles_more (extra : List (PckValue ℝ)) : ∀ as xs : List (PckValue ℝ), xs.length ≤ as.length →
    zipAngles (as ++ extra) xs = zipAngles as xs
  | [], [], _ => by cases extra <;> rfl
  | [], _ :: _, h => by simp at h
  | _ :: _, [], _ => rfl
  | a :: as, x :: xs, h => by
    have ih := zipAngles_more extra as xs (by simpa using h)
    simp only [List.cons_append, zipAngles, ih]

/-- **C73 (limitation).** A definition with more angles than axes is not refused: the angles that are left over are ignored, and the same frame is built as
without them. -/
theorem C73_more_angles (showReal : ℝ → List Char) (pc pc' : PlanetaryConstants) (n : ℕ) (as extra xs : List (PckValue ℝ)) (h : as.length = xs.length)
    (hseg : pc'.segmentMap = pc.segmentMap)
    (hrest : ∀ key, key ≠ tkFrameKey (toString n).toList "_ANGLES" → pc'.vars key = pc.vars key)
    (hx : pc.vars (tkFrameKey (toString n).toList "_AXES") = some (.list xs))
    (ha : pc.vars (tkFrameKey (toString n).toList "_ANGLES") = some (.list as))
    (ha' : pc'.vars (tkFrameKey (toString n).toList "_ANGLES") = some (.list (as ++ extra))) :
    pc'.buildFrame showReal (.scalar (.int n)) = pc.buildFrame showReal (.scalar (.int n)) := by
  have hz := zipAngles_more extra as xs h.ge
  have h0 : formatValue showReal (.scalar (.int n)) = some (toString n).toList := rfl
  unfold PlanetaryConstants.buildFrame
  rw [h0]
  simp only
  generalize (toString n).toList = d at *
  have k1 : ∀ a b, pc'.vars (frameKey a b) = pc.vars (frameKey a b) := by
    intro a b
    apply hrest
    unfold frameKey tkFrameKey
    simp
  have k2 : ∀ b : String, b.toList ≠ "_ANGLES".toList → pc'.vars (tkFrameKey d b) = pc.vars (tkFrameKey d b) := by
    intro b hb
    apply hrest
    unfold tkFrameKey
    intro he
    exact hb (List.append_cancel_left he)
  have f1 : ∀ a b i, pc'.finish a b i = pc.finish a b i := by
    intro a b i
    unfold PlanetaryConstants.finish
    rw [hseg]
  have f2 : pc'.anglesSpec d = pc.anglesSpec d := by
    unfold PlanetaryConstants.anglesSpec PlanetaryConstants.lookUp
    rw [k2 "_AXES" (by decide), k2 "_UNITS" (by decide), ha, ha', hx]
    simp only [bind, Except.bind, hz]
  have f3 : pc'.matrixSpec d = pc.matrixSpec d := by
    unfold PlanetaryConstants.matrixSpec PlanetaryConstants.lookUp
    rw [k2 "_MATRIX" (by decide)]
  have f4 : ∀ e, pc'.fixedRotation d e = pc.fixedRotation d e := by
    intro e
    unfold PlanetaryConstants.fixedRotation
    rw [f2, f3]
  unfold PlanetaryConstants.getAssignment PlanetaryConstants.lookUp
  simp only [k1, k2 "_SPEC" (by decide), k2 "_RELATIVE" (by decide), f1, f4]

/-! ### Places -/

/-- **C73.** No place is built on a body whose radii differ, even if only the first two are given; nor on one with no radii, or too few. -/
theorem C73_place_refused (showReal : ℝ → List Char) (pc : PlanetaryConstants) (f : PlanetFrame) (n : ℕ) (lat lon h : ℝ)
    (hc : f.center = .scalar (.int n)) :
    (pc.vars ("BODY".toList ++ (toString n).toList ++ "_RADII".toList) = none →
      pc.buildLatlonDegrees showReal f lat lon h = .error .unknownConstant) ∧
    ∀ l, pc.vars ("BODY".toList ++ (toString n).toList ++ "_RADII".toList) = some (.list (l.map .float)) →
      (l.length < 2 → pc.buildLatlonDegrees showReal f lat lon h = .error .indexError) ∧
      (∀ r, l = [r, r] → pc.buildLatlonDegrees showReal f lat lon h = .error .indexError) ∧
      (∀ r r' rest, l = r :: r' :: rest → r ≠ r' → pc.buildLatlonDegrees showReal f lat lon h = .error .notSpherical) ∧
      ∀ r r' rest, l = r :: r :: r' :: rest → r ≠ r' → pc.buildLatlonDegrees showReal f lat lon h = .error .notSpherical := by
  constructor
  · intro hr
    unfold PlanetaryConstants.buildLatlonDegrees
    rw [hc]
    simp only [formatValue, hr]
  · intro l hr
    have hb : pc.buildLatlonDegrees showReal f lat lon h =
        PlanetaryConstants.buildLatlonDegrees.site f lat lon h (l.map .float) := by
      unfold PlanetaryConstants.buildLatlonDegrees
      rw [hc]
      simp only [formatValue, hr]
    rw [hb]
    refine ⟨fun hl => ?_, ?_, ?_, ?_⟩
    · match l, hl with
      | [], _ => rfl
      | [_], _ => rfl
    · rintro r rfl
      simp [PlanetaryConstants.buildLatlonDegrees.site, PckValue.same]
    · rintro r r' rest rfl hne
      simp [PlanetaryConstants.buildLatlonDegrees.site, PckValue.same, PckValue.number, hne]
    · rintro r r' rest rfl hne
      simp [PlanetaryConstants.buildLatlonDegrees.site, PckValue.same, PckValue.number, hne]

/-- **C73.** A place can be built exactly on a body for which three equal radii are given; it is then at the radius plus the elevation
from the body's center, at all times, and at the latitude and longitude asked for. -/
theorem C73_place (showReal : ℝ → List Char) (pc : PlanetaryConstants) (f : PlanetFrame) (n : ℕ) (lat lon h : ℝ)
    (hc : f.center = .scalar (.int n)) (radius : ℝ) (x y z : PckValue ℝ)
    (hr : pc.vars ("BODY".toList ++ (toString n).toList ++ "_RADII".toList) = some (.list [x, y, z])) (hx : x.number = some radius) :
    ((∃ s, pc.buildLatlonDegrees showReal f lat lon h = .ok s) ↔ y.number = some radius ∧ z.number = some radius) ∧
    ∀ s, pc.buildLatlonDegrees showReal f lat lon h = .ok s → s.frame = f ∧ s.latitude = lat * (π / 180) ∧
      s.longitude = lon * (π / 180) ∧
      s.position = fromSpherical ((radius + h / 1000) / 149597870.7) (lat * (π / 180)) (lon * (π / 180)) ∧
      ∀ a : PckAngles, IsIsometry ((f.matrix).getD Mat3.one) →
        (planetPlaceAt f.matrix s.position a).1.length = |radius + h / 1000| / 149597870.7 := by
  have e1 : lat / 360 * tau = lat * (π / 180) := by unfold tau; ring
  have e2 : lon / 360 * tau = lon * (π / 180) := by unfold tau; ring
  have e3 : (radius + h * 1e-3) / auKm = (radius + h / 1000) / 149597870.7 := by unfold auKm; norm_num; ring
  have hsame : ∀ a b : PckValue ℝ, a.number = some radius → (a.same b ↔ b.number = some radius) := by
    intro a b ha
    cases a <;> cases b <;> simp only [PckValue.same, PckValue.number, Option.some.injEq, reduceCtorEq] at ha ⊢ <;> subst ha <;>
      exact eq_comm
  have hb : pc.buildLatlonDegrees showReal f lat lon h =
      open Classical in
      if ¬ x.same y then .error .notSpherical
      else if ¬ y.same z then .error .notSpherical
      else .ok ⟨f, lat / 360 * tau, lon / 360 * tau,
          planetPlace (lat / 360 * tau) (lon / 360 * tau) ((radius + h * 1e-3) / auKm)⟩ := by
    unfold PlanetaryConstants.buildLatlonDegrees
    rw [hc]
    simp only [formatValue, hr, PlanetaryConstants.buildLatlonDegrees.site, hx]
  have hlen : ∀ (d la lo : ℝ), (fromSpherical d la lo).length = |d| := by
    intro d la lo
    have h1 := sin_sq_add_cos_sq la
    have h2 := sin_sq_add_cos_sq lo
    rw [Vec3.length, ← Real.sqrt_sq_eq_abs]
    congr 1
    simp only [fromSpherical]
    linear_combination d ^ 2 * cos la ^ 2 * h2 + d ^ 2 * h1
  have hok : ∀ s, pc.buildLatlonDegrees showReal f lat lon h = .ok s → y.number = some radius ∧ z.number = some radius ∧
      s = ⟨f, lat / 360 * tau, lon / 360 * tau,
          planetPlace (lat / 360 * tau) (lon / 360 * tau) ((radius + h * 1e-3) / auKm)⟩ := by
    intro s hs
    rw [hb] at hs
    split_ifs at hs with h1 h2
    have hy := (hsame x y hx).1 h1
    injection hs with hs
    exact ⟨hy, (hsame y z hy).1 h2, hs.symm⟩
  constructor
  · constructor
    · rintro ⟨s, hs⟩
      exact ⟨(hok s hs).1, (hok s hs).2.1⟩
    · rintro ⟨hy, hz⟩
      rw [hb, if_neg (not_not.2 ((hsame x y hx).2 hy)), if_neg (not_not.2 ((hsame y z hy).2 hz))]
      exact ⟨_, rfl⟩
  · intro s hs
    obtain ⟨-, -, rfl⟩ := hok s hs
    have hp : planetPlace (lat / 360 * tau) (lon / 360 * tau) ((radius + h * 1e-3) / auKm) =
        fromSpherical ((radius + h / 1000) / 149597870.7) (lat * (π / 180)) (lon * (π / 180)) := by
      rw [C38_planet_place, e1, e2, e3]
    refine ⟨rfl, e1, e2, hp, fun a hi => ?_⟩
    simp only [hp]
    have hR : IsIsometry (planetRotation f.matrix a.ra a.dec a.w) := by
      have h0 : IsIsometry (planetRotation none a.ra a.dec a.w) := (C35_rot_z _).mul ((C35_rot_x _).mul (C35_rot_z _))
      cases hfm : f.matrix with
      | none => exact h0
      | some m =>
        rw [hfm] at hi
        have h1 : planetRotation (some m) a.ra a.dec a.w = m.mul (planetRotation none a.ra a.dec a.w) := rfl
        rw [h1]
        exact IsIsometry.mul hi h0
    have hpos : (planetPlaceAt f.matrix (fromSpherical ((radius + h / 1000) / 149597870.7) (lat * (π / 180)) (lon * (π / 180))) a).1 =
        (planetRotation f.matrix a.ra a.dec a.w).transpose.mulVec
          (fromSpherical ((radius + h / 1000) / 149597870.7) (lat * (π / 180)) (lon * (π / 180))) := by
      rw [← C38_planet_rotation]; rfl
    rw [hpos]
    have hT : ∀ u : Vec3, ((planetRotation f.matrix a.ra a.dec a.w).transpose.mulVec u).length = u.length := by
      intro u
      have := hR.length ((planetRotation f.matrix a.ra a.dec a.w).transpose.mulVec u)
      rw [hR.undo'] at this
      exact this.symm
    rw [hT, hlen, abs_div, abs_of_pos (by norm_num : (0:ℝ) < 149597870.7)]

/-- **C73.** The horizon of a place: seen from there, straight up (away from the body's center) is the third axis, so altitude 90°; north
(increasing latitude) is azimuth 0°, and east (increasing longitude) is azimuth 90°. -/
theorem C73_horizon (lat lon : ℝ) (frame : Mat3) (h : IsIsometry frame) :
    (planetHorizonRotation lat lon frame).mulVec (frame.transpose.mulVec ⟨cos lat * cos lon, cos lat * sin lon, sin lat⟩) =
      ⟨0, 0, 1⟩ ∧
    (planetHorizonRotation lat lon frame).mulVec (frame.transpose.mulVec ⟨-sin lat * cos lon, -sin lat * sin lon, cos lat⟩) =
      ⟨1, 0, 0⟩ ∧
    (planetHorizonRotation lat lon frame).mulVec (frame.transpose.mulVec ⟨-sin lon, cos lon, 0⟩) = ⟨0, 1, 0⟩ := by
  have key : ∀ v, (planetHorizonRotation lat lon frame).mulVec (frame.transpose.mulVec v) =
      (⟨((rotY (tau / 4 - lat)).mul (rotZ (tau / 2 - lon))).r1, -((rotY (tau / 4 - lat)).mul (rotZ (tau / 2 - lon))).r2,
        ((rotY (tau / 4 - lat)).mul (rotZ (tau / 2 - lon))).r3⟩ : Mat3).mulVec v := by
    intro v
    have h1 : ∀ (m : Mat3) (u : Vec3), (⟨m.r1, -m.r2, m.r3⟩ : Mat3).mulVec u =
        ⟨(m.mulVec u).x, -(m.mulVec u).y, (m.mulVec u).z⟩ := by
      intro m u; ext <;> simp [Mat3.mulVec, Vec3.dot]; ring
    unfold planetHorizonRotation
    simp only [h1, Mat3.mul3]
    rw [Mat3.mul_mulVec (((rotY (tau / 4 - lat)).mul (rotZ (tau / 2 - lon)))), h.undo']
  have c1 : cos (tau / 4 - lat) = sin lat := by
    rw [← Real.cos_pi_div_two_sub]; congr 1; unfold tau; ring
  have s1 : sin (tau / 4 - lat) = cos lat := by
    rw [← Real.sin_pi_div_two_sub]; congr 1; unfold tau; ring
  have c2 : cos (tau / 2 - lon) = -cos lon := by
    rw [← Real.cos_pi_sub]; congr 1; unfold tau; ring
  have s2 : sin (tau / 2 - lon) = sin lon := by
    rw [← Real.sin_pi_sub]; congr 1; unfold tau; ring
  have h1 := sin_sq_add_cos_sq lat
  have h2 := sin_sq_add_cos_sq lon
  simp only [key]
  refine ⟨?_, ?_, ?_⟩ <;> ext <;>
    simp [rotY, rotZ, Mat3.mul, Mat3.mulVec, Mat3.transpose, Vec3.dot, c1, s1, c2, s2] <;> grind

/-! ### Non-vacuity -/

/-- Constants like those of a lunar frame kernel: frame 31001 is fixed relative to `PA`, which is frame 31006 and has a
segment. -/
noncomputable def exampleConstants : PlanetaryConstants :=
  { vars := fun k =>
      if k = "FRAME_ME".toList then some (.scalar (.int 31001))
      else if k = "FRAME_31001_CENTER".toList then some (.scalar (.int 301))
      else if k = "TKFRAME_31001_SPEC".toList then some (.scalar (.str "ANGLES".toList))
      else if k = "TKFRAME_31001_ANGLES".toList then some (.list [.float 67, .float 78, .int 0])
      else if k = "TKFRAME_31001_AXES".toList then some (.list [.int 3, .int 2, .int 1])
      else if k = "TKFRAME_31001_UNITS".toList then some (.scalar (.str "ARCSECONDS".toList))
      else if k = "TKFRAME_31001_RELATIVE".toList then some (.scalar (.str "PA".toList))
      else if k = "FRAME_PA".toList then some (.scalar (.int 31006))
      else if k = "BODY301_RADII".toList then some (.list [.float 1737.4, .float 1737.4, .float 1737.4])
      else none
    segmentList := [⟨31006, 1, fun _ => ⟨1, 2, 3, 0, 0, 0⟩⟩]
    segmentMap := fun n => if n = 31006 then some ⟨31006, 1, fun _ => ⟨1, 2, 3, 0, 0, 0⟩⟩ else none }

example : ∃ f, exampleConstants.buildFrame (fun _ => []) (.scalar (.int 31001)) = .ok f ∧ f.center = .scalar (.int 301) := by
  refine ⟨⟨.scalar (.int 301), ⟨31006, 1, fun _ => ⟨1, 2, 3, 0, 0, 0⟩⟩,
    some (anglesMatrix asec2rad [(67, .z), (78, .y), ((0 : ℕ), .x)])⟩, ?_, rfl⟩
  rw [C73_frame]
  refine ⟨rfl, rfl, .inr ⟨_, .str "PA".toList, "PA".toList, 31006, rfl, .inl ⟨rfl, ?_⟩, rfl, rfl, rfl, rfl⟩⟩
  exact ⟨_, _, _, rfl, rfl, rfl, rfl, rfl⟩

/-- The same constants, with a fourth angle. -/
noncomputable def exampleMore : PlanetaryConstants :=
  { vars := fun k =>
      if k = "TKFRAME_31001_ANGLES".toList then some (.list [.float 67, .float 78, .int 0, .float 5])
      else exampleConstants.vars k
    segmentList := exampleConstants.segmentList
    segmentMap := exampleConstants.segmentMap }

example : exampleMore.buildFrame (fun _ => []) (.scalar (.int 31001)) = exampleConstants.buildFrame (fun _ => []) (.scalar (.int 31001)) :=
  C73_more_angles _ exampleConstants exampleMore 31001 [.float 67, .float 78, .int 0] [.float 5] [.int 3, .int 2, .int 1] rfl rfl (fun _ h => if_neg h) rfl rfl rfl

example : ∃ s, exampleConstants.buildLatlonDegrees (fun _ => [])
    ⟨.scalar (.int 301), ⟨31006, 1, fun _ => ⟨1, 2, 3, 0, 0, 0⟩⟩, none⟩ 20 30 100 = .ok s := by
  refine ((C73_place (fun _ => []) exampleConstants ⟨.scalar (.int 301), ⟨31006, 1, fun _ => ⟨1, 2, 3, 0, 0, 0⟩⟩, none⟩
    301 20 30 100 rfl 1737.4 (.float 1737.4) (.float 1737.4) (.float 1737.4) rfl rfl).1).2 ⟨rfl, rfl⟩

end Skyfield
