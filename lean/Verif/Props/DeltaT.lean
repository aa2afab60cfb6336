import Verif.Lemmas.DeltaT
import Mathlib.Analysis.Calculus.Deriv.Mul
import Mathlib.Analysis.Calculus.Deriv.Add
import Mathlib.Algebra.Order.Archimedean.Real.Basic

/-
C13: ∆T is the table where there is one, straight lines between entries, the long-term curve
outside, and has no jump anywhere.
-/
namespace Skyfield
set_option linter.unusedSectionVars false
section generic
variable {K : Type*} [Field K] [LinearOrder K] [IsStrictOrderedRing K] [FloorRing K]

theorem interpGo_middle (p : K × K) (l : List (K × K)) (a b : List (K × K)) (u v : K × K) (x : K)
    (hs : (p :: l).Pairwise (fun a b => a.1 < b.1)) (e : p :: l = a ++ u :: v :: b)
    (h0 : u.1 ≤ x) (h1 : x ≤ v.1) :
    interpGo p l x = u.2 + (v.2 - u.2) / (v.1 - u.1) * (x - u.1) := by
  induction l generalizing p a with
  | nil =>
    have := congrArg List.length e
    simp at this
    omega
  | cons q r ih =>
    obtain ⟨hp, hs'⟩ := List.pairwise_cons.1 hs
    cases a with
    | nil =>
      simp only [List.nil_append, List.cons.injEq] at e
      obtain ⟨rfl, rfl, rfl⟩ := e
      have hpq := hp q List.mem_cons_self
      simp only [interpGo]
      rcases lt_or_eq_of_le h1 with h | h
      · rw [if_pos h]
        split
        · rename_i h2; rw [le_antisymm h2 h0]; ring
        · rfl
      · rw [if_neg (not_lt.2 h.ge), h, interpGo_start q r hs',
          div_mul_cancel₀ _ (sub_ne_zero.2 hpq.ne')]
        ring
    | cons a0 a =>
      simp only [List.cons_append, List.cons.injEq] at e
      obtain ⟨rfl, e⟩ := e
      simp only [interpGo]
      have hqu : q.1 ≤ u.1 := by
        cases a with
        | nil => simp only [List.nil_append, List.cons.injEq] at e; rw [e.1]
        | cons a1 a =>
          simp only [List.cons_append, List.cons.injEq] at e
          exact ((List.pairwise_cons.1 hs').1 u (by rw [e.2]; simp)).le
      rw [if_neg (not_lt.2 (le_trans hqu h0))]
      exact ih q a hs' e

theorem interpGo_point (p : K × K) (l : List (K × K)) (q : K × K)
    (hs : (p :: l).Pairwise (fun a b => a.1 < b.1)) (hq : q ∈ p :: l) : interpGo p l q.1 = q.2 := by
  induction l generalizing p with
  | nil => simp only [List.mem_singleton] at hq; subst hq; rfl
  | cons r l ih =>
    obtain ⟨hp, hs'⟩ := List.pairwise_cons.1 hs
    rcases List.mem_cons.1 hq with rfl | hq
    · exact interpGo_start _ _ hs
    · simp only [interpGo]
      have : r.1 ≤ q.1 := by
        rcases List.mem_cons.1 hq with rfl | hq
        · exact le_refl _
        · exact ((List.pairwise_cons.1 hs').1 q hq).le
      rw [if_neg (not_lt.2 this)]
      exact ih r hs' hq

theorem sorted_le_last (p : K × K) (l : List (K × K)) (hs : (p :: l).Pairwise (fun a b => a.1 < b.1))
    (q : K × K) (hq : q ∈ p :: l) : q.1 ≤ ((p :: l).getLast (by simp)).1 := by
  induction l generalizing p q with
  | nil => simp only [List.mem_singleton] at hq; subst hq; simp
  | cons r l ih =>
    obtain ⟨hp, hs'⟩ := List.pairwise_cons.1 hs
    rw [List.getLast_cons (by simp)]
    rcases List.mem_cons.1 hq with rfl | hq
    · exact le_trans (hp r List.mem_cons_self).le (ih r hs' r List.mem_cons_self)
    · exact ih r hs' q hq

theorem sorted_first_le (p : K × K) (l : List (K × K)) (hs : (p :: l).Pairwise (fun a b => a.1 < b.1))
    (q : K × K) (hq : q ∈ p :: l) : p.1 ≤ q.1 := by
  rcases List.mem_cons.1 hq with rfl | hq
  · exact le_refl _
  · exact ((List.pairwise_cons.1 hs).1 q hq).le

/-- The daily table of a ∆T object as (date, value) pairs. -/
def DeltaT.entries (d : DeltaT K) : List (K × K) := d.tableTt.zip d.tableDeltaT

/-- **C13.** At every date in the table, ∆T is the table's value. -/
theorem C13_table_entry (d : DeltaT K) (hs : d.entries.Pairwise (fun a b => a.1 < b.1))
    (date value : K) (h : (date, value) ∈ d.entries) : d.call date = some value := by
  unfold DeltaT.call interpNan
  unfold DeltaT.entries at hs h
  cases hz : d.tableTt.zip d.tableDeltaT with
  | nil => rw [hz] at h; exact absurd h List.not_mem_nil
  | cons p l =>
    rw [hz] at hs h
    simp only
    rw [if_neg (not_lt.2 (sorted_first_le p l hs _ h)), if_neg (not_lt.2 (sorted_le_last p l hs _ h)),
      interpGo_point p l _ hs h]

/-- **C13.** Between neighbouring table entries, ∆T is on the straight line through them. -/
theorem C13_linear_between (d : DeltaT K) (hs : d.entries.Pairwise (fun a b => a.1 < b.1))
    (before after : List (K × K)) (t0 v0 t1 v1 : K)
    (e : d.entries = before ++ (t0, v0) :: (t1, v1) :: after) (t : K) (h0 : t0 ≤ t) (h1 : t ≤ t1) :
    d.call t = some (v0 + (v1 - v0) * ((t - t0) / (t1 - t0))) := by
  unfold DeltaT.call interpNan
  unfold DeltaT.entries at hs e
  cases hz : d.tableTt.zip d.tableDeltaT with
  | nil => rw [hz] at e; exact absurd e.symm (by simp)
  | cons p l =>
    rw [hz] at hs e
    have m0 : (t0, v0) ∈ p :: l := by rw [e]; simp
    have m1 : (t1, v1) ∈ p :: l := by rw [e]; simp
    have a0 := sorted_first_le p l hs _ m0
    have a1 := sorted_le_last p l hs _ m1
    simp only at a0 a1 ⊢
    rw [if_neg (not_lt.2 (le_trans a0 h0)), if_neg (not_lt.2 (le_trans h1 a1)),
      interpGo_middle p l before after _ _ t hs e h0 h1]
    simp only [Option.some.injEq]
    ring

/-- **C13.** Outside the table, ∆T is the long-term curve at that Julian year. -/
theorem C13_outside (d : DeltaT K) (first last : K × K) (hf : d.entries.head? = some first)
    (hl : d.entries.getLast? = some last) (t : K) (h : t < first.1 ∨ last.1 < t) :
    d.call t = splinesCall d.longTerm (ttToJ t) := by
  unfold DeltaT.call interpNan
  unfold DeltaT.entries at hf hl
  cases hz : d.tableTt.zip d.tableDeltaT with
  | nil => rw [hz] at hf; exact absurd hf (by simp)
  | cons p l =>
    rw [hz] at hf hl
    rw [List.getLast?_eq_getLast_of_ne_nil (by simp)] at hl
    simp only [List.head?_cons, Option.some.injEq] at hf hl
    subst hf
    simp only [hl]
    by_cases h0 : t < p.1
    · rw [if_pos h0]
    · rw [if_neg h0, if_pos (h.resolve_left h0)]

/-- **C13.** A spline table is looked up in the piece that starts last among those that start at or
before `x` (the first piece if none does). -/
theorem C13_piece_used (before after : List (Piece K)) (p : Piece K) (x : K)
    (hs : (before ++ p :: after).Pairwise (fun a b => a.lower < b.lower))
    (h0 : before = [] ∨ p.lower ≤ x) (h1 : ∀ q ∈ after, x < q.lower) :
    splinesCall (before ++ p :: after) x = some (p.eval x) := by
  have key : evalGo p after x = p.eval x := by
    cases after with
    | nil => rfl
    | cons q r => simp only [evalGo, if_pos (h1 q List.mem_cons_self)]
  cases before with
  | nil => rw [List.nil_append] at hs ⊢; rw [splinesCall_eq _ _ _ hs, key]
  | cons b bs =>
    have hx := h0.resolve_left (by simp)
    rw [List.cons_append] at hs ⊢
    rw [splinesCall_eq _ _ _ hs, evalGo_append_ge b bs p after x hs hx, key]

example : splinesCall [⟨0, 1, 5, []⟩, ⟨10, 20, 1, [7]⟩, ⟨30, 40, 9, []⟩] (15 : ℚ) = some (1 * (1/2) + 7) := by
  refine (C13_piece_used [⟨0, 1, 5, []⟩] [⟨30, 40, 9, []⟩] ⟨10, 20, 1, [7]⟩ 15
    (by simp; norm_num) (by right; norm_num) (by simp; norm_num)).trans ?_
  norm_num [Piece.eval, horner]

example : (⟨[10, 20], [60, 61], []⟩ : DeltaT ℚ).call 15 = some (60 + (61 - 60) * ((15 - 10) / (20 - 10))) :=
  C13_linear_between _ (by simp [DeltaT.entries]; norm_num) [] [] _ _ _ _ rfl 15 (by norm_num)
    (by norm_num)

end generic

/-! ### Slopes -/

theorem horner_append (c0 : ℝ) (cs : List ℝ) (c t : ℝ) :
    horner c0 (cs ++ [c]) t = horner c0 cs t * t + c := by
  simp [horner, List.foldl_append]

theorem derivCoeffs_append (w c : ℝ) (cs : List ℝ) :
    derivCoeffs w (cs ++ [c]) =
      (List.zipWith (· + ·) (derivCoeffs w cs) (cs.map (· / w))) ++ [c / w] := by
  induction cs with
  | nil => simp [derivCoeffs]
  | cons a cs ih =>
    simp only [List.cons_append, derivCoeffs, ih, List.map_cons, List.zipWith_cons_cons,
      List.length_append, List.length_singleton]
    congr 1
    push_cast
    ring

theorem derivCoeffs_length (w : ℝ) (cs : List ℝ) : (derivCoeffs w cs).length = cs.length := by
  induction cs with
  | nil => rfl
  | cons a cs ih => simp [derivCoeffs, ih]

/-- Sum of two coefficient lists of the same length. -/
theorem foldl_zipWith_add (t : ℝ) (l1 l2 : List ℝ) (h : l1.length = l2.length) (x y : ℝ) :
    (List.zipWith (· + ·) l1 l2).foldl (fun v c => v * t + c) (x + y) =
      l1.foldl (fun v c => v * t + c) x + l2.foldl (fun v c => v * t + c) y := by
  induction l1 generalizing l2 x y with
  | nil => cases l2 with
    | nil => rfl
    | cons _ _ => simp at h
  | cons a l1 ih => cases l2 with
    | nil => simp at h
    | cons b l2 =>
      simp only [List.zipWith_cons_cons, List.foldl_cons]
      rw [← ih l2 (by simpa using h)]
      congr 1
      ring

/-- Polynomial value of a coefficient list, highest power first. -/
def polyVal (l : List ℝ) (t : ℝ) : ℝ := l.foldl (fun v c => v * t + c) 0

theorem horner_eq_polyVal (c0 : ℝ) (cs : List ℝ) (t : ℝ) : horner c0 cs t = polyVal (c0 :: cs) t := by
  simp [horner, polyVal]

theorem polyVal_append (l : List ℝ) (c t : ℝ) : polyVal (l ++ [c]) t = polyVal l t * t + c := by
  simp [polyVal, List.foldl_append]

theorem polyVal_div (l : List ℝ) (w t : ℝ) : polyVal (l.map (· / w)) t = polyVal l t / w := by
  induction l using List.reverseRecOn with
  | nil => simp [polyVal]
  | append_singleton l c ih =>
    rw [List.map_append, List.map_singleton, polyVal_append, polyVal_append, ih]
    ring

theorem polyVal_add (l1 l2 : List ℝ) (h : l1.length = l2.length) (t : ℝ) :
    polyVal (List.zipWith (· + ·) l1 l2) t = polyVal l1 t + polyVal l2 t := by
  have := foldl_zipWith_add t l1 l2 h 0 0
  rwa [add_zero] at this

theorem hasDerivAt_polyVal (l : List ℝ) (c lo w x : ℝ) :
    HasDerivAt (fun y => polyVal (l ++ [c]) ((y - lo) / w))
      (polyVal (derivCoeffs w l) ((x - lo) / w)) x := by
  induction l using List.reverseRecOn generalizing c with
  | nil =>
    have : (fun y : ℝ => polyVal ([] ++ [c]) ((y - lo) / w)) = fun _ => c := by
      funext y; simp [polyVal]
    rw [this]
    simpa [polyVal, derivCoeffs] using hasDerivAt_const x c
  | append_singleton l a ih =>
    have h1 := ih a
    have h2 : HasDerivAt (fun y : ℝ => (y - lo) / w) (1 / w) x :=
      ((hasDerivAt_id x).sub_const lo).div_const w
    have h3 := (h1.mul h2).add_const c
    have e : (fun y => polyVal (l ++ [a] ++ [c]) ((y - lo) / w)) =
        fun y => polyVal (l ++ [a]) ((y - lo) / w) * ((y - lo) / w) + c := by
      funext y; rw [polyVal_append]
    have hv : polyVal (derivCoeffs w (l ++ [a])) ((x - lo) / w) =
        polyVal (derivCoeffs w l) ((x - lo) / w) * ((x - lo) / w) +
          polyVal (l ++ [a]) ((x - lo) / w) * (1 / w) := by
      rw [derivCoeffs_append, polyVal_append, polyVal_add _ _ (by simp [derivCoeffs_length]),
        polyVal_div, polyVal_append]
      ring
    rw [e, hv]
    exact h3

/-- **C13.** The `derivative` of a spline piece is the true derivative of its curve. -/
theorem C13_derivative (p p' : Piece ℝ) (h : p.derivative = some p') (x : ℝ) :
    HasDerivAt p.eval (p'.eval x) x := by
  unfold Piece.derivative at h
  have hne : p.c0 :: p.cs ≠ [] := by simp
  have hl : p.c0 :: p.cs = (p.c0 :: p.cs).dropLast ++ [(p.c0 :: p.cs).getLast hne] :=
    (List.dropLast_append_getLast hne).symm
  have key := hasDerivAt_polyVal (p.c0 :: p.cs).dropLast ((p.c0 :: p.cs).getLast hne) p.lower
    (p.upper - p.lower) x
  rw [← hl] at key
  have e : p.eval = fun y => polyVal (p.c0 :: p.cs) ((y - p.lower) / (p.upper - p.lower)) := by
    funext y; unfold Piece.eval; rw [horner_eq_polyVal]
  rw [e]
  cases hd : derivCoeffs (p.upper - p.lower) ((p.c0 :: p.cs).dropLast) with
  | nil => rw [hd] at h; exact absurd h (by simp)
  | cons c cs =>
    rw [hd] at h
    simp only [Option.some.injEq] at h
    subst h
    rw [hd] at key
    simpa only [Piece.eval, horner_eq_polyVal] using key

example : (parabola2016 : Piece ℝ).derivative =
    some ⟨1825, 1925, 3 * 0 / 100, [2 * (325 / 10) / 100, 1 * 0 / 100]⟩ := by
  have : ((1925 : ℝ) - 1825) = 100 := by norm_num
  simp [parabola2016, Piece.derivative, derivCoeffs, this]

/-- **C13.** A joining spline has the requested value and the requested slope at both of its ends. -/
theorem C13_joining_spline (x0 y0 s0 x1 y1 s1 : ℝ) (h : x0 ≠ x1) :
    (buildSplineGivenEnds x0 y0 s0 x1 y1 s1).eval x0 = y0 ∧
    (buildSplineGivenEnds x0 y0 s0 x1 y1 s1).eval x1 = y1 ∧
    HasDerivAt (buildSplineGivenEnds x0 y0 s0 x1 y1 s1).eval s0 x0 ∧
    HasDerivAt (buildSplineGivenEnds x0 y0 s0 x1 y1 s1).eval s1 x1 := by
  have hw : x1 - x0 ≠ 0 := sub_ne_zero.2 h.symm
  have hd : (buildSplineGivenEnds x0 y0 s0 x1 y1 s1).derivative = some
      ⟨x0, x1, 3 * (s0 * (x1 - x0) + s1 * (x1 - x0) + 2*y0 - 2*y1) / (x1 - x0),
        [2 * (-2*(s0 * (x1 - x0)) - s1 * (x1 - x0) - 3*y0 + 3*y1) / (x1 - x0),
          1 * (s0 * (x1 - x0)) / (x1 - x0)]⟩ := by
    simp only [buildSplineGivenEnds, Piece.derivative, derivCoeffs, List.dropLast, List.length_cons,
      List.length_nil, Option.some.injEq, Piece.mk.injEq, List.cons.injEq, true_and, and_true]
    refine ⟨?_, ?_, ?_⟩ <;> norm_num
  refine ⟨hermite_left _ _ _ _ _ _, hermite_right _ _ _ _ _ _ h, ?_, ?_⟩
  · convert C13_derivative _ _ hd x0 using 1
    simp only [Piece.eval, horner, List.foldl_cons, List.foldl_nil]
    rw [sub_self, zero_div]
    field_simp
    ring
  · convert C13_derivative _ _ hd x1 using 1
    simp only [Piece.eval, horner, List.foldl_cons, List.foldl_nil]
    rw [div_self hw]
    field_simp
    ring

/-! ### No jumps -/

theorem parabola_patch (x0 x1 x : ℝ) (h : x0 ≠ x1) :
    (buildSplineGivenEnds x0 (parabola2016.eval x0) (parabolaSlope x0) x1 (parabola2016.eval x1)
      (parabolaSlope x1)).eval x = parabola2016.eval x := by
  have hw : x1 - x0 ≠ 0 := sub_ne_zero.2 h.symm
  rw [hermite_eval, parabola_eval, parabola_eval, parabola_eval]
  unfold parabolaSlope
  field_simp
  ring

theorem derivative_of_cubic {K : Type*} [Field K] [LinearOrder K] [IsStrictOrderedRing K] [FloorRing K]
    (p : Piece K) (h : p.cs.length = 3) : ∃ p', p.derivative = some p' ∧ p'.lower = p.lower := by
  obtain ⟨lo, up, c0, cs⟩ := p
  match cs, h with
  | [a, b, c], _ => exact ⟨_, rfl, rfl⟩

theorem splinesDerivative_cubic {K : Type*} [Field K] [LinearOrder K] [IsStrictOrderedRing K]
    [FloorRing K] (ps : List (Piece K)) (h : ∀ p ∈ ps, p.cs.length = 3) :
    ∃ ds, splinesDerivative ps = some ds ∧ ds.map (·.lower) = ps.map (·.lower) := by
  induction ps with
  | nil => exact ⟨[], rfl, rfl⟩
  | cons p ps ih =>
    obtain ⟨ds, h1, h2⟩ := ih fun q hq => h q (List.mem_cons_of_mem _ hq)
    obtain ⟨p', h3, h4⟩ := derivative_of_cubic p (h p List.mem_cons_self)
    refine ⟨p' :: ds, ?_, by simp [h2, h4]⟩
    unfold splinesDerivative at h1 ⊢
    simp [List.mapM_cons, h1, h3]

theorem splinesCall_lower {K : Type*} [Field K] [LinearOrder K] [IsStrictOrderedRing K] [FloorRing K]
    (p : Piece K) (rest : List (Piece K)) (ds : List (Piece K))
    (hs : (p :: rest).Pairwise (fun a b => a.lower < b.lower))
    (h : ds.map (·.lower) = (p :: rest).map (·.lower)) (x : K) : ∃ y, splinesCall ds x = some y := by
  cases ds with
  | nil => simp at h
  | cons d ds =>
    refine ⟨_, splinesCall_eq d ds x ?_⟩
    have h1 : ((p :: rest).map (·.lower)).Pairwise (· < ·) := List.pairwise_map.2 hs
    rw [← h] at h1
    exact List.pairwise_map.1 h1

/-- What `build_delta_t` builds, when its spline table is an unbroken chain of cubics and the daily
table starts after the splines do. -/
theorem buildDeltaT_eq (first : Piece ℝ) (rest : List (Piece ℝ)) (t0 : ℝ) (ts : List ℝ) (d0 : ℝ)
    (ds : List ℝ) (hchain : (first :: rest).IsChain Joins)
    (hcubic : ∀ p ∈ first :: rest, p.cs.length = 3) (hstart : first.lower < ttToJ t0) :
    ∃ (sl sr : ℝ) (pre : List (Piece ℝ)) (lo up c3 c2 c1 c0 : ℝ),
      buildDeltaT (first :: rest) (t0 :: ts) (d0 :: ds) = some ⟨t0 :: ts, d0 :: ds,
        buildSplineGivenEnds (first.lower - 800 - 100) (parabola2016.eval (first.lower - 800 - 100))
          (parabolaSlope (first.lower - 800 - 100)) (first.lower - 800)
          (parabola2016.eval (first.lower - 800)) (parabolaSlope (first.lower - 800)) ::
        buildSplineGivenEnds (first.lower - 800) (parabola2016.eval (first.lower - 800))
          (parabolaSlope (first.lower - 800)) first.lower (first.eval first.lower) sl ::
        (pre ++ [⟨lo, up, c3, [c2, c1 + (d0 - evalGo first rest (ttToJ t0)) /
            ((ttToJ t0 - lo) / (up - lo)), c0]⟩] ++
          [buildSplineGivenEnds (ttToJ ((t0 :: ts).getLast (by simp))) ((d0 :: ds).getLast (by simp)) sr
            (pyFloorDiv (ttToJ ((t0 :: ts).getLast (by simp)) + 800) 100 * 100)
            (parabola2016.eval (pyFloorDiv (ttToJ ((t0 :: ts).getLast (by simp)) + 800) 100 * 100))
            (parabolaSlope (pyFloorDiv (ttToJ ((t0 :: ts).getLast (by simp)) + 800) 100 * 100)),
           buildSplineGivenEnds (pyFloorDiv (ttToJ ((t0 :: ts).getLast (by simp)) + 800) 100 * 100)
            (parabola2016.eval (pyFloorDiv (ttToJ ((t0 :: ts).getLast (by simp)) + 800) 100 * 100))
            (parabolaSlope (pyFloorDiv (ttToJ ((t0 :: ts).getLast (by simp)) + 800) 100 * 100))
            (pyFloorDiv (ttToJ ((t0 :: ts).getLast (by simp)) + 800) 100 * 100 + 100)
            (parabola2016.eval (pyFloorDiv (ttToJ ((t0 :: ts).getLast (by simp)) + 800) 100 * 100 + 100))
            (parabolaSlope (pyFloorDiv (ttToJ ((t0 :: ts).getLast (by simp)) + 800) 100 * 100 + 100))])⟩ ∧
      (pre ++ [(⟨lo, up, c3, [c2, c1, c0]⟩ : Piece ℝ)]).IsChain Joins ∧
      (pre ++ [(⟨lo, up, c3, [c2, c1, c0]⟩ : Piece ℝ)]).head? = some first ∧
      (⟨lo, up, c3, [c2, c1, c0]⟩ : Piece ℝ) ∈ first :: rest ∧ lo < ttToJ t0 ∧
      evalGo first rest (ttToJ t0) = (⟨lo, up, c3, [c2, c1, c0]⟩ : Piece ℝ).eval (ttToJ t0) := by
  have hpw := joins_pairwise _ hchain
  obtain ⟨sd, hsd, hsdl⟩ := splinesDerivative_cubic _ hcubic
  obtain ⟨sl, hsl⟩ := splinesCall_lower first rest sd hpw hsdl first.lower
  obtain ⟨pre, last, h1, h2, h3, h4, h5, h6⟩ := take_cut first rest (ttToJ t0) hchain hstart
  have hc3 := hcubic last h4
  obtain ⟨lo, up, c3, cs⟩ := last
  match cs, hc3 with
  | [c2, c1, c0], _ =>
    have hsr : ∃ sr, recentSlope (d0 :: ds) = some sr := by
      unfold recentSlope
      have hlast : (d0 :: ds).getLast? = some ((d0 :: ds).getLast (by simp)) :=
        List.getLast?_eq_getLast_of_ne_nil (by simp)
      have hlt : (d0 :: ds).length - min 366 (d0 :: ds).length < (d0 :: ds).length := by
        have : 0 < (d0 :: ds).length := by simp
        omega
      have hback := List.getElem?_eq_getElem hlt
      rw [hlast]
      simp only [Option.bind_eq_bind, Option.bind_some]
      rw [hback]
      exact ⟨_, rfl⟩
    obtain ⟨sr, hsr⟩ := hsr
    refine ⟨sl, sr, pre, lo, up, c3, c2, c1, c0, ?_, h5, h6, h4, h2, h3⟩
    have w : (1925 : ℝ) - 1825 = 100 := by norm_num
    have hlastT : (t0 :: ts).getLast? = some ((t0 :: ts).getLast (by simp)) :=
      List.getLast?_eq_getLast_of_ne_nil (by simp)
    have hlastD : (d0 :: ds).getLast? = some ((d0 :: ds).getLast (by simp)) :=
      List.getLast?_eq_getLast_of_ne_nil (by simp)
    have hfirst : splinesCall (first :: rest) first.lower = some (first.eval first.lower) := by
      rw [splinesCall_eq _ _ _ hpw, evalGo_start _ _ hpw]
    unfold buildDeltaT
    simp only [parabola_derivative, hsd, Option.bind_eq_bind, Option.bind_some, List.head?_cons,
      splinesCall_single, pd_eval, hfirst, hsl, hlastT, hlastD, hsr, w, h1,
      splinesCall_eq _ _ (ttToJ t0) hpw, List.getLast?_append, List.getLast?_singleton,
      Option.some_or, List.dropLast_concat]
    rfl

/-- **C13.** For every table of historical splines that is an unbroken chain of cubics, and every
daily table in date order that starts after the splines do, `build_delta_t` succeeds and ∆T is a
continuous function of time: no jump at any join, including both ends of the daily table.  It agrees
with the daily table at every date in it, and is the long-term parabola
`-320 + 32.5 u²`, `u = (J - 1825)/100`, in the far past and the far future. -/
theorem C13_no_jumps (first : Piece ℝ) (rest : List (Piece ℝ)) (t0 : ℝ) (ts : List ℝ) (d0 : ℝ)
    (ds : List ℝ) (hlen : ts.length = ds.length) (hsort : (t0 :: ts).Pairwise (· < ·))
    (hchain : (first :: rest).IsChain
      fun p q => p.lower < q.lower ∧ p.eval q.lower = q.eval q.lower)
    (hcubic : ∀ p ∈ first :: rest, p.cs.length = 3 ∧ p.lower < p.upper)
    (hstart : first.lower < (t0 - 1721045) / (36525 / 100)) :
    ∃ (d : DeltaT ℝ) (f : ℝ → ℝ), buildDeltaT (first :: rest) (t0 :: ts) (d0 :: ds) = some d ∧
      (∀ tt, d.call tt = some (f tt)) ∧ Continuous f ∧
      (∀ p ∈ (t0 :: ts).zip (d0 :: ds), f p.1 = p.2) ∧
      (∀ tt, (tt - 1721045) / (36525 / 100) ≤ first.lower - 800 →
        f tt = -320 + 325 / 10 * (((tt - 1721045) / (36525 / 100) - 1825) / 100) ^ 2) ∧
      (∀ tt, ((t0 :: ts).getLast (by simp) - 1721045) / (36525 / 100) + 800 ≤
          (tt - 1721045) / (36525 / 100) →
        f tt = -320 + 325 / 10 * (((tt - 1721045) / (36525 / 100) - 1825) / 100) ^ 2) := by
  obtain ⟨sl, sr, pre, lo, up, c3, c2, c1, c0, hb, hpre, hhead, hmem, hlo, hev⟩ :=
    buildDeltaT_eq first rest t0 ts d0 ds hchain (fun p hp => (hcubic p hp).1) hstart
  have hup : lo < up := (hcubic _ hmem).2
  -- names
  set a := first.lower with ha
  set tl := (t0 :: ts).getLast (by simp) with htl
  set dl := (d0 :: ds).getLast (by simp) with hdl
  set X := (pyFloorDiv (ttToJ tl + 800) 100 * 100 : ℝ) with hX
  set FL := buildSplineGivenEnds (a - 800 - 100) (parabola2016.eval (a - 800 - 100))
          (parabolaSlope (a - 800 - 100)) (a - 800)
          (parabola2016.eval (a - 800)) (parabolaSlope (a - 800)) with hFL
  set L := buildSplineGivenEnds (a - 800) (parabola2016.eval (a - 800))
          (parabolaSlope (a - 800)) a (first.eval a) sl with hL
  set old : Piece ℝ := ⟨lo, up, c3, [c2, c1, c0]⟩ with hold
  set adj : Piece ℝ := ⟨lo, up, c3, [c2, c1 + (d0 - evalGo first rest (ttToJ t0)) /
            ((ttToJ t0 - lo) / (up - lo)), c0]⟩ with hadj
  set R := buildSplineGivenEnds (ttToJ tl) dl sr X (parabola2016.eval X) (parabolaSlope X) with hR
  set FR := buildSplineGivenEnds X (parabola2016.eval X) (parabolaSlope X) (X + 100)
    (parabola2016.eval (X + 100)) (parabolaSlope (X + 100)) with hFR
  have hXgt : ttToJ tl < X := by
    have : (ttToJ tl + 800) / 100 < (pyFloorDiv (ttToJ tl + 800) 100 : ℝ) + 1 := by
      unfold pyFloorDiv; exact Int.lt_floor_add_one _
    rw [hX]; linarith
  have hXle : X ≤ ttToJ tl + 800 := by
    have : (pyFloorDiv (ttToJ tl + 800) 100 : ℝ) ≤ (ttToJ tl + 800) / 100 := by
      unfold pyFloorDiv; exact Int.floor_le _
    rw [hX]; linarith
  have hadj0 : adj.eval lo = old.eval lo := by
    simp only [hadj, hold, Piece.eval, horner, List.foldl_cons, List.foldl_nil, sub_self, zero_div]
    ring
  have hadjx : adj.eval (ttToJ t0) = d0 := by
    have ht : (ttToJ t0 - lo) / (up - lo) ≠ 0 :=
      div_ne_zero (sub_ne_zero.2 hlo.ne') (sub_ne_zero.2 hup.ne')
    have : adj.eval (ttToJ t0) = old.eval (ttToJ t0) + (d0 - evalGo first rest (ttToJ t0)) := by
      simp only [hadj, hold, Piece.eval, horner, List.foldl_cons, List.foldl_nil]
      have hc := div_mul_cancel₀ (d0 - evalGo first rest (ttToJ t0)) ht
      linear_combination hc
    rw [this, hev]; ring
  -- the chain used before the daily table
  have hadjchain : (pre ++ [adj]).IsChain Joins := by
    obtain ⟨g1, g2, g3⟩ := List.isChain_append.1 hpre
    refine List.isChain_append.2 ⟨g1, by simp, ?_⟩
    intro u hu v hv
    simp only [List.head?_cons, Option.mem_def, Option.some.injEq] at hv
    subst hv
    have := g3 u hu old (by simp)
    exact ⟨this.1, this.2.trans hadj0.symm⟩
  have hfirstadj : ∃ b l, pre ++ [adj] = b :: l ∧ b.lower = a ∧ b.eval a = first.eval a := by
    cases hp : pre with
    | nil =>
      rw [hp] at hhead
      simp only [List.nil_append, List.head?_cons, Option.some.injEq] at hhead
      refine ⟨adj, [], rfl, ?_, ?_⟩
      · rw [ha, ← hhead]
      · have : a = lo := by rw [ha, ← hhead]
        rw [this, hadj0, hhead]
    | cons b l =>
      rw [hp] at hhead
      simp only [List.cons_append, List.head?_cons, Option.some.injEq] at hhead
      subst hhead
      exact ⟨b, l ++ [adj], rfl, rfl, rfl⟩
  have hchain1 : (FL :: L :: (pre ++ [adj])).IsChain Joins := by
    obtain ⟨b, l, e1, e2, e3⟩ := hfirstadj
    rw [e1] at hadjchain ⊢
    refine List.isChain_cons_cons.2 ⟨⟨?_, ?_⟩, List.isChain_cons_cons.2 ⟨⟨?_, ?_⟩, hadjchain⟩⟩
    · show a - 800 - 100 < a - 800; linarith
    · show FL.eval (a - 800) = L.eval (a - 800)
      rw [hFL, hL, hermite_right _ _ _ _ _ _ (by linarith), hermite_left]
    · rw [e2]; show a - 800 < a; linarith
    · rw [e2, e3, hL, hermite_right _ _ _ _ _ _ (by linarith)]
  have hRchain : [R, FR].IsChain Joins := by
    refine List.isChain_cons_cons.2 ⟨⟨hXgt, ?_⟩, by simp⟩
    show R.eval X = FR.eval X
    rw [hR, hFR, hermite_right _ _ _ _ _ _ hXgt.ne, hermite_left]
  -- the daily table
  have hpairs : ((t0, d0) :: ts.zip ds).Pairwise (fun a b : ℝ × ℝ => a.1 < b.1) := by
    rw [← List.pairwise_map (f := Prod.fst)]
    have : ((t0, d0) :: ts.zip ds).map Prod.fst = t0 :: ts := by
      rw [List.map_cons, List.map_fst_zip hlen.le]
    rw [this]; exact hsort
  have hlastz : ((t0, d0) :: ts.zip ds).getLast (by simp) = (tl, dl) := by
    have e : (t0, d0) :: ts.zip ds = (t0 :: ts).zip (d0 :: ds) := rfl
    have hn : (ts.zip ds).length = ts.length := by rw [List.length_zip, hlen, min_self]
    rw [List.getLast_eq_getElem, htl, hdl, List.getLast_eq_getElem, List.getLast_eq_getElem]
    simp only [e, List.getElem_zip, List.length_cons, Nat.add_sub_cancel, Prod.mk.injEq]
    constructor <;> congr 1 <;> simp [hlen]
  have ht0l : t0 ≤ tl := by
    have := sorted_le_last _ _ hpairs (t0, d0) List.mem_cons_self
    rwa [hlastz] at this
  have hJmono : ∀ u v : ℝ, u < v → ttToJ u < ttToJ v := by
    intro u v h; unfold ttToJ; linarith
  have hJle : ∀ u v : ℝ, u ≤ v → ttToJ u ≤ ttToJ v := by
    intro u v h; unfold ttToJ; linarith
  have hJc : Continuous (ttToJ : ℝ → ℝ) := by
    unfold ttToJ
    exact (continuous_id.sub continuous_const).div_const _
  -- all the pieces are in order
  have hall : (FL :: (L :: (pre ++ [adj]) ++ R :: [FR])).Pairwise (fun a b => a.lower < b.lower) := by
    have : IsTrans (Piece ℝ) (fun a b => a.lower < b.lower) := ⟨fun a b c h1 h2 => lt_trans h1 h2⟩
    rw [← List.isChain_iff_pairwise]
    rw [show FL :: (L :: (pre ++ [adj]) ++ R :: [FR]) = (FL :: L :: pre) ++ [adj] ++ [R, FR] by simp]
    refine List.isChain_append.2 ⟨?_, ?_, ?_⟩
    · rw [show FL :: L :: pre ++ [adj] = FL :: L :: (pre ++ [adj]) by simp]
      exact hchain1.imp fun _ _ h => h.1
    · exact hRchain.imp fun _ _ h => h.1
    · intro u hu v hv
      simp only [List.getLast?_append, List.getLast?_singleton, Option.some_or, Option.mem_def,
        Option.some.injEq, List.head?_cons] at hu hv
      subst hu; subst hv
      show lo < ttToJ tl
      exact lt_of_lt_of_le hlo (hJle _ _ ht0l)
  have hlong : ∀ y, splinesCall (FL :: L :: (pre ++ [adj] ++ [R, FR])) y =
      some (evalGo FL (L :: (pre ++ [adj]) ++ R :: [FR]) y) := by
    intro y
    rw [← splinesCall_eq _ _ _ hall]
    simp
  have hparab : ∀ y, (parabola2016 : Piece ℝ).eval y = -320 + 325 / 10 * ((y - 1825) / 100) ^ 2 := by
    intro y; rw [parabola_eval]; ring
  refine ⟨_, fun tt => if tt ≤ tl then (if t0 ≤ tt then interpGo (t0, d0) (ts.zip ds) tt else
    evalGo FL (L :: (pre ++ [adj])) (ttToJ tt)) else evalGo R [FR] (ttToJ tt), hb, ?_, ?_, ?_, ?_, ?_⟩
  · intro tt
    simp only [DeltaT.call, interpNan, List.zip_cons_cons, hlastz]
    by_cases h0 : tt < t0
    · rw [if_pos h0]
      simp only
      rw [if_pos (le_trans h0.le ht0l), if_neg (not_le.2 h0), hlong,
        evalGo_append_lt FL _ R [FR] _ hall]
      exact hJmono _ _ (lt_of_lt_of_le h0 ht0l)
    · rw [if_neg h0]
      by_cases h1 : tl < tt
      · rw [if_pos h1]
        simp only
        rw [if_neg (not_le.2 h1), hlong, evalGo_append_ge FL _ R [FR] _ hall]
        exact hJle _ _ h1.le
      · rw [if_neg h1]
        simp only
        rw [if_pos (not_lt.1 h1), if_pos (not_lt.1 h0)]
  · refine Continuous.if_le ?_ ?_ continuous_id continuous_const ?_
    · refine Continuous.if_le (interpGo_continuous _ _ hpairs)
        ((evalGo_continuous _ _ hchain1).comp hJc) continuous_const continuous_id ?_
      intro x hx
      rw [← hx, show interpGo (t0, d0) (ts.zip ds) t0 = d0 from interpGo_start (t0, d0) _ hpairs]
      have hpw1 := joins_pairwise _ hchain1
      have := evalGo_append_ge FL (L :: pre) adj [] (ttToJ t0) (by simpa using hpw1) hlo.le
      simp only [List.cons_append] at this
      show d0 = evalGo FL (L :: (pre ++ [adj])) (ttToJ t0)
      rw [this]
      exact hadjx.symm
    · exact (evalGo_continuous _ _ hRchain).comp hJc
    · intro x hx
      rw [hx, if_pos ht0l]
      have h1 : interpGo (t0, d0) (ts.zip ds) tl = dl := by
        have := interpGo_point _ _ _ hpairs (List.getLast_mem (by simp : (t0, d0) :: ts.zip ds ≠ []))
        rwa [hlastz] at this
      rw [h1]
      show dl = evalGo R [FR] R.lower
      rw [evalGo_start _ _ (joins_pairwise _ hRchain)]
      exact (hermite_left _ _ _ _ _ _).symm
  · intro p hp
    rw [List.zip_cons_cons] at hp
    have m0 := sorted_first_le _ _ hpairs p hp
    have m1 := sorted_le_last _ _ hpairs p hp
    rw [hlastz] at m1
    simp only at m0 m1 ⊢
    rw [if_pos m1, if_pos m0, interpGo_point _ _ p hpairs hp]
  · intro tt h
    have hJ : ttToJ tt ≤ a - 800 := h
    have hlt : tt < t0 := by
      by_contra hc
      have := hJle _ _ (not_lt.1 hc)
      have h3 : a < ttToJ t0 := hstart
      linarith
    simp only
    rw [if_pos (le_trans hlt.le ht0l), if_neg (not_le.2 hlt), ← hparab]
    show evalGo FL (L :: (pre ++ [adj])) (ttToJ tt) = (parabola2016 : Piece ℝ).eval (ttToJ tt)
    simp only [evalGo]
    by_cases he : ttToJ tt < L.lower
    · rw [if_pos he]
      exact parabola_patch _ _ _ (by linarith)
    · rw [if_neg he]
      have hLl : L.lower = a - 800 := rfl
      have : ttToJ tt = L.lower := by rw [hLl] at he ⊢; exact le_antisymm hJ (not_lt.1 he)
      have hpw1 := (List.pairwise_cons.1 (joins_pairwise _ hchain1)).2
      rw [this, evalGo_start _ _ hpw1]
      exact hermite_left _ _ _ _ _ _
  · intro tt h
    have hJ : ttToJ tl + 800 ≤ ttToJ tt := h
    have hgt : tl < tt := by
      by_contra hc
      have := hJle _ _ (not_lt.1 hc)
      linarith
    simp only
    rw [if_neg (not_le.2 hgt), ← hparab]
    show evalGo R [FR] (ttToJ tt) = (parabola2016 : Piece ℝ).eval (ttToJ tt)
    simp only [evalGo]
    rw [if_neg (not_lt.2 (show FR.lower ≤ ttToJ tt from le_trans hXle hJ))]
    exact parabola_patch _ _ _ (by linarith)

/-- The hypotheses of `C13_no_jumps` hold of a two-piece spline table and a two-day daily table. -/
example : ∃ (d : DeltaT ℝ) (f : ℝ → ℝ),
    buildDeltaT [⟨-720, 0, 0, [0, -1, 3]⟩, ⟨0, 1900, 0, [0, 1, 2]⟩] [2441684, 2441685] [43, 44] = some d ∧
      (∀ tt, d.call tt = some (f tt)) ∧ Continuous f ∧ f 2441684 = 43 := by
  obtain ⟨d, f, h1, h2, h3, h4, -⟩ := C13_no_jumps ⟨-720, 0, 0, [0, -1, 3]⟩ [⟨0, 1900, 0, [0, 1, 2]⟩]
    2441684 [2441685] 43 [44] rfl (by simp; norm_num)
    (by simp [Piece.eval, horner]; norm_num) (by simp) (by norm_num)
  exact ⟨d, f, h1, h2, h3, h4 (2441684, 43) (by simp)⟩

/-- **C13 (finding).** The yearly slope used to join the future onto the table is right only for tables
of at least a year: on a table of `n < 366` daily entries rising by a steady amount `s` a day the true
yearly slope is `365 s`, but the code uses `(n - 1) s n / 365`. -/
theorem C13_recent_slope (n : ℕ) (d s : ℝ) (hn : 1 ≤ n) :
    recentSlope ((List.range n).map fun i : ℕ => d + s * i) =
      some (s * ((min 366 n : ℕ) - 1) * (min 366 n : ℕ) / 365) := by
  unfold recentSlope
  have hlen : ((List.range n).map fun i : ℕ => d + s * (i : ℝ)).length = n := by simp
  rw [hlen]
  have h1 : ((List.range n).map fun i : ℕ => d + s * (i : ℝ)).getLast? = some (d + s * ((n : ℝ) - 1)) := by
    obtain ⟨m, rfl⟩ : ∃ m, n = m + 1 := ⟨n - 1, by omega⟩
    rw [List.range_succ, List.map_append, List.map_singleton, List.getLast?_append,
      List.getLast?_singleton, Option.some_or]
    push_cast
    simp
  have h2 : ((List.range n).map fun i : ℕ => d + s * (i : ℝ))[n - min 366 n]? =
      some (d + s * ((n : ℝ) - (min 366 n : ℕ))) := by
    rw [List.getElem?_map, List.getElem?_range (by omega)]
    simp only [Option.map_some]
    rw [Nat.cast_sub (min_le_right _ _)]
  rw [h1]
  simp only [Option.bind_eq_bind, Option.bind_some, h2]
  simp only [Option.pure_def, Option.some.injEq]
  ring

/-- A table of a year or more gives the slope per (366-day) year; a two-day table does not give
anything near the slope per year. -/
example : recentSlope [(0 : ℝ), 1] = some (2 / 365) := by
  have := C13_recent_slope 2 0 1 (by norm_num)
  norm_num [List.range_succ] at this
  exact this

end Skyfield
