import Verif.Model.DeltaT
import Mathlib.Algebra.Order.Floor.Ring
import Mathlib.Tactic.Ring
import Mathlib.Tactic.Linarith
import Mathlib.Tactic.FieldSimp
import Mathlib.Tactic.LinearCombination
import Mathlib.Topology.Order.OrderClosed
import Mathlib.Topology.Algebra.Ring.Real
import Mathlib.Topology.Algebra.Field

/-
Lemmas for C13: splines and ∆T.
-/
namespace Skyfield
set_option linter.unusedSectionVars false
variable {K : Type*} [Field K] [LinearOrder K] [IsStrictOrderedRing K] [FloorRing K]

/-- The value of a list of pieces at `x`: the last piece that starts at or before `x` is used, or the
first piece if there is none. -/
def evalGo (p : Piece K) (rest : List (Piece K)) (x : K) : K :=
  match rest with
  | [] => p.eval x
  | q :: rest => if x < q.lower then p.eval x else evalGo q rest x

def pts (k : ℕ) : List (Piece K) → List (K × K)
  | [] => []
  | q :: r => (q.lower, (k : K)) :: pts (k + 1) r

theorem zip_pts (ps : List (Piece K)) (k : ℕ) :
    (ps.map (·.lower)).zip ((List.range' k ps.length).map fun i : ℕ => (i : K)) = pts k ps := by
  induction ps generalizing k with
  | nil => rfl
  | cons p ps ih =>
    simp only [List.map_cons, List.length_cons, List.range'_succ, List.zip_cons_cons, pts, ih]

theorem astypeInt_between {k : ℕ} {v : K} (h0 : (k : K) ≤ v) (h1 : v < (k : K) + 1) :
    astypeInt v = k := by
  unfold astypeInt
  rw [if_pos (le_trans (Nat.cast_nonneg k) h0), Int.floor_eq_iff]
  exact ⟨by exact_mod_cast h0, by exact_mod_cast h1⟩

theorem interpGo_pts (p : Piece K) (rest : List (Piece K)) (k : ℕ) (x : K)
    (hs : (p :: rest).Pairwise (fun a b => a.lower < b.lower)) :
    ∃ j q, astypeInt (interpGo (p.lower, (k : K)) (pts (k + 1) rest) x) = ((k + j : ℕ) : ℤ) ∧
      (p :: rest)[j]? = some q ∧ evalGo p rest x = q.eval x := by
  induction rest generalizing p k with
  | nil =>
    refine ⟨0, p, ?_, rfl, rfl⟩
    simp only [pts, interpGo, add_zero]
    exact astypeInt_between (le_refl _) (by linarith)
  | cons q r ih =>
    obtain ⟨hp, hs'⟩ := List.pairwise_cons.1 hs
    have hpq := hp q List.mem_cons_self
    simp only [pts, interpGo, evalGo]
    by_cases hx : x < q.lower
    · rw [if_pos hx, if_pos hx]
      refine ⟨0, p, ?_, rfl, rfl⟩
      show astypeInt _ = ((k : ℕ) : ℤ)
      by_cases hx2 : x ≤ p.lower
      · rw [if_pos hx2]; exact astypeInt_between (le_refl _) (by linarith)
      · rw [if_neg hx2]
        push Not at hx2
        have hw : 0 < q.lower - p.lower := by linarith
        push_cast
        have e : (k : K) + ((k : K) + 1 - k) / (q.lower - p.lower) * (x - p.lower) =
            k + (x - p.lower) / (q.lower - p.lower) := by field_simp; ring
        rw [e]
        apply astypeInt_between
        · have : 0 ≤ (x - p.lower) / (q.lower - p.lower) := div_nonneg (by linarith) hw.le
          linarith
        · have : (x - p.lower) / (q.lower - p.lower) < 1 := by rw [div_lt_one hw]; linarith
          linarith
    · rw [if_neg hx, if_neg hx]
      obtain ⟨j, q', h1, h2, h3⟩ := ih q (k + 1) hs'
      refine ⟨j + 1, q', ?_, by simpa using h2, h3⟩
      rw [h1]; push_cast; ring

theorem splinesCall_eq (p : Piece K) (rest : List (Piece K)) (x : K)
    (hs : (p :: rest).Pairwise (fun a b => a.lower < b.lower)) :
    splinesCall (p :: rest) x = some (evalGo p rest x) := by
  unfold splinesCall interp
  rw [List.range_eq_range', zip_pts]
  obtain ⟨j, q, h1, h2, h3⟩ := interpGo_pts p rest 0 x hs
  simp only [pts, Nat.zero_add, Nat.cast_zero] at h1 h2 ⊢
  rw [h1, Int.toNat_natCast, h2, h3]

theorem splinesCall_single (p : Piece K) (x : K) : splinesCall [p] x = some (p.eval x) :=
  splinesCall_eq p [] x (by simp)

theorem evalGo_append_lt (p : Piece K) (l : List (Piece K)) (r : Piece K) (l2 : List (Piece K)) (y : K)
    (hs : (p :: (l ++ r :: l2)).Pairwise (fun a b => a.lower < b.lower)) (hy : y < r.lower) :
    evalGo p (l ++ r :: l2) y = evalGo p l y := by
  induction l generalizing p with
  | nil => simp only [List.nil_append, evalGo, if_pos hy]
  | cons q l ih =>
    obtain ⟨-, hs'⟩ := List.pairwise_cons.1 hs
    simp only [List.cons_append, evalGo]
    split
    · rfl
    · exact ih q hs'

theorem evalGo_append_ge (p : Piece K) (l : List (Piece K)) (r : Piece K) (l2 : List (Piece K)) (y : K)
    (hs : (p :: (l ++ r :: l2)).Pairwise (fun a b => a.lower < b.lower)) (hy : r.lower ≤ y) :
    evalGo p (l ++ r :: l2) y = evalGo r l2 y := by
  induction l generalizing p with
  | nil => simp only [List.nil_append, evalGo, if_neg (not_lt.2 hy)]
  | cons q l ih =>
    obtain ⟨-, hs'⟩ := List.pairwise_cons.1 hs
    have hqr : q.lower < r.lower := (List.pairwise_cons.1 hs').1 r (by simp)
    simp only [List.cons_append, evalGo]
    rw [if_neg (not_lt.2 (by linarith))]
    exact ih q hs'

/-- Neighbouring pieces are in order and agree where the second starts. -/
def Joins (p q : Piece K) : Prop := p.lower < q.lower ∧ p.eval q.lower = q.eval q.lower

theorem joins_pairwise : ∀ (l : List (Piece K)), l.IsChain Joins →
    l.Pairwise (fun a b => a.lower < b.lower) := by
  intro l h
  have h2 : l.IsChain (fun a b => a.lower < b.lower) := h.imp fun a b hab => hab.1
  have : IsTrans (Piece K) (fun a b => a.lower < b.lower) := ⟨fun a b c h1 h2 => lt_trans h1 h2⟩
  exact List.isChain_iff_pairwise.1 h2

/-- At its own start a piece gives its own value, whatever follows. -/
theorem evalGo_start (q : Piece K) (l : List (Piece K))
    (hs : (q :: l).Pairwise (fun a b => a.lower < b.lower)) : evalGo q l q.lower = q.eval q.lower := by
  cases l with
  | nil => rfl
  | cons r l =>
    have := (List.pairwise_cons.1 hs).1 r List.mem_cons_self
    simp only [evalGo, if_pos this]

/-- Cutting a chain of pieces at `x`: the last piece that starts strictly before `x` gives the
chain's value at `x`. -/
theorem take_cut (p : Piece K) (rest : List (Piece K)) (x : K) (h : (p :: rest).IsChain Joins)
    (hx : p.lower < x) :
    ∃ pre last, (p :: rest).take (searchsortedLeft ((p :: rest).map (·.lower)) x) = pre ++ [last] ∧
      last.lower < x ∧ evalGo p rest x = last.eval x ∧ last ∈ p :: rest ∧
      (pre ++ [last]).IsChain Joins ∧ (pre ++ [last]).head? = some p := by
  induction rest generalizing p with
  | nil =>
    refine ⟨[], p, ?_, hx, rfl, by simp, by simp, rfl⟩
    simp [searchsortedLeft, hx]
  | cons q r ih =>
    obtain ⟨hpq, hc⟩ := List.isChain_cons_cons.1 h
    have hpw := joins_pairwise _ h
    have hpw' := joins_pairwise _ hc
    by_cases hq : q.lower < x
    · obtain ⟨pre, last, h1, h2, h3, h4, h5, h6⟩ := ih q hc hq
      refine ⟨p :: pre, last, ?_, h2, ?_, List.mem_cons_of_mem _ h4, ?_, rfl⟩
      · have e : searchsortedLeft ((p :: q :: r).map (·.lower)) x =
            searchsortedLeft ((q :: r).map (·.lower)) x + 1 := by
          simp [searchsortedLeft, hx]
        rw [e, List.take_succ_cons, h1]; rfl
      · simp only [evalGo]; rw [if_neg (not_lt.2 hq.le)]; exact h3
      · cases pre with
        | nil =>
          simp only [List.nil_append, List.head?_cons, Option.some.injEq] at h6
          subst h6
          exact List.isChain_cons_cons.2 ⟨hpq, by simp⟩
        | cons a pre =>
          simp only [List.cons_append, List.head?_cons, Option.some.injEq] at h6
          subst h6
          exact List.isChain_cons_cons.2 ⟨hpq, h5⟩
    · push Not at hq
      refine ⟨[], p, ?_, hx, ?_, by simp, by simp, rfl⟩
      · have e : searchsortedLeft ((p :: q :: r).map (·.lower)) x = 1 := by
          unfold searchsortedLeft
          rw [List.map_cons, List.filter_cons, if_pos (by simpa using hx)]
          rw [List.filter_eq_nil_iff.2]
          · rfl
          · intro a ha
            rw [List.mem_map] at ha
            obtain ⟨b, hb, rfl⟩ := ha
            rcases List.mem_cons.1 hb with rfl | hb
            · simpa using hq
            · have := (List.pairwise_cons.1 hpw').1 b hb
              simp only [decide_eq_true_eq, not_lt]; linarith
        rw [e]; rfl
      · simp only [evalGo]
        by_cases he : x < q.lower
        · rw [if_pos he]
        · have : x = q.lower := le_antisymm hq (not_lt.1 he)
          rw [if_neg he, this, evalGo_start q r hpw', hpq.2]

/-! Hermite pieces -/

theorem hermite_eval (x0 y0 s0 x1 y1 s1 x : K) :
    (buildSplineGivenEnds x0 y0 s0 x1 y1 s1).eval x =
      (((s0 * (x1 - x0) + s1 * (x1 - x0) + 2*y0 - 2*y1) * ((x - x0) / (x1 - x0))
        + (-2*(s0 * (x1 - x0)) - s1 * (x1 - x0) - 3*y0 + 3*y1)) * ((x - x0) / (x1 - x0))
        + s0 * (x1 - x0)) * ((x - x0) / (x1 - x0)) + y0 := by
  simp [buildSplineGivenEnds, Piece.eval, horner]

theorem hermite_left (x0 y0 s0 x1 y1 s1 : K) :
    (buildSplineGivenEnds x0 y0 s0 x1 y1 s1).eval x0 = y0 := by
  rw [hermite_eval, sub_self, zero_div]; ring

theorem hermite_right (x0 y0 s0 x1 y1 s1 : K) (h : x0 ≠ x1) :
    (buildSplineGivenEnds x0 y0 s0 x1 y1 s1).eval x1 = y1 := by
  rw [hermite_eval, div_self (sub_ne_zero.2 h.symm)]; ring

theorem parabola_eval (x : K) :
    (parabola2016 : Piece K).eval x = 325 / 10 * ((x - 1825) / 100) ^ 2 - 320 := by
  simp only [parabola2016, Piece.eval, horner, List.foldl_cons, List.foldl_nil]
  norm_num
  ring

/-- The parabola's slope, per year. -/
def parabolaSlope (x : K) : K := 2 * (325 / 10) * ((x - 1825) / 100) / 100

theorem parabola_derivative : splinesDerivative ([parabola2016] : List (Piece K)) =
    some [⟨1825, 1925, 3 * 0 / 100, [2 * (325 / 10) / 100, 1 * 0 / 100]⟩] := by
  have : ((1925 : K) - 1825) = 100 := by norm_num
  simp [splinesDerivative, parabola2016, Piece.derivative, derivCoeffs, List.dropLast, this]

theorem pd_eval (x : K) :
    (⟨1825, 1925, 3 * 0 / 100, [2 * (325 / 10) / 100, 1 * 0 / 100]⟩ : Piece K).eval x =
      parabolaSlope x := by
  simp only [Piece.eval, horner, List.foldl_cons, List.foldl_nil, parabolaSlope]
  have : ((1925 : K) - 1825) = 100 := by norm_num
  rw [this]
  ring

/-! Continuity over ℝ -/

theorem horner_continuous (cs : List ℝ) (c0 : ℝ → ℝ) (f : ℝ → ℝ) (h0 : Continuous c0)
    (hf : Continuous f) : Continuous fun x => cs.foldl (fun v c => v * f x + c) (c0 x) := by
  induction cs generalizing c0 with
  | nil => exact h0
  | cons c cs ih => exact ih (fun x => c0 x * f x + c) ((h0.mul hf).add continuous_const)

theorem piece_continuous (p : Piece ℝ) : Continuous p.eval := by
  unfold Piece.eval horner
  exact horner_continuous p.cs (fun _ => p.c0) _ continuous_const
    ((continuous_id.sub continuous_const).div_const _)

theorem evalGo_continuous (p : Piece ℝ) (l : List (Piece ℝ)) (h : (p :: l).IsChain Joins) :
    Continuous (evalGo p l) := by
  induction l generalizing p with
  | nil => exact piece_continuous p
  | cons q r ih =>
    obtain ⟨hpq, hc⟩ := List.isChain_cons_cons.1 h
    have hq := ih q hc
    have : evalGo p (q :: r) = fun x => if q.lower ≤ x then evalGo q r x else p.eval x := by
      funext x
      simp only [evalGo]
      by_cases hx : x < q.lower
      · rw [if_pos hx, if_neg (not_le.2 hx)]
      · rw [if_neg hx, if_pos (not_lt.1 hx)]
    rw [this]
    refine Continuous.if_le hq (piece_continuous p) continuous_const continuous_id ?_
    intro x hx
    rw [← hx, evalGo_start q r (joins_pairwise _ hc), hpq.2]

theorem interpGo_start (p : K × K) (l : List (K × K)) (hs : (p :: l).Pairwise (fun a b => a.1 < b.1)) :
    interpGo p l p.1 = p.2 := by
  cases l with
  | nil => rfl
  | cons q r =>
    have := (List.pairwise_cons.1 hs).1 q List.mem_cons_self
    simp only [interpGo, if_pos this, le_refl, if_true]

theorem interpGo_continuous (p : ℝ × ℝ) (l : List (ℝ × ℝ))
    (hs : (p :: l).Pairwise (fun a b => a.1 < b.1)) : Continuous (interpGo p l) := by
  induction l generalizing p with
  | nil => exact continuous_const
  | cons q r ih =>
    obtain ⟨hp, hs'⟩ := List.pairwise_cons.1 hs
    have hpq := hp q List.mem_cons_self
    have : interpGo p (q :: r) = fun x => if q.1 ≤ x then interpGo q r x else
        if x ≤ p.1 then p.2 else p.2 + (q.2 - p.2) / (q.1 - p.1) * (x - p.1) := by
      funext x
      simp only [interpGo]
      by_cases hx : x < q.1
      · rw [if_pos hx, if_neg (not_le.2 hx)]
      · rw [if_neg hx, if_pos (not_lt.1 hx)]
    rw [this]
    refine Continuous.if_le (ih q hs') ?_ continuous_const continuous_id ?_
    · refine Continuous.if_le continuous_const ?_ continuous_id continuous_const ?_
      · exact continuous_const.add (continuous_const.mul (continuous_id.sub continuous_const))
      · intro x hx
        rw [hx]; ring
    · intro x hx
      rw [← hx, interpGo_start q r hs', if_neg (not_le.2 hpq),
        div_mul_cancel₀ _ (sub_ne_zero.2 hpq.ne')]
      ring

end Skyfield
