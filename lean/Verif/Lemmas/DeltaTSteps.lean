import Verif.Lemmas.DeltaT
import Verif.Spec.Steps

/-
Lemmas for C13 and C113: a table of splines that join only to within `η`.
-/
namespace Skyfield
open Spec Filter Topology
set_option linter.unusedSectionVars false

theorem stepAtMost_iff {η : ℝ} {f : ℝ → ℝ} {x : ℝ} : StepAtMost η f x ↔ ∀ ε > η, ∀ᶠ y in 𝓝 x, |f y - f x| < ε := by
  unfold StepAtMost
  simp only [Metric.eventually_nhds_iff, Real.dist_eq]

theorem stepAtMost_zero {f : ℝ → ℝ} {x : ℝ} : StepAtMost 0 f x ↔ ContinuousAt f x := by
  rw [Metric.continuousAt_iff]
  simp only [Real.dist_eq]
  rfl

theorem StepAtMost_mono {η η' : ℝ} {f : ℝ → ℝ} {x : ℝ} (h : StepAtMost η f x) (hη : η ≤ η') : StepAtMost η' f x :=
  fun ε hε => h ε (lt_of_le_of_lt hη hε)

section generic
variable {K : Type*} [Field K] [LinearOrder K] [IsStrictOrderedRing K] [FloorRing K]

/-- Neighbouring pieces are in order and agree to within `η` where the second starts. -/
def JoinsBy (η : K) (p q : Piece K) : Prop := p.lower < q.lower ∧ |p.eval q.lower - q.eval q.lower| ≤ η

theorem joinsBy_pairwise {η : K} : ∀ (l : List (Piece K)), l.IsChain (JoinsBy η) → l.Pairwise (fun a b => a.lower < b.lower) := by
  intro l h
  have h2 : l.IsChain (fun a b => a.lower < b.lower) := h.imp fun a b hab => hab.1
  have : IsTrans (Piece K) (fun a b => a.lower < b.lower) := ⟨fun a b c h1 h2 => lt_trans h1 h2⟩
  exact List.isChain_iff_pairwise.1 h2

/-- Cutting a chain of pieces at `x`: the last piece that starts strictly before `x` gives the chain's value at `x`, to within `η`; exactly, unless `x` is the
start of a piece. -/
theorem take_cut_by {η : K} (hη : 0 ≤ η) (p : Piece K) (rest : List (Piece K)) (x : K) (h : (p :: rest).IsChain (JoinsBy η))
    (hx : p.lower < x) :
    ∃ pre last, (p :: rest).take (searchsortedLeft ((p :: rest).map (·.lower)) x) = pre ++ [last] ∧
      last.lower < x ∧ |evalGo p rest x - last.eval x| ≤ η ∧ ((∀ q ∈ rest, x ≠ q.lower) → evalGo p rest x = last.eval x) ∧
      last ∈ p :: rest ∧ (pre ++ [last]).IsChain (JoinsBy η) ∧ (pre ++ [last]).head? = some p ∧
      (∀ q ∈ pre ++ [last], q ∈ p :: rest) := by
  induction rest generalizing p with
  | nil =>
    refine ⟨[], p, ?_, hx, ?_, fun _ => rfl, by simp, by simp, rfl, by simp⟩
    · simp [searchsortedLeft, hx]
    · simpa [evalGo] using hη
  | cons q r ih =>
    obtain ⟨hpq, hc⟩ := List.isChain_cons_cons.1 h
    have hpw := joinsBy_pairwise _ h
    have hpw' := joinsBy_pairwise _ hc
    by_cases hq : q.lower < x
    · obtain ⟨pre, last, h1, h2, h3, h3', h4, h5, h6, h7⟩ := ih q hc hq
      refine ⟨p :: pre, last, ?_, h2, ?_, ?_, List.mem_cons_of_mem _ h4, ?_, rfl, ?_⟩
      · have e : searchsortedLeft ((p :: q :: r).map (·.lower)) x =
            searchsortedLeft ((q :: r).map (·.lower)) x + 1 := by
          simp [searchsortedLeft, hx]
        rw [e, List.take_succ_cons, h1]; rfl
      · simp only [evalGo]; rw [if_neg (not_lt.2 hq.le)]; exact h3
      · intro hk
        simp only [evalGo]; rw [if_neg (not_lt.2 hq.le)]
        exact h3' fun s hs => hk s (List.mem_cons_of_mem _ hs)
      · cases pre with
        | nil =>
          simp only [List.nil_append, List.head?_cons, Option.some.injEq] at h6
          subst h6
          exact List.isChain_cons_cons.2 ⟨hpq, by simp⟩
        | cons a pre =>
          simp only [List.cons_append, List.head?_cons, Option.some.injEq] at h6
          subst h6
          exact List.isChain_cons_cons.2 ⟨hpq, h5⟩
      · intro s hs
        rcases List.mem_cons.1 (by simpa using hs : s ∈ p :: (pre ++ [last])) with rfl | hs
        · exact List.mem_cons_self
        · exact List.mem_cons_of_mem _ (h7 s hs)
    · push Not at hq
      refine ⟨[], p, ?_, hx, ?_, ?_, by simp, by simp, rfl, by simp⟩
      · have e : searchsortedLeft ((p :: q :: r).map (·.lower)) x = 1 := by
          unfold searchsortedLeft
          rw [List.map_cons, List.filter_cons, if_pos (by simpa using hx)]
          rw [List.filter_eq_nil_iff.2]
          · rfl
          · intro a ha
            rw [List.mem_map] at ha
            obtain ⟨b, hb, rfl⟩ := ha
            rcases List.mem_cons.1 hb with rfl | hb
            · simpa using hq
            · have := (List.pairwise_cons.1 hpw').1 b hb
              simp only [decide_eq_true_eq, not_lt]; linarith
        rw [e]; rfl
      · simp only [evalGo]
        by_cases he : x < q.lower
        · rw [if_pos he, sub_self, abs_zero]; exact hη
        · have : x = q.lower := le_antisymm hq (not_lt.1 he)
          rw [if_neg he, this, evalGo_start q r hpw', abs_sub_comm]
          exact hpq.2
      · intro hk
        simp only [evalGo]
        rw [if_pos (lt_of_le_of_ne hq (hk q List.mem_cons_self))]

end generic

theorem evalGo_steps {η : ℝ} (hη : 0 ≤ η) (p : Piece ℝ) (l : List (Piece ℝ)) (h : (p :: l).IsChain (JoinsBy η)) (x : ℝ) :
    StepAtMost η (evalGo p l) x ∧ ((∀ q ∈ l, x ≠ q.lower) → ContinuousAt (evalGo p l) x) := by
  induction l generalizing p with
  | nil => exact ⟨StepAtMost_mono (stepAtMost_zero.2 (piece_continuous p).continuousAt) hη, fun _ => (piece_continuous p).continuousAt⟩
  | cons q r ih =>
    obtain ⟨hpq, hc⟩ := List.isChain_cons_cons.1 h
    obtain ⟨i1, i2⟩ := ih q hc
    rcases lt_trichotomy x q.lower with hx | hx | hx
    · have he : evalGo p (q :: r) =ᶠ[𝓝 x] p.eval := by
        filter_upwards [eventually_lt_nhds hx] with y hy
        simp only [evalGo, if_pos hy]
      have hcont : ContinuousAt (evalGo p (q :: r)) x := (piece_continuous p).continuousAt.congr he.symm
      exact ⟨StepAtMost_mono (stepAtMost_zero.2 hcont) hη, fun _ => hcont⟩
    · refine ⟨?_, fun hk => absurd hx (hk q List.mem_cons_self)⟩
      rw [stepAtMost_iff] at i1 ⊢
      intro ε hε
      have h0 : evalGo p (q :: r) x = evalGo q r x := by simp only [evalGo, if_neg hx.not_lt]
      have h1 : evalGo q r x = q.eval x := by rw [hx]; exact evalGo_start q r (joinsBy_pairwise _ hc)
      have hp := stepAtMost_iff.1 (stepAtMost_zero.2 ((piece_continuous p).continuousAt (x := x))) (ε - η) (by linarith)
      filter_upwards [i1 ε hε, hp] with y a b
      by_cases hy : y < q.lower
      · have e : evalGo p (q :: r) y = p.eval y := by simp only [evalGo, if_pos hy]
        rw [e, h0, h1]
        have h2 := hpq.2
        rw [← hx] at h2
        have := abs_add_le (p.eval y - p.eval x) (p.eval x - q.eval x)
        rw [sub_add_sub_cancel] at this
        linarith
      · have e : evalGo p (q :: r) y = evalGo q r y := by simp only [evalGo, if_neg hy]
        rw [e, h0]
        exact a
    · have he : evalGo p (q :: r) =ᶠ[𝓝 x] evalGo q r := by
        filter_upwards [eventually_gt_nhds hx] with y hy
        simp only [evalGo, if_neg (not_lt.2 hy.le)]
      constructor
      · rw [stepAtMost_iff] at i1 ⊢
        intro ε hε
        filter_upwards [i1 ε hε, he] with y a b
        rw [b, he.eq_of_nhds]
        exact a
      · intro hk
        exact (i2 fun s hs => hk s (List.mem_cons_of_mem _ hs)).congr he.symm

theorem evalGo_cons_continuousAt (p q : Piece ℝ) (r : List (Piece ℝ)) (x : ℝ)
    (hs : (q :: r).Pairwise (fun a b => a.lower < b.lower)) (hj : x = q.lower → p.eval x = q.eval x)
    (hq : q.lower ≤ x → ContinuousAt (evalGo q r) x) : ContinuousAt (evalGo p (q :: r)) x := by
  rcases lt_or_ge x q.lower with hx | hx
  · have he : evalGo p (q :: r) =ᶠ[𝓝 x] p.eval := by
      filter_upwards [eventually_lt_nhds hx] with y hy
      simp only [evalGo, if_pos hy]
    exact (piece_continuous p).continuousAt.congr he.symm
  · have hq := hq hx
    rcases hx.lt_or_eq with hx | hx
    · have he : evalGo p (q :: r) =ᶠ[𝓝 x] evalGo q r := by
        filter_upwards [eventually_gt_nhds hx] with y hy
        simp only [evalGo, if_neg (not_lt.2 hy.le)]
      exact hq.congr he.symm
    · have hj := hj hx.symm
      rw [← stepAtMost_zero, stepAtMost_iff] at hq ⊢
      intro ε hε
      have h0 : evalGo p (q :: r) x = evalGo q r x := by simp only [evalGo, if_neg hx.not_gt]
      have h1 : evalGo q r x = q.eval x := by rw [← hx]; exact evalGo_start q r hs
      have hp := stepAtMost_iff.1 (stepAtMost_zero.2 ((piece_continuous p).continuousAt (x := x))) ε hε
      filter_upwards [hq ε hε, hp] with y a b
      by_cases hy : y < q.lower
      · have e : evalGo p (q :: r) y = p.eval y := by simp only [evalGo, if_pos hy]
        rw [e, h0, h1, ← hj]
        exact b
      · have e : evalGo p (q :: r) y = evalGo q r y := by simp only [evalGo, if_neg hy]
        rw [e, h0]
        exact a

theorem mem_take_search (l : List (Piece ℝ)) (hs : l.Pairwise (fun a b => a.lower < b.lower)) (k : Piece ℝ) (x : ℝ) (hk : k ∈ l)
    (hx : k.lower < x) : k ∈ l.take (searchsortedLeft (l.map (·.lower)) x) := by
  induction l with
  | nil => exact absurd hk List.not_mem_nil
  | cons p l ih =>
    obtain ⟨hp, hs'⟩ := List.pairwise_cons.1 hs
    have hpx : p.lower < x := by
      rcases List.mem_cons.1 hk with rfl | hk
      · exact hx
      · exact (hp k hk).trans hx
    have e : searchsortedLeft ((p :: l).map (·.lower)) x = searchsortedLeft (l.map (·.lower)) x + 1 := by
      simp [searchsortedLeft, hpx]
    rw [e, List.take_succ_cons]
    rcases List.mem_cons.1 hk with rfl | hk
    · exact List.mem_cons_self
    · exact List.mem_cons_of_mem _ (ih hs' hk)

end Skyfield
