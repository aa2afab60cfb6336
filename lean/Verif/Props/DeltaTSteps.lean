import Verif.Lemmas.DeltaTSteps
import Verif.Props.DeltaT

/-
C13: ∆T built from a table of splines whose pieces do not quite join.
-/
namespace Skyfield
open Spec Filter Topology

/-- What `build_delta_t` builds, when the cubics of its spline table join to within `η` and the daily table starts after the splines do. -/
theorem buildDeltaT_shape {η : ℝ} (hη : 0 ≤ η) (first : Piece ℝ) (rest : List (Piece ℝ)) (t0 : ℝ) (ts : List ℝ) (d0 : ℝ)
    (ds : List ℝ) (hchain : (first :: rest).IsChain (JoinsBy η))
    (hcubic : ∀ p ∈ first :: rest, p.cs.length = 3) (hstart : first.lower < ttToJ t0) :
    ∃ (sl sr : ℝ) (pre : List (Piece ℝ)) (lo up c3 c2 c1 c0 : ℝ),
      buildDeltaT (first :: rest) (t0 :: ts) (d0 :: ds) = some ⟨t0 :: ts, d0 :: ds,
        buildSplineGivenEnds (first.lower - 800 - 100) (parabola2016.eval (first.lower - 800 - 100))
          (parabolaSlope (first.lower - 800 - 100)) (first.lower - 800)
          (parabola2016.eval (first.lower - 800)) (parabolaSlope (first.lower - 800)) ::
        buildSplineGivenEnds (first.lower - 800) (parabola2016.eval (first.lower - 800))
          (parabolaSlope (first.lower - 800)) first.lower (first.eval first.lower) sl ::
        (pre ++ [⟨lo, up, c3, [c2, c1 + (d0 - evalGo first rest (ttToJ t0)) /
            ((ttToJ t0 - lo) / (up - lo)), c0]⟩] ++
          [buildSplineGivenEnds (ttToJ ((t0 :: ts).getLast (by simp))) ((d0 :: ds).getLast (by simp)) sr
            (pyFloorDiv (ttToJ ((t0 :: ts).getLast (by simp)) + 800) 100 * 100)
            (parabola2016.eval (pyFloorDiv (ttToJ ((t0 :: ts).getLast (by simp)) + 800) 100 * 100))
            (parabolaSlope (pyFloorDiv (ttToJ ((t0 :: ts).getLast (by simp)) + 800) 100 * 100)),
           buildSplineGivenEnds (pyFloorDiv (ttToJ ((t0 :: ts).getLast (by simp)) + 800) 100 * 100)
            (parabola2016.eval (pyFloorDiv (ttToJ ((t0 :: ts).getLast (by simp)) + 800) 100 * 100))
            (parabolaSlope (pyFloorDiv (ttToJ ((t0 :: ts).getLast (by simp)) + 800) 100 * 100))
            (pyFloorDiv (ttToJ ((t0 :: ts).getLast (by simp)) + 800) 100 * 100 + 100)
            (parabola2016.eval (pyFloorDiv (ttToJ ((t0 :: ts).getLast (by simp)) + 800) 100 * 100 + 100))
            (parabolaSlope (pyFloorDiv (ttToJ ((t0 :: ts).getLast (by simp)) + 800) 100 * 100 + 100))])⟩ ∧
      (first :: rest).take (searchsortedLeft ((first :: rest).map (·.lower)) (ttToJ t0)) = pre ++ [⟨lo, up, c3, [c2, c1, c0]⟩] ∧
      (pre ++ [(⟨lo, up, c3, [c2, c1, c0]⟩ : Piece ℝ)]).IsChain (JoinsBy η) ∧
      (pre ++ [(⟨lo, up, c3, [c2, c1, c0]⟩ : Piece ℝ)]).head? = some first ∧
      (∀ p ∈ pre ++ [(⟨lo, up, c3, [c2, c1, c0]⟩ : Piece ℝ)], p ∈ first :: rest) ∧ lo < ttToJ t0 ∧
      |evalGo first rest (ttToJ t0) - (⟨lo, up, c3, [c2, c1, c0]⟩ : Piece ℝ).eval (ttToJ t0)| ≤ η ∧
      ((∀ p ∈ rest, ttToJ t0 ≠ p.lower) →
        evalGo first rest (ttToJ t0) = (⟨lo, up, c3, [c2, c1, c0]⟩ : Piece ℝ).eval (ttToJ t0)) := by
  have hpw := joinsBy_pairwise _ hchain
  obtain ⟨sd, hsd, hsdl⟩ := splinesDerivative_cubic _ hcubic
  obtain ⟨sl, hsl⟩ := splinesCall_lower first rest sd hpw hsdl first.lower
  obtain ⟨pre, last, h1, h2, h3, h3', h4, h5, h6, h7⟩ := take_cut_by hη first rest (ttToJ t0) hchain hstart
  have hc3 := hcubic last h4
  obtain ⟨lo, up, c3, cs⟩ := last
  match cs, hc3 with
  | [c2, c1, c0], _ =>
    have hsr : ∃ sr, recentSlope (d0 :: ds) = some sr := by
      unfold recentSlope
      have hlast : (d0 :: ds).getLast? = some ((d0 :: ds).getLast (by simp)) :=
        List.getLast?_eq_getLast_of_ne_nil (by simp)
      have hlt : (d0 :: ds).length - min 366 (d0 :: ds).length < (d0 :: ds).length := by
        have : 0 < (d0 :: ds).length := by simp
        omega
      have hback := List.getElem?_eq_getElem hlt
      rw [hlast]
      simp only [Option.bind_eq_bind, Option.bind_some]
      rw [hback]
      exact ⟨_, rfl⟩
    obtain ⟨sr, hsr⟩ := hsr
    refine ⟨sl, sr, pre, lo, up, c3, c2, c1, c0, ?_, h1, h5, h6, h7, h2, h3, h3'⟩
    have w : (1925 : ℝ) - 1825 = 100 := by norm_num
    have hlastT : (t0 :: ts).getLast? = some ((t0 :: ts).getLast (by simp)) :=
      List.getLast?_eq_getLast_of_ne_nil (by simp)
    have hlastD : (d0 :: ds).getLast? = some ((d0 :: ds).getLast (by simp)) :=
      List.getLast?_eq_getLast_of_ne_nil (by simp)
    have hfirst : splinesCall (first :: rest) first.lower = some (first.eval first.lower) := by
      rw [splinesCall_eq _ _ _ hpw, evalGo_start _ _ hpw]
    unfold buildDeltaT
    simp only [parabola_derivative, hsd, Option.bind_eq_bind, Option.bind_some, List.head?_cons,
      splinesCall_single, pd_eval, hfirst, hsl, hlastT, hlastD, hsr, w, h1,
      splinesCall_eq _ _ (ttToJ t0) hpw, List.getLast?_append, List.getLast?_singleton,
      Option.some_or, List.dropLast_concat]
    rfl

private theorem ttToJ_continuous : Continuous (ttToJ : ℝ → ℝ) := by
  unfold ttToJ
  exact (continuous_id.sub continuous_const).div_const _

private theorem step_comp {η : ℝ} {f : ℝ → ℝ} {x : ℝ} (h : StepAtMost η f (ttToJ x)) : StepAtMost η (fun t => f (ttToJ t)) x := by
  rw [stepAtMost_iff] at h ⊢
  intro ε hε
  exact ttToJ_continuous.continuousAt.eventually (h ε hε)

private theorem step_congr {η : ℝ} {f g : ℝ → ℝ} {x : ℝ} (h : StepAtMost η f x) (he : g =ᶠ[𝓝 x] f) : StepAtMost η g x := by
  rw [stepAtMost_iff] at h ⊢
  intro ε hε
  filter_upwards [h ε hε, he] with y a b
  rw [b, he.eq_of_nhds]
  exact a

/-- A function that is `m` on `[t0, tl]` and `e` elsewhere, at a point of the interval. -/
private theorem step_glue {η t0 tl x : ℝ} (hη : 0 ≤ η) {m e : ℝ → ℝ} (hx : t0 ≤ x ∧ x ≤ tl) (hm : ContinuousAt m x)
    (h0 : x = t0 → ∃ g : ℝ → ℝ, ContinuousAt g x ∧ |g x - m x| ≤ η ∧ ∀ᶠ y in 𝓝 x, y < t0 → e y = g y)
    (h1 : x = tl → ∃ g : ℝ → ℝ, ContinuousAt g x ∧ |g x - m x| ≤ η ∧ ∀ᶠ y in 𝓝 x, tl < y → e y = g y) :
    StepAtMost η (fun y => if t0 ≤ y ∧ y ≤ tl then m y else e y) x := by
  rw [stepAtMost_iff]
  intro ε hε
  have near : ∀ g : ℝ → ℝ, ContinuousAt g x → |g x - m x| ≤ η → ∀ᶠ y in 𝓝 x, |g y - m x| < ε := by
    intro g hg hgm
    filter_upwards [stepAtMost_iff.1 (stepAtMost_zero.2 hg) (ε - η) (by linarith)] with y hy
    have := abs_add_le (g y - g x) (g x - m x)
    rw [sub_add_sub_cancel] at this
    linarith
  have k0 : ∀ᶠ y in 𝓝 x, y < t0 → |e y - m x| < ε := by
    rcases hx.1.eq_or_lt with h | h
    · obtain ⟨g, g1, g2, g3⟩ := h0 h.symm
      filter_upwards [near g g1 g2, g3] with y a b hy
      rw [b hy]; exact a
    · filter_upwards [eventually_gt_nhds h] with y a hy
      exact absurd hy a.not_gt
  have k1 : ∀ᶠ y in 𝓝 x, tl < y → |e y - m x| < ε := by
    rcases hx.2.eq_or_lt with h | h
    · obtain ⟨g, g1, g2, g3⟩ := h1 h
      filter_upwards [near g g1 g2, g3] with y a b hy
      rw [b hy]; exact a
    · filter_upwards [eventually_lt_nhds h] with y a hy
      exact absurd hy a.not_gt
  filter_upwards [near m hm (by rw [sub_self, abs_zero]; exact hη), k0, k1] with y a b c
  rw [if_pos hx]
  by_cases hy : t0 ≤ y ∧ y ≤ tl
  · rw [if_pos hy]; exact a
  · rw [if_neg hy]
    by_cases h : y < t0
    · exact b h
    · exact c (lt_of_not_ge fun hc => hy ⟨not_lt.1 h, hc⟩)

/-- **C13.** For every table of historical cubics that join to within `η` seconds, and every daily table in date order that starts after the
splines do, `build_delta_t` succeeds, and ∆T nowhere jumps by more than `η`; it is continuous except perhaps where a piece of the historical table
starts.  It agrees with the daily table at every date in it, runs on straight lines between them, and before the piece in which the daily table starts it is the
historical table.  In the far past and the far future it is the long-term parabola. -/
theorem C13_steps_bounded {η : ℝ} (hη : 0 ≤ η) (first : Piece ℝ) (rest : List (Piece ℝ)) (t0 : ℝ) (ts : List ℝ) (d0 : ℝ)
    (ds : List ℝ) (hlen : ts.length = ds.length) (hsort : (t0 :: ts).Pairwise (· < ·))
    (hchain : (first :: rest).IsChain fun p q => p.lower < q.lower ∧ |p.eval q.lower - q.eval q.lower| ≤ η)
    (hcubic : ∀ p ∈ first :: rest, p.cs.length = 3 ∧ p.lower < p.upper)
    (hstart : first.lower < (t0 - 1721045) / (36525 / 100)) :
    ∃ (d : DeltaT ℝ) (f : ℝ → ℝ), buildDeltaT (first :: rest) (t0 :: ts) (d0 :: ds) = some d ∧
      (∀ tt, d.call tt = some (f tt)) ∧ (∀ tt, StepAtMost η f tt) ∧
      (∀ tt, (∀ p ∈ rest, (tt - 1721045) / (36525 / 100) ≠ p.lower) → ContinuousAt f tt) ∧
      (∀ tt, t0 ≤ tt → tt ≤ (t0 :: ts).getLast (by simp) → interp tt (t0 :: ts) (d0 :: ds) = some (f tt)) ∧
      (∀ tt (k : Piece ℝ), tt < t0 → first.lower ≤ (tt - 1721045) / (36525 / 100) → k ∈ rest → (tt - 1721045) / (36525 / 100) < k.lower →
        k.lower < (t0 - 1721045) / (36525 / 100) → splinesCall (first :: rest) ((tt - 1721045) / (36525 / 100)) = some (f tt)) ∧
      (∀ tt, (tt - 1721045) / (36525 / 100) ≤ first.lower - 800 ∨
          ((t0 :: ts).getLast (by simp) - 1721045) / (36525 / 100) + 800 ≤ (tt - 1721045) / (36525 / 100) →
        f tt = -320 + 325 / 10 * (((tt - 1721045) / (36525 / 100) - 1825) / 100) ^ 2) := by
  obtain ⟨sl, sr, pre, lo, up, c3, c2, c1, c0, hb, htake, hpre, hhead, hmems, hlo, hev, hev'⟩ :=
    buildDeltaT_shape hη first rest t0 ts d0 ds hchain (fun p hp => (hcubic p hp).1) hstart
  have hup : lo < up := (hcubic _ (hmems _ (List.mem_append_right _ List.mem_cons_self))).2
  set a := first.lower with ha
  set tl := (t0 :: ts).getLast (by simp) with htl
  set dl := (d0 :: ds).getLast (by simp) with hdl
  set X := (pyFloorDiv (ttToJ tl + 800) 100 * 100 : ℝ) with hX
  set FL := buildSplineGivenEnds (a - 800 - 100) (parabola2016.eval (a - 800 - 100))
          (parabolaSlope (a - 800 - 100)) (a - 800)
          (parabola2016.eval (a - 800)) (parabolaSlope (a - 800)) with hFL
  set L := buildSplineGivenEnds (a - 800) (parabola2016.eval (a - 800))
          (parabolaSlope (a - 800)) a (first.eval a) sl with hL
  set old : Piece ℝ := ⟨lo, up, c3, [c2, c1, c0]⟩ with hold
  set adj : Piece ℝ := ⟨lo, up, c3, [c2, c1 + (d0 - evalGo first rest (ttToJ t0)) /
            ((ttToJ t0 - lo) / (up - lo)), c0]⟩ with hadj
  set R := buildSplineGivenEnds (ttToJ tl) dl sr X (parabola2016.eval X) (parabolaSlope X) with hR
  set FR := buildSplineGivenEnds X (parabola2016.eval X) (parabolaSlope X) (X + 100)
    (parabola2016.eval (X + 100)) (parabolaSlope (X + 100)) with hFR
  have hXgt : ttToJ tl < X := by
    have : (ttToJ tl + 800) / 100 < (pyFloorDiv (ttToJ tl + 800) 100 : ℝ) + 1 := by
      unfold pyFloorDiv; exact Int.lt_floor_add_one _
    rw [hX]; linarith
  have hXle : X ≤ ttToJ tl + 800 := by
    have : (pyFloorDiv (ttToJ tl + 800) 100 : ℝ) ≤ (ttToJ tl + 800) / 100 := by
      unfold pyFloorDiv; exact Int.floor_le _
    rw [hX]; linarith
  have hparab : ∀ x : ℝ, (parabola2016 : Piece ℝ).eval x = -320 + 325 / 10 * ((x - 1825) / 100) ^ 2 := by
    intro x
    simp only [parabola2016, Piece.eval, horner, List.foldl_cons, List.foldl_nil]
    norm_num
    ring
  have hadj0 : adj.eval lo = old.eval lo := by
    simp only [hadj, hold, Piece.eval, horner, List.foldl_cons, List.foldl_nil, sub_self, zero_div]
    ring
  have hadjx : adj.eval (ttToJ t0) = old.eval (ttToJ t0) + (d0 - evalGo first rest (ttToJ t0)) := by
    have ht : (ttToJ t0 - lo) / (up - lo) ≠ 0 :=
      div_ne_zero (sub_ne_zero.2 hlo.ne') (sub_ne_zero.2 hup.ne')
    simp only [hadj, hold, Piece.eval, horner, List.foldl_cons, List.foldl_nil]
    have hc := div_mul_cancel₀ (d0 - evalGo first rest (ttToJ t0)) ht
    linear_combination hc
  have hadjchain : (pre ++ [adj]).IsChain (JoinsBy η) := by
    obtain ⟨g1, g2, g3⟩ := List.isChain_append.1 hpre
    refine List.isChain_append.2 ⟨g1, by simp, ?_⟩
    intro u hu v hv
    simp only [List.head?_cons, Option.mem_def, Option.some.injEq] at hv
    subst hv
    have := g3 u hu old (by simp)
    refine ⟨this.1, ?_⟩
    have h2 := this.2
    show |u.eval lo - adj.eval lo| ≤ η
    rw [hadj0]
    exact h2
  have hfirstadj : ∃ b l, pre ++ [adj] = b :: l ∧ b.lower = a ∧ b.eval a = first.eval a := by
    cases hp : pre with
    | nil =>
      rw [hp] at hhead
      simp only [List.nil_append, List.head?_cons, Option.some.injEq] at hhead
      refine ⟨adj, [], rfl, ?_, ?_⟩
      · rw [ha, ← hhead]
      · have : a = lo := by rw [ha, ← hhead]
        rw [this, hadj0, hhead]
    | cons b l =>
      rw [hp] at hhead
      simp only [List.cons_append, List.head?_cons, Option.some.injEq] at hhead
      subst hhead
      exact ⟨b, l ++ [adj], rfl, rfl, rfl⟩
  have hchain1 : (FL :: L :: (pre ++ [adj])).IsChain (JoinsBy η) := by
    obtain ⟨b, l, e1, e2, e3⟩ := hfirstadj
    rw [e1] at hadjchain ⊢
    refine List.isChain_cons_cons.2 ⟨⟨?_, ?_⟩, List.isChain_cons_cons.2 ⟨⟨?_, ?_⟩, hadjchain⟩⟩
    · show a - 800 - 100 < a - 800; linarith
    · show |FL.eval (a - 800) - L.eval (a - 800)| ≤ η
      rw [hFL, hL, hermite_right _ _ _ _ _ _ (by linarith), hermite_left, sub_self, abs_zero]
      exact hη
    · rw [e2]; show a - 800 < a; linarith
    · rw [e2, e3, hL, hermite_right _ _ _ _ _ _ (by linarith), sub_self, abs_zero]
      exact hη
  have hRchain : [R, FR].IsChain (JoinsBy η) := by
    refine List.isChain_cons_cons.2 ⟨⟨hXgt, ?_⟩, by simp⟩
    show |R.eval X - FR.eval X| ≤ η
    rw [hR, hFR, hermite_right _ _ _ _ _ _ hXgt.ne, hermite_left, sub_self, abs_zero]
    exact hη
  have hpairs : ((t0, d0) :: ts.zip ds).Pairwise (fun a b : ℝ × ℝ => a.1 < b.1) := by
    rw [← List.pairwise_map (f := Prod.fst)]
    have : ((t0, d0) :: ts.zip ds).map Prod.fst = t0 :: ts := by
      rw [List.map_cons, List.map_fst_zip hlen.le]
    rw [this]; exact hsort
  have hlastz : ((t0, d0) :: ts.zip ds).getLast (by simp) = (tl, dl) := by
    have e : (t0, d0) :: ts.zip ds = (t0 :: ts).zip (d0 :: ds) := rfl
    have hn : (ts.zip ds).length = ts.length := by rw [List.length_zip, hlen, min_self]
    rw [List.getLast_eq_getElem, htl, hdl, List.getLast_eq_getElem, List.getLast_eq_getElem]
    simp only [e, List.getElem_zip, List.length_cons, Nat.add_sub_cancel, Prod.mk.injEq]
    constructor <;> congr 1 <;> simp [hlen]
  have ht0l : t0 ≤ tl := by
    have := sorted_le_last _ _ hpairs (t0, d0) List.mem_cons_self
    rwa [hlastz] at this
  have hJmono : ∀ u v : ℝ, u < v → ttToJ u < ttToJ v := by
    intro u v h; unfold ttToJ; linarith
  have hJle : ∀ u v : ℝ, u ≤ v → ttToJ u ≤ ttToJ v := by
    intro u v h; unfold ttToJ; linarith
  have hall : (FL :: (L :: (pre ++ [adj]) ++ R :: [FR])).Pairwise (fun a b => a.lower < b.lower) := by
    have : IsTrans (Piece ℝ) (fun a b => a.lower < b.lower) := ⟨fun a b c h1 h2 => lt_trans h1 h2⟩
    rw [← List.isChain_iff_pairwise]
    rw [show FL :: (L :: (pre ++ [adj]) ++ R :: [FR]) = (FL :: L :: pre) ++ [adj] ++ [R, FR] by simp]
    refine List.isChain_append.2 ⟨?_, ?_, ?_⟩
    · rw [show FL :: L :: pre ++ [adj] = FL :: L :: (pre ++ [adj]) by simp]
      exact hchain1.imp fun _ _ h => h.1
    · exact hRchain.imp fun _ _ h => h.1
    · intro u hu v hv
      simp only [List.getLast?_append, List.getLast?_singleton, Option.some_or, Option.mem_def,
        Option.some.injEq, List.head?_cons] at hu hv
      subst hu; subst hv
      show lo < ttToJ tl
      exact lt_of_lt_of_le hlo (hJle _ _ ht0l)
  have hlong : ∀ y, splinesCall (FL :: L :: (pre ++ [adj] ++ [R, FR])) y =
      some (evalGo FL (L :: (pre ++ [adj]) ++ R :: [FR]) y) := by
    intro y
    rw [← splinesCall_eq _ _ _ hall]
    simp
  have hpw1 := joinsBy_pairwise _ hchain1
  have left_eq : ∀ t, t < t0 → evalGo FL (L :: (pre ++ [adj]) ++ R :: [FR]) (ttToJ t) = evalGo FL (L :: (pre ++ [adj])) (ttToJ t) :=
    fun t ht => evalGo_append_lt FL _ R [FR] _ hall (hJmono _ _ (lt_of_lt_of_le ht ht0l))
  have right_eq : ∀ t, tl < t → evalGo FL (L :: (pre ++ [adj]) ++ R :: [FR]) (ttToJ t) = evalGo R [FR] (ttToJ t) :=
    fun t ht => evalGo_append_ge FL _ R [FR] _ hall (hJle _ _ ht.le)
  set f : ℝ → ℝ := fun tt => if t0 ≤ tt ∧ tt ≤ tl then interpGo (t0, d0) (ts.zip ds) tt else
    evalGo FL (L :: (pre ++ [adj]) ++ R :: [FR]) (ttToJ tt) with hf
  -- steps, for any bound that the join at the start of the daily table keeps
  have hstep : ∀ tt ζ, 0 ≤ ζ → (tt = t0 → |adj.eval (ttToJ t0) - d0| ≤ ζ) →
      (tt < t0 → StepAtMost ζ (evalGo FL (L :: (pre ++ [adj]))) (ttToJ tt)) → StepAtMost ζ f tt := by
    intro tt ζ hζ hat hleft
    rcases lt_or_ge tt t0 with h0 | h0
    · refine step_congr (step_comp (hleft h0)) ?_
      filter_upwards [eventually_lt_nhds h0] with y hy
      simp only [hf]
      rw [if_neg fun h => absurd h.1 (not_le.2 hy), left_eq y hy]
    · rcases lt_or_ge tl tt with h1 | h1
      · have hc : ContinuousAt (evalGo R [FR]) (ttToJ tt) := by
          have hR0 : [R, FR].IsChain (JoinsBy (0 : ℝ)) := by
            refine List.isChain_cons_cons.2 ⟨⟨hXgt, ?_⟩, by simp⟩
            show |R.eval X - FR.eval X| ≤ 0
            rw [hR, hFR, hermite_right _ _ _ _ _ _ hXgt.ne, hermite_left, sub_self, abs_zero]
          exact stepAtMost_zero.1 (evalGo_steps le_rfl _ _ hR0 _).1
        refine StepAtMost_mono (step_congr (step_comp (stepAtMost_zero.2 hc)) ?_) hζ
        filter_upwards [eventually_gt_nhds h1] with y hy
        simp only [hf]
        rw [if_neg fun h => absurd h.2 (not_le.2 hy), right_eq y hy]
      · refine step_glue hζ ⟨h0, h1⟩ (interpGo_continuous _ _ hpairs).continuousAt ?_ ?_
        · intro e
          refine ⟨fun y => adj.eval (ttToJ y), ((piece_continuous adj).comp ttToJ_continuous).continuousAt, ?_, ?_⟩
          · rw [e, show interpGo (t0, d0) (ts.zip ds) t0 = d0 from interpGo_start (t0, d0) _ hpairs]
            exact hat e
          · have hl : ∀ᶠ y in 𝓝 tt, lo < ttToJ y := by
              rw [e]
              exact ttToJ_continuous.continuousAt.eventually (eventually_gt_nhds hlo)
            filter_upwards [hl] with y hy h
            rw [left_eq y h]
            have := evalGo_append_ge FL (L :: pre) adj [] (ttToJ y) (by simpa using hpw1) hy.le
            exact this
        · intro e
          refine ⟨fun y => R.eval (ttToJ y), ((piece_continuous R).comp ttToJ_continuous).continuousAt, ?_, ?_⟩
          · have h1 : interpGo (t0, d0) (ts.zip ds) tl = dl := by
              have := interpGo_point _ _ _ hpairs (List.getLast_mem (by simp : (t0, d0) :: ts.zip ds ≠ []))
              rwa [hlastz] at this
            rw [e, h1]
            show |R.eval (ttToJ tl) - dl| ≤ ζ
            rw [hR, hermite_left, sub_self, abs_zero]
            exact hζ
          · have hl : ∀ᶠ y in 𝓝 tt, ttToJ y < X := by
              rw [e]
              exact ttToJ_continuous.continuousAt.eventually (eventually_lt_nhds hXgt)
            filter_upwards [hl] with y hy h
            rw [right_eq y h]
            simp only [evalGo]
            rw [if_pos (show ttToJ y < FR.lower from hy)]
  refine ⟨_, f, hb, ?_, ?_, ?_, ?_, ?_, ?_⟩
  · intro tt
    simp only [DeltaT.call, interpNan, List.zip_cons_cons, hlastz, hf]
    by_cases h0 : tt < t0
    · rw [if_pos h0, if_neg fun h => absurd h.1 (not_le.2 h0)]
      simp only
      rw [hlong]
    · rw [if_neg h0]
      by_cases h1 : tl < tt
      · rw [if_pos h1, if_neg fun h => absurd h.2 (not_le.2 h1)]
        simp only
        rw [hlong]
      · rw [if_neg h1, if_pos ⟨not_lt.1 h0, not_lt.1 h1⟩]
  · intro tt
    refine hstep tt η hη (fun _ => ?_) fun _ => (evalGo_steps hη _ _ hchain1 _).1
    rw [hadjx, show old.eval (ttToJ t0) + (d0 - evalGo first rest (ttToJ t0)) - d0 =
      -(evalGo first rest (ttToJ t0) - old.eval (ttToJ t0)) by ring, abs_neg]
    exact hev
  · intro tt hk
    rw [← stepAtMost_zero]
    have hk' : ∀ p ∈ rest, ttToJ tt ≠ p.lower := hk
    refine hstep tt 0 le_rfl (fun e => ?_) fun h => ?_
    · rw [hadjx, ← hev' (by rw [← e]; exact hk')]
      simp
    · rw [stepAtMost_zero]
      obtain ⟨b, l, e1, e2, e3⟩ := hfirstadj
      have hlowers : ∀ q ∈ l, ttToJ tt ≠ q.lower := by
        intro q hq
        have hqa : a < q.lower := by
          rw [e1] at hadjchain
          rw [← e2]
          exact (List.pairwise_cons.1 (joinsBy_pairwise _ hadjchain)).1 q hq
        have hmem : q ∈ pre ++ [adj] := by rw [e1]; exact List.mem_cons_of_mem _ hq
        have hex : ∃ q' ∈ first :: rest, q'.lower = q.lower := by
          rcases List.mem_append.1 hmem with hm | hm
          · exact ⟨q, hmems q (List.mem_append_left _ hm), rfl⟩
          · rw [List.mem_singleton] at hm
            exact ⟨old, hmems old (List.mem_append_right _ List.mem_cons_self), by rw [hm]⟩
        obtain ⟨q', hq', hl'⟩ := hex
        rcases List.mem_cons.1 hq' with e | hq'
        · rw [e, ← ha] at hl'
          exact absurd hl' hqa.ne
        · rw [← hl']
          exact hk' q' hq'
      rw [e1] at hadjchain hpw1 ⊢
      obtain ⟨-, hpw2⟩ := List.pairwise_cons.1 hpw1
      obtain ⟨-, hpw3⟩ := List.pairwise_cons.1 hpw2
      refine evalGo_cons_continuousAt FL L (b :: l) _ hpw2 (fun e => ?_) fun _ =>
        evalGo_cons_continuousAt L b l _ hpw3 (fun e => ?_) fun _ => (evalGo_steps hη b l hadjchain _).2 hlowers
      · have e' : ttToJ tt = a - 800 := e
        rw [e', hFL, hL, hermite_right _ _ _ _ _ _ (by linarith), hermite_left]
      · rw [e, e2, e3, hL, hermite_right _ _ _ _ _ _ (by linarith)]
  · intro tt h0 h1
    simp only [hf]
    rw [if_pos ⟨h0, h1⟩]
    rfl
  · intro tt k ht hfirst hk hkt hk0
    have hfirst' : a ≤ ttToJ tt := hfirst
    have hkt' : ttToJ tt < k.lower := hkt
    have hpw := joinsBy_pairwise _ hchain
    rw [splinesCall_eq _ _ _ hpw, Option.some.injEq]
    symm
    simp only [hf]
    rw [if_neg fun h => absurd h.1 (not_le.2 ht), left_eq tt ht]
    show evalGo FL (L :: (pre ++ [adj])) (ttToJ tt) = evalGo first rest (ttToJ tt)
    have hkin := mem_take_search (first :: rest) hpw k (ttToJ t0) (List.mem_cons_of_mem _ hk) hk0
    rw [htake] at hkin
    have hklo : k.lower ≤ lo := by
      rcases List.mem_append.1 hkin with h | h
      · have hp := (List.pairwise_append.1 (joinsBy_pairwise _ hpre)).2.2 k h old List.mem_cons_self
        exact hp.le
      · rw [List.mem_singleton] at h
        rw [h]
    have hlt : ttToJ tt < lo := lt_of_lt_of_le hkt' hklo
    cases hp : pre with
    | nil =>
      rw [hp] at hhead
      simp only [List.nil_append, List.head?_cons, Option.some.injEq] at hhead
      have : a = lo := by rw [ha, ← hhead]
      linarith
    | cons b l =>
      rw [hp] at hhead hpw1 htake
      simp only [List.cons_append, List.head?_cons, Option.some.injEq] at hhead
      subst hhead
      have h1 : evalGo FL (L :: (b :: l ++ [adj])) (ttToJ tt) = evalGo b (l ++ [adj]) (ttToJ tt) :=
        evalGo_append_ge FL [L] b (l ++ [adj]) (ttToJ tt) hpw1 hfirst'
      have hpw3 : (b :: (l ++ adj :: [])).Pairwise (fun a b => a.lower < b.lower) :=
        (List.pairwise_cons.1 (List.pairwise_cons.1 hpw1).2).2
      rw [h1, evalGo_append_lt b l adj [] _ hpw3 hlt]
      obtain ⟨post, e⟩ : ∃ post, rest = l ++ old :: post := by
        have h2 := List.take_append_drop (searchsortedLeft ((b :: rest).map (·.lower)) (ttToJ t0)) (b :: rest)
        rw [htake] at h2
        refine ⟨List.drop (searchsortedLeft ((b :: rest).map (·.lower)) (ttToJ t0)) (b :: rest), ?_⟩
        rw [List.cons_append, List.cons_append, List.append_assoc] at h2
        exact (List.cons.inj h2).2.symm
      rw [e, evalGo_append_lt b l old _ _ (by rw [← e]; exact hpw) hlt]
  · intro tt h
    have h' : ttToJ tt ≤ a - 800 ∨ ttToJ tl + 800 ≤ ttToJ tt := h
    show f tt = -320 + 325 / 10 * ((ttToJ tt - 1825) / 100) ^ 2
    rw [← hparab]
    simp only [hf]
    rcases h' with hJ | hJ
    · have hlt : tt < t0 := by
        by_contra hc
        have := hJle _ _ (not_lt.1 hc)
        have h3 : a < ttToJ t0 := hstart
        linarith
      rw [if_neg fun h => absurd h.1 (not_le.2 hlt), left_eq tt hlt]
      simp only [evalGo]
      by_cases he : ttToJ tt < L.lower
      · rw [if_pos he]
        exact parabola_patch _ _ _ (by linarith)
      · rw [if_neg he]
        have hLl : L.lower = a - 800 := rfl
        have : ttToJ tt = L.lower := by rw [hLl] at he ⊢; exact le_antisymm hJ (not_lt.1 he)
        rw [this, evalGo_start _ _ (List.pairwise_cons.1 hpw1).2]
        exact hermite_left _ _ _ _ _ _
    · have hgt : tl < tt := by
        by_contra hc
        have := hJle _ _ (not_lt.1 hc)
        linarith
      rw [if_neg fun h => absurd h.2 (not_le.2 hgt), right_eq tt hgt]
      simp only [evalGo]
      rw [if_neg (not_lt.2 (show FR.lower ≤ ttToJ tt from le_trans hXle hJ))]
      exact parabola_patch _ _ _ (by linarith)

/-- The hypotheses hold of a two-piece spline table with a step of a thousandth and a two-day daily table. -/
example : ∃ (d : DeltaT ℝ) (f : ℝ → ℝ),
    buildDeltaT [⟨-720, 0, 0, [0, -1, 3]⟩, ⟨0, 1900, 0, [0, 1, 2.001]⟩] [2441684, 2441685] [43, 44] = some d ∧
      (∀ tt, d.call tt = some (f tt)) ∧ ∀ tt, StepAtMost 0.001 f tt := by
  obtain ⟨d, f, h1, h2, h3, -⟩ := C13_steps_bounded (η := 0.001) (by norm_num) ⟨-720, 0, 0, [0, -1, 3]⟩ [⟨0, 1900, 0, [0, 1, 2.001]⟩]
    2441684 [2441685] 43 [44] rfl (by simp; norm_num)
    (by simp [Piece.eval, horner]; norm_num [abs_of_neg]) (by simp) (by norm_num)
  exact ⟨d, f, h1, h2, h3⟩

end Skyfield
