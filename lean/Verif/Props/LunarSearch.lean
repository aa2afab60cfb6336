import Verif.Model.LunarSearch
import Verif.Props.Hills
import Verif.Props.Eclipse
import Verif.Props.SatelliteEvents
import Verif.Props.ElementsOf

/-
C116: what `lunar_eclipses` and `find_events` find.
-/
namespace Skyfield
open Real Set _root_.Spec

/-- The Earth as seen by the eclipses: the Moon from the Earth. -/
def LunarSegments.earthToMoon (g : LunarSegments) (t : ℝ) : Vec3 := g.moon t - g.earth t

private theorem moonToEarth_eq (g : LunarSegments) (t : ℝ) : g.moonToEarth t = -g.earthToMoon t := by
  unfold LunarSegments.moonToEarth LunarSegments.earthToMoon
  ext <;> simp

/-- **C116.** Between two dates in which the angle between the Moon and the Sun grows and shrinks in turn, for at least ten days each time, and
the distances of the Moon and the Sun are as usual, `lunar_eclipses`
* reports each greatest angle (that is not too close to either date) for which at every moment of that second before and after the Moon is
touched by the penumbra of the Earth, as one eclipse, within a second of its moment: as a partial or total one if it is touched by the umbra,
as a total one if it is wholly within the umbra;
* reports nothing else: each eclipse reported is within a second of a greatest angle, and at the moment reported the Moon is indeed
in the shadow of an Earth one percent larger, with its atmosphere;
* reports them in order. -/
theorem C116_lunar_eclipses (tiny : ℝ) (g : LunarSegments) (t0 t1 : ℝ) (fuel n : ℕ) (low high : ℤ → ℝ) (eclipses : List (ℝ × LunarEclipse))
    (hn : n * 5 ≤ t1 - t0 ∧ t1 - t0 < (n + 1) * 5)
    (hU : Undulates (t0 - 5) (t1 + 5) 10 (fun t => sunMoonAngle tiny (g.barycenter t) (g.earth t) (g.moon t) (g.sun t) (g.velocity t)) low high)
    (hd : ∀ t, t0 ≤ t → t ≤ t1 → UsualDistances (g.sun t - g.barycenter t - g.earth t) (g.moon t - g.earth t))
    (h : lunarEclipses tiny g t0 t1 fuel = .ok (some (some eclipses))) :
    (∀ k, t0 + max (1 / 86400) ((t1 - t0) / ((n + 3) * (n + 4))) ≤ high k →
      high k ≤ t1 - max (1 / 86400) ((t1 - t0) / ((n + 3) * (n + 4))) →
      (∀ t, |t - high k| ≤ 1 / 86400 → ∃ x, (x - (g.moon t - g.earth t)).length ≤ 1737.1 ∧
        Spec.InPenumbra 6378.1366 696340 (g.sun t - g.barycenter t - g.earth t) x) →
      ∃! p, p ∈ eclipses ∧ |p.1 - high k| ≤ 1 / 86400) ∧
    (∀ p ∈ eclipses,
      ((∃ x, (x - (g.moon p.1 - g.earth p.1)).length ≤ 1737.1 ∧
        Spec.InUmbra 6378.1366 696340 (g.sun p.1 - g.barycenter p.1 - g.earth p.1) x) → 1 ≤ p.2.code) ∧
      ((∀ x, (x - (g.moon p.1 - g.earth p.1)).length ≤ 1737.1 →
        Spec.InUmbra 6378.1366 696340 (g.sun p.1 - g.barycenter p.1 - g.earth p.1) x) → p.2.code = 2)) ∧
    (∀ p ∈ eclipses, t0 ≤ p.1 ∧ p.1 ≤ t1 ∧ (∃ k, |p.1 - high k| ≤ 1 / 86400) ∧
      (∃ x, (x - (g.moon p.1 - g.earth p.1)).length ≤ 1737.1 ∧
        Spec.InPenumbra (1.01 * 6378.1366) 696340 (g.sun p.1 - g.barycenter p.1 - g.earth p.1) x) ∧
      (1 ≤ p.2.code → ∃ x, (x - (g.moon p.1 - g.earth p.1)).length ≤ 1737.1 ∧
        Spec.InUmbra (1.01 * 6378.1366) 696340 (g.sun p.1 - g.barycenter p.1 - g.earth p.1) x) ∧
      (p.2.code = 2 → ∀ x, (x - (g.moon p.1 - g.earth p.1)).length ≤ 1737.1 →
        Spec.InUmbra (1.016 * 6378.1366) 696340 (g.sun p.1 - g.barycenter p.1 - g.earth p.1) x)) ∧
    eclipses.Pairwise fun a b => a.1 < b.1 := by
  unfold lunarEclipses at h
  cases hm : findMaxima t0 t1 (g.angle tiny) (1 / 86400) 4 fuel with
  | error e => simp only [hm] at h; simp at h
  | ok r =>
    simp only [hm] at h
    rcases r with _ | _ | found
    · simp at h
    · simp at h
    · simp only [Except.ok.injEq, Option.some.injEq] at h
      have key := C116_maxima t0 t1 (1 / 86400) 5 (g.angle tiny) 4 fuel n low high found (by norm_num) rfl (by norm_num) (by norm_num)
        (by norm_num) hn (by norm_num; exact hU) hm
      have hmem : ∀ p : ℝ × LunarEclipse, p ∈ eclipses ↔ ∃ q ∈ found, q.1 = p.1 ∧
          lunarEclipse (g.sun p.1 - g.barycenter p.1 - g.earth p.1) (-(g.moon p.1 - g.earth p.1)) = some p.2 := by
        intro p
        rw [← h, List.mem_filterMap]
        constructor
        · rintro ⟨q, hq, hqp⟩
          rw [Option.map_eq_some_iff] at hqp
          obtain ⟨e, he, rfl⟩ := hqp
          rw [moonToEarth_eq] at he
          exact ⟨q, hq, rfl, he⟩
        · rintro ⟨q, hq, hqp, he⟩
          refine ⟨q, hq, ?_⟩
          rw [moonToEarth_eq, hqp]
          unfold LunarSegments.earthToSun LunarSegments.earthToMoon
          rw [he]; rfl
      refine ⟨?_, ?_, ?_, ?_⟩
      · intro k k1 k2 hk
        obtain ⟨q, ⟨q1, q2⟩, q3⟩ := key.each k k1 k2
        obtain ⟨q4, q5, -⟩ := key.only q q1
        have := (C48_none_missed _ _ (hd q.1 q4 q5)).1 (hk q.1 q2)
        obtain ⟨e, he⟩ := Option.isSome_iff_exists.1 this
        refine ⟨(q.1, e), ⟨(hmem _).2 ⟨q, q1, rfl, he⟩, q2⟩, ?_⟩
        rintro ⟨t, e'⟩ ⟨hp, hpk⟩
        obtain ⟨q', hq', rfl, he'⟩ := (hmem _).1 hp
        obtain rfl := q3 q' ⟨hq', hpk⟩
        rw [he] at he'
        simp only [Option.some.injEq] at he'
        rw [he']
      · intro p hp
        obtain ⟨q, hq, hqp, he⟩ := (hmem p).1 hp
        obtain ⟨q4, q5, -⟩ := key.only q hq
        rw [hqp] at q4 q5
        obtain ⟨-, c2, c3⟩ := C48_none_missed _ _ (hd p.1 q4 q5)
        constructor
        · intro hx
          obtain ⟨e, e1, e2⟩ := c2 hx
          rw [he, Option.some.injEq] at e1
          rwa [e1]
        · intro hx
          obtain ⟨e, e1, e2⟩ := c3 hx
          rw [he, Option.some.injEq] at e1
          rwa [e1]
      · intro p hp
        obtain ⟨q, hq, hqp, he⟩ := (hmem p).1 hp
        obtain ⟨q4, q5, k, q6, -⟩ := key.only q hq
        rw [hqp] at q4 q5 q6
        exact ⟨q4, q5, ⟨k, q6⟩, C48_none_invented _ _ (hd p.1 q4 q5) p.2 he⟩
      · rw [← h, List.pairwise_filterMap]
        refine key.inOrder.imp ?_
        intro a b hab a' ha' b' hb'
        rw [Option.map_eq_some_iff] at ha' hb'
        obtain ⟨_, -, rfl⟩ := ha'
        obtain ⟨_, -, rfl⟩ := hb'
        exact hab

/-- **C116.** The search for eclipses comes to an end. -/
theorem C116_lunar_search_ends (tiny : ℝ) (t0 t1 : ℝ) (hlt : t0 < t1) :
    ∃ rounds, ∀ g : LunarSegments, ∃ eclipses, lunarEclipses tiny g t0 t1 rounds = .ok (some (some eclipses)) := by
  obtain ⟨rounds, hr⟩ := C56_maxima_terminate t0 t1 (1 / 86400) 4 (by norm_num) (by norm_num) hlt 5 (by norm_num)
  refine ⟨rounds, fun g => ?_⟩
  obtain ⟨found, hf⟩ := hr (g.angle tiny) rfl
  unfold lunarEclipses
  rw [hf]
  exact ⟨_, rfl⟩

/-- **C116.** A satellite whose altitude rises and falls in turn, each time for at least a tenth of its orbit (or of a day): every
culmination at which the satellite is above the limit for half a second before or after is reported, once, within half a second; and
every culmination reported is within half a second of a real one that reaches the limit. -/
theorem C116_culminations (t0 t1 : ℝ) (altitude : ℝ → ℝ) (orbits limit : ℝ) (fuel fuel' n : ℕ) (low high : ℤ → ℝ) (events : List (ℝ × ℕ))
    (hn : n * eventStep orbits ≤ t1 - t0 ∧ t1 - t0 < (n + 1) * eventStep orbits) (hes : 0.5 / 86400 ≤ eventStep orbits)
    (hU : Undulates (t0 - eventStep orbits) (t1 + eventStep orbits) (2 * eventStep orbits) altitude low high)
    (h : findEvents t0 t1 altitude orbits limit fuel fuel' = .ok (some (some events))) :
    (∀ k, t0 + max (0.5 / 86400) ((t1 - t0) / ((n + 3) * (n + 4))) ≤ high k →
      high k ≤ t1 - max (0.5 / 86400) ((t1 - t0) / ((n + 3) * (n + 4))) →
      (limit ≤ altitude (high k - 0.5 / 86400) ∨ limit ≤ altitude (high k + 0.5 / 86400)) →
      ∃! t, (t, 1) ∈ events ∧ |t - high k| ≤ 0.5 / 86400) ∧
    ∀ t, (t, 1) ∈ events → ∃ k, |t - high k| ≤ 0.5 / 86400 ∧ limit ≤ altitude (high k) := by
  obtain ⟨found, hf, hall⟩ := C67_all_culminations t0 t1 altitude orbits limit fuel fuel' events h
  have key := C116_maxima t0 t1 (0.5 / 86400) (eventStep orbits) ⟨altitude, some (eventStep orbits), none⟩ 12 fuel n low high found
    (by norm_num) rfl (eventStep_pos orbits).1 (by norm_num) hes hn hU hf
  constructor
  · intro k k1 k2 hk
    obtain ⟨e, ⟨e1, e2⟩, e3⟩ := key.each k k1 k2
    have hm : limit ≤ e.2 := by
      obtain ⟨-, -, k', g1, -, g3⟩ := key.only e e1
      have hp := (eventStep_pos orbits).1
      have hmx := le_max_left (0.5 / 86400 : ℝ) ((t1 - t0) / ((n + 3) * (n + 4)))
      have h5 : (0 : ℝ) < 0.5 / 86400 := by norm_num
      have hkk : k' = k := by
        by_contra hne
        rw [abs_le] at e2 g1
        rcases lt_or_gt_of_ne hne with c | c
        · have : high k' + 2 * (2 * eventStep orbits) ≤ high k := by
            have hle : ∀ j : ℤ, k' + 1 ≤ j → high k' + 2 * (2 * eventStep orbits) ≤ high j := by
              intro j hj
              induction j, hj using Int.le_induction with
              | base => linarith [hU.fall k', hU.rise (k' + 1)]
              | succ b hb ih => linarith [hU.fall b, hU.rise (b + 1)]
            exact hle k (by omega)
          linarith
        · have : high k + 2 * (2 * eventStep orbits) ≤ high k' := by
            have hle : ∀ j : ℤ, k + 1 ≤ j → high k + 2 * (2 * eventStep orbits) ≤ high j := by
              intro j hj
              induction j, hj using Int.le_induction with
              | base => linarith [hU.fall k, hU.rise (k + 1)]
              | succ b hb ih => linarith [hU.fall b, hU.rise (b + 1)]
            exact hle k' (by omega)
          linarith
      subst hkk
      generalize (0.5 / 86400 : ℝ) = c at *
      rcases hk with hk | hk
      · refine le_trans hk (g3 _ ?_ ?_ ?_ ?_ ?_)
        · linarith
        · linarith
        · linarith [hU.rise k']
        · linarith [hU.fall k']
        · rw [show high k' - c - high k' = -c by ring, abs_neg, abs_of_pos h5]
      · refine le_trans hk (g3 _ ?_ ?_ ?_ ?_ ?_)
        · linarith
        · linarith
        · linarith [hU.rise k']
        · linarith [hU.fall k']
        · rw [show high k' + c - high k' = c by ring, abs_of_pos h5]
    refine ⟨e.1, ⟨(hall e.1).2 ⟨e.2, e1, hm⟩, e2⟩, ?_⟩
    rintro t ⟨ht, htk⟩
    obtain ⟨v, hv, -⟩ := (hall t).1 ht
    rw [← e3 (t, v) ⟨hv, htk⟩]
  · intro t ht
    obtain ⟨v, hv, hl⟩ := (hall t).1 ht
    obtain ⟨-, -, k, g1, g2, -⟩ := key.only _ hv
    exact ⟨k, g1, le_trans hl g2⟩

/-! ### that there are such cases -/

/-- A cosine goes up and down. -/
theorem undulates_cos (lo hi P d : ℝ) (hP : 0 < P) (hd : 2 * d ≤ P) :
    Undulates lo hi d (fun t => cos (2 * π * (t / P))) (fun k => P * (k - 1 / 2)) (fun k => P * k) where
  rise := fun k => by nlinarith
  fall := fun k => by push_cast; nlinarith
  up := by
    intro k a ha b hb hab
    have hp := pi_pos
    have e : ∀ t : ℝ, cos (2 * π * (t / P)) = cos (-(2 * π * (t / P) - k * (2 * π))) := fun t => by rw [cos_neg, cos_sub_int_mul_two_pi]
    simp only
    rw [e a, e b]
    have h1 : k - 1 / 2 ≤ a / P := by rw [le_div_iff₀ hP]; linarith [ha.1.1]
    have h2 : b / P ≤ k := by rw [div_le_iff₀ hP]; linarith [hb.1.2]
    have h3 : a / P < b / P := div_lt_div_of_pos_right hab hP
    apply cos_lt_cos_of_nonneg_of_le_pi <;> nlinarith
  down := by
    intro k a ha b hb hab
    have hp := pi_pos
    have e : ∀ t : ℝ, cos (2 * π * (t / P)) = cos (2 * π * (t / P) - k * (2 * π)) := fun t => by rw [cos_sub_int_mul_two_pi]
    simp only
    rw [e a, e b]
    have h1 : k ≤ a / P := by rw [le_div_iff₀ hP]; linarith [ha.1.1]
    have h2 : b / P ≤ k + 1 / 2 := by
      have := hb.1.2
      push_cast at this
      rw [div_le_iff₀ hP]; linarith
    have h3 : a / P < b / P := div_lt_div_of_pos_right hab hP
    apply cos_lt_cos_of_nonneg_of_le_pi <;> nlinarith

/-- Non-vacuity of `C116_maxima` and `C116_minima`: a cosine of period ten days, searched with a step of two days for a hundred. -/
example : ∃ fuel found,
    findMaxima (0 : ℝ) 100 ⟨fun t => cos (2 * π * (t / 10)), some 2, none⟩ (1 / 86400) 12 fuel = .ok (some (some found)) ∧
    FindsHighs (0 - 2) (100 + 2) 0 100 (max (1 / 86400) ((100 - 0) / (((50 : ℕ) + 3) * ((50 : ℕ) + 4)))) (1 / 86400)
      (fun t => cos (2 * π * (t / 10))) (fun k => 10 * (k - 1 / 2)) (fun k => 10 * k) found := by
  obtain ⟨fuel, hr⟩ := C56_maxima_terminate (0 : ℝ) 100 (1 / 86400) 12 (by norm_num) (by norm_num) (by norm_num) 2 (by norm_num)
  obtain ⟨found, hf⟩ := hr ⟨fun t => cos (2 * π * (t / 10)), some 2, none⟩ rfl
  exact ⟨fuel, found, hf, C116_maxima 0 100 (1 / 86400) 2 _ 12 fuel 50 _ _ found (by norm_num) rfl (by norm_num) (by norm_num) (by norm_num)
    (by norm_num) (undulates_cos _ _ 10 _ (by norm_num) (by norm_num)) hf⟩

/-- Non-vacuity of `C116_minima`, for the same cosine. -/
example : ∃ fuel found,
    findMinima (0 : ℝ) 100 ⟨fun t => cos (2 * π * (t / 10)), some 2, none⟩ (1 / 86400) 12 fuel = .ok (some (some found)) ∧
    ∀ k : ℤ, 1 ≤ k → k ≤ 10 → ∃! e, e ∈ found ∧ |e.1 - 10 * ((k : ℝ) - 1 / 2)| ≤ 1 / 86400 := by
  obtain ⟨fuel, hr⟩ := C56_maxima_terminate (0 : ℝ) 100 (1 / 86400) 12 (by norm_num) (by norm_num) (by norm_num) 2 (by norm_num)
  obtain ⟨found, hf⟩ := hr ⟨fun t => -cos (2 * π * (t / 10)), some 2, none⟩ rfl
  have hm : findMinima (0 : ℝ) 100 ⟨fun t => cos (2 * π * (t / 10)), some 2, none⟩ (1 / 86400) 12 fuel =
      .ok (some (some (found.map fun p => (p.1, -p.2)))) := by
    unfold findMinima
    simp only [hf]
    rfl
  refine ⟨fuel, _, hm, fun k k1 k10 => ?_⟩
  have hk1 : (1 : ℝ) ≤ k := by exact_mod_cast k1
  have hk2 : (k : ℝ) ≤ 10 := by exact_mod_cast k10
  have hmx : max (1 / 86400) ((100 - 0 : ℝ) / (((50 : ℕ) + 3) * ((50 : ℕ) + 4))) ≤ 1 := max_le (by norm_num) (by norm_num)
  exact (C116_minima 0 100 (1 / 86400) 2 _ 12 fuel 50 _ _ _ (by norm_num) rfl (by norm_num) (by norm_num) (by norm_num)
    (by norm_num) (undulates_cos _ _ 10 _ (by norm_num) (by norm_num)) hm).1 k (by push_cast at hmx ⊢; linarith)
    (by push_cast at hmx ⊢; linarith)

/-- Non-vacuity of `C116_maxima_rough`: one hill, searched with a rough period of two days and twelve samples to a period. -/
example : ∃ found, findMaxima (0 : ℝ) 1 ⟨fun t => cos (2 * π * (t / 10)), none, some 2⟩ (1 / 6) 12 1 = .ok (some (some found)) ∧
    Undulates (0 - 2 / ((12 : ℕ) : ℝ)) (1 + 2 / ((12 : ℕ) : ℝ)) (3 * (2 / ((12 : ℕ) : ℝ))) (fun t => cos (2 * π * (t / 10)))
      (fun k => 10 * (k - 1 / 2)) (fun k => 10 * k) := by
  have h6 : astypeInt ((1 - 0 : ℝ) / (2 / ((12 : ℕ) : ℝ))) = 6 := by
    unfold astypeInt
    norm_num
  have hs : maximaSamples (0 : ℝ) 1 ⟨fun t => cos (2 * π * (t / 10)), none, some 2⟩ 12 =
      .ok (npLinspace (0 - 2 / ((12 : ℕ) : ℝ)) (1 + 2 / ((12 : ℕ) : ℝ)) 9) := by
    unfold maximaSamples
    simp only [h6]
    norm_num
    rfl
  have hr : ∃ found, maximaRound (fun t : ℝ => cos (2 * π * (t / 10))) 0 1 (1 / 6) 12
      (npLinspace (0 - 2 / ((12 : ℕ) : ℝ)) (1 + 2 / ((12 : ℕ) : ℝ)) (7 + 2)) = some (.inl found) := by
    unfold maximaRound
    simp only [npLinspace, List.range_succ_eq_map, List.map_cons]
    rw [if_pos (by norm_num)]
    exact ⟨_, rfl⟩
  obtain ⟨found, hr⟩ := hr
  refine ⟨found, ?_, undulates_cos _ _ 10 _ (by norm_num) (by norm_num)⟩
  unfold findMaxima
  rw [hs]
  simp only [maximaLoop]
  rw [hr]

/-- Non-vacuity of `C116_culminations`: a satellite going around fifteen times a day. -/
example : ∃ fuel fuel' events, findEvents (0 : ℝ) 1 (fun t => cos (2 * π * (t / (1 / 15)))) (1 / 96) 0.5 fuel fuel' = .ok (some (some events)) ∧
    ∀ k : ℤ, 1 ≤ k → k ≤ 14 → ∃! t, (t, 1) ∈ events ∧ |t - 1 / 15 * k| ≤ 0.5 / 86400 := by
  obtain ⟨fuel, fuel', hr⟩ := C67_terminates (0 : ℝ) 1 (1 / 96) (by norm_num)
  obtain ⟨events, he⟩ := hr (fun t => cos (2 * π * (t / (1 / 15)))) 0.5
  have hst : eventStep (1 / 96 : ℝ) = 1 / 300 := by
    unfold eventStep
    norm_num
  refine ⟨fuel, fuel', events, he, fun k k1 k14 => ?_⟩
  have hk1 : (1 : ℝ) ≤ k := by exact_mod_cast k1
  have hk2 : (k : ℝ) ≤ 14 := by exact_mod_cast k14
  have hmx : max (0.5 / 86400) ((1 - 0 : ℝ) / (((300 : ℕ) + 3) * ((300 : ℕ) + 4))) ≤ 1 / 100 := max_le (by norm_num) (by norm_num)
  refine (C116_culminations 0 1 _ (1 / 96) 0.5 fuel fuel' 300 _ _ events (by rw [hst]; norm_num) (by rw [hst]; norm_num)
    (undulates_cos _ _ (1 / 15) _ (by norm_num) (by rw [hst]; norm_num)) he).1 k (by push_cast at hmx ⊢; linarith)
    (by push_cast at hmx ⊢; linarith) (Or.inr ?_)
  have e : 2 * π * ((1 / 15 * (k : ℝ) + 0.5 / 86400) / (1 / 15)) = 2 * π * (7.5 / 86400) + k * (2 * π) := by ring
  rw [e, cos_add_int_mul_two_pi, show (0.5 : ℝ) = 1 / 2 by norm_num, ← cos_pi_div_three]
  exact (cos_lt_cos_of_nonneg_of_le_pi (by positivity) (by linarith [pi_pos]) (by nlinarith [pi_pos])).le

/-- The Sun in a fixed place, the Earth at the barycenter, and the Moon going around it in 29 days. -/
noncomputable def roundMoon : LunarSegments where
  barycenter := fun _ => 0
  earth := fun _ => 0
  moon := fun t => (380000 : ℝ) • ⟨cos (2 * π * (t / 29)), sin (2 * π * (t / 29)), 0⟩
  sun := fun _ => ⟨1.5e8, 0, 0⟩
  velocity := fun _ => 0

private theorem roundMoon_length (t : ℝ) : (roundMoon.moon t - roundMoon.earth t).length = 380000 := by
  have : roundMoon.moon t - roundMoon.earth t = (380000 : ℝ) • ⟨cos (2 * π * (t / 29)), sin (2 * π * (t / 29)), 0⟩ := by
    unfold roundMoon; ext <;> simp
  rw [this, Vec3.length_smul_of_nonneg (by norm_num)]
  have : (⟨cos (2 * π * (t / 29)), sin (2 * π * (t / 29)), 0⟩ : Vec3).length = 1 := by
    simp only [Vec3.length]
    rw [show cos (2 * π * (t / 29)) * cos (2 * π * (t / 29)) + sin (2 * π * (t / 29)) * sin (2 * π * (t / 29)) + 0 * 0 = 1 by
      nlinarith [cos_sq_add_sin_sq (2 * π * (t / 29))], sqrt_one]
  rw [this, mul_one]

private theorem roundSun_length (t : ℝ) : (roundMoon.sun t - roundMoon.barycenter t - roundMoon.earth t).length = 1.5e8 := by
  have : roundMoon.sun t - roundMoon.barycenter t - roundMoon.earth t = ⟨1.5e8, 0, 0⟩ := by unfold roundMoon; ext <;> simp
  rw [this]
  simp only [Vec3.length]
  rw [show (1.5e8 * 1.5e8 + 0 * 0 + 0 * 0 : ℝ) = 1.5e8 ^ 2 by norm_num, sqrt_sq (by norm_num)]

private theorem roundMoon_dot (t : ℝ) : (roundMoon.sun t - roundMoon.barycenter t - roundMoon.earth t).dot (roundMoon.moon t - roundMoon.earth t) =
    1.5e8 * 380000 * cos (2 * π * (t / 29)) := by
  unfold roundMoon
  simp [Vec3.dot]
  ring

private theorem roundMoon_angle (tiny t : ℝ) : (roundMoon.angle tiny).call t = arccos (cos (2 * π * (t / 29))) := by
  have hs := roundSun_length t
  have hm := roundMoon_length t
  have hdot := roundMoon_dot t
  have hs0 : roundMoon.sun t - roundMoon.barycenter t - roundMoon.earth t ≠ 0 := ne_zero_of_length (by rw [hs]; norm_num)
  have hm0 : roundMoon.moon t - roundMoon.earth t ≠ 0 := ne_zero_of_length (by rw [hm]; norm_num)
  have hk : (0 : ℝ) < 1 / auKm := by unfold auKm; norm_num
  unfold LunarSegments.angle sunMoonAngle
  simp only
  have hv : roundMoon.velocity t = 0 := rfl
  have ha : ∀ p : Vec3, ∀ l : ℝ, addAberration tiny p ((1 / auKm : ℝ) • roundMoon.velocity t) l = p := by
    intro p l
    have h0 : (1 / auKm : ℝ) • (0 : Vec3) = 0 := by ext <;> simp
    rw [hv, h0]
    unfold addAberration
    simp only [Vec3.length_zero]
    ext <;> simp
  rw [ha, Osculating.angleBetween_scale hk, C37_arccos _ _ hs0 hm0, hdot, hs, hm]
  congr 1
  field_simp

/-- The angle between the round Moon and its Sun goes up and down. -/
theorem undulates_roundMoon (tiny lo hi : ℝ) :
    Undulates lo hi 10 (roundMoon.angle tiny).call (fun k => 29 * (k : ℝ)) (fun k => 29 * (((k + 1 : ℤ) : ℝ) - 1 / 2)) := by
  have hc := undulates_cos lo hi 29 10 (by norm_num) (by norm_num)
  refine ⟨hc.fall, fun k => hc.rise (k + 1), ?_, ?_⟩
  · intro k a ha b hb hab
    rw [roundMoon_angle, roundMoon_angle]
    exact strictAntiOn_arccos ⟨neg_one_le_cos _, cos_le_one _⟩ ⟨neg_one_le_cos _, cos_le_one _⟩ (hc.down k ha hb hab)
  · intro k a ha b hb hab
    rw [roundMoon_angle, roundMoon_angle]
    exact strictAntiOn_arccos ⟨neg_one_le_cos _, cos_le_one _⟩ ⟨neg_one_le_cos _, cos_le_one _⟩ (hc.up (k + 1) ha hb hab)

private theorem roundMoon_eclipsed (k : ℤ) (t : ℝ) (ht : |t - 29 * (((k + 1 : ℤ) : ℝ) - 1 / 2)| ≤ 1 / 86400) :
    Skyfield.Spec.InPenumbra 6378.1366 696340 (roundMoon.sun t - roundMoon.barycenter t - roundMoon.earth t)
      (roundMoon.moon t - roundMoon.earth t) := by
  have hs := roundSun_length t
  have hm := roundMoon_length t
  have hdot := roundMoon_dot t
  have hs0 : roundMoon.sun t - roundMoon.barycenter t - roundMoon.earth t ≠ 0 := ne_zero_of_length (by rw [hs]; norm_num)
  have hm0 : -(roundMoon.moon t - roundMoon.earth t) ≠ 0 := ne_zero_of_length (by rw [length_neg', hm]; norm_num)
  rw [C48_penumbra _ _ _ _ (by norm_num) (by norm_num) (by rw [hs]; norm_num) (by rw [hm]; norm_num), C37_arccos _ _ hs0 hm0, length_neg', hs, hm]
  have e1 : (roundMoon.sun t - roundMoon.barycenter t - roundMoon.earth t).dot (-(roundMoon.moon t - roundMoon.earth t)) =
      -(1.5e8 * 380000 * cos (2 * π * (t / 29))) := by
    rw [← hdot]; simp [Vec3.dot]; ring
  rw [e1]
  set u := t - 29 * (((k + 1 : ℤ) : ℝ) - 1 / 2) with hu
  have e2 : cos (2 * π * (t / 29)) = -cos |2 * π * (u / 29)| := by
    rw [cos_abs]
    have : 2 * π * (t / 29) = 2 * π * (u / 29) - π + (k + 1 : ℤ) * (2 * π) := by
      rw [hu]; push_cast; ring
    rw [this, cos_add_int_mul_two_pi, cos_sub_pi]
  have e3 : -(1.5e8 * 380000 * cos (2 * π * (t / 29))) / (1.5e8 * 380000) = cos |2 * π * (u / 29)| := by
    rw [e2]; field_simp
  rw [e3]
  have hp := pi_pos
  have hp4 := pi_le_four
  have e4 : |2 * π * (u / 29)| ≤ 0.001 := by
    rw [abs_mul, abs_div, abs_of_pos (by positivity : 0 < 2 * π), abs_of_pos (by norm_num : (0 : ℝ) < 29)]
    have : |u| / 29 ≤ 1 / 86400 / 29 := by linarith
    have h0 : 0 ≤ |u| / 29 := by positivity
    calc 2 * π * (|u| / 29) ≤ 8 * (1 / 86400 / 29) := by apply mul_le_mul <;> linarith
      _ ≤ 0.001 := by norm_num
  rw [arccos_cos (abs_nonneg _) (by linarith [pi_gt_three])]
  have e5 : 0 ≤ arcsin ((696340 + 6378.1366) / 1.5e8) := arcsin_nonneg.2 (by norm_num)
  have e6 : 0.001 ≤ arcsin (6378.1366 / 380000) := by
    rw [le_arcsin_iff_sin_le ⟨by linarith, by linarith [pi_gt_three]⟩ ⟨by norm_num, by norm_num⟩]
    exact le_trans (sin_le (by norm_num)) (by norm_num)
  linarith

/-- Non-vacuity of `C116_lunar_eclipses`: the round Moon is eclipsed every 29 days, and in 290 days there are ten eclipses. -/
example (tiny : ℝ) : ∃ fuel eclipses, lunarEclipses tiny roundMoon 0 290 fuel = .ok (some (some eclipses)) ∧
    ∀ k : ℤ, 0 ≤ k → k < 10 → ∃! p, p ∈ eclipses ∧ |p.1 - 29 * (((k + 1 : ℤ) : ℝ) - 1 / 2)| ≤ 1 / 86400 := by
  obtain ⟨fuel, hr⟩ := C116_lunar_search_ends tiny 0 290 (by norm_num)
  obtain ⟨l, hl⟩ := hr roundMoon
  refine ⟨fuel, l, hl, fun k k0 k9 => ?_⟩
  have hd : ∀ t, UsualDistances (roundMoon.sun t - roundMoon.barycenter t - roundMoon.earth t) (roundMoon.moon t - roundMoon.earth t) :=
    fun t => ⟨by rw [roundSun_length]; norm_num, by rw [roundSun_length]; norm_num, by rw [roundMoon_length]; norm_num,
      by rw [roundMoon_length]; norm_num⟩
  have hz : ∀ v : Vec3, (v - v).length ≤ 1737.1 := by
    intro v
    rw [show v - v = 0 by ext <;> simp, Vec3.length_zero]; norm_num
  have hk0 : (0 : ℝ) ≤ k := by exact_mod_cast k0
  have hk9 : (k : ℝ) ≤ 9 := by exact_mod_cast (by omega : k ≤ 9)
  have hmx : max (1 / 86400) ((290 - 0 : ℝ) / (((58 : ℕ) + 3) * ((58 : ℕ) + 4))) ≤ 1 := max_le (by norm_num) (by norm_num)
  exact (C116_lunar_eclipses tiny roundMoon 0 290 fuel 58 _ _ l (by norm_num) (undulates_roundMoon tiny _ _) (fun t _ _ => hd t) hl).1 k
    (by push_cast at hmx ⊢; linarith) (by push_cast at hmx ⊢; linarith) fun t ht => ⟨_, hz _, roundMoon_eclipsed k t ht⟩

end Skyfield
