import Verif.Spec.Passes
import Verif.Props.LunarSearch

/-
C116: the passes of a satellite are all found.
-/
namespace Skyfield
open _root_.Spec Real

section
variable {lo hi d : ℝ} {f : ℝ → ℝ} {low high : ℤ → ℝ}

private theorem high_low (hU : Undulates lo hi d f low high) (hd : 0 < d) {j k : ℤ} (h : j < k) : high j + d ≤ low k := by
  induction k, (show j + 1 ≤ k by omega) using Int.le_induction with
  | base => exact hU.fall j
  | succ b hb ih => linarith [ih (by omega), hU.rise b, hU.fall b]

private theorem low_high (hU : Undulates lo hi d f low high) (hd : 0 < d) {j k : ℤ} (h : j ≤ k) : low j + d ≤ high k := by
  rcases eq_or_lt_of_le h with rfl | h
  · exact hU.rise j
  · linarith [high_low hU hd h, hU.rise j, hU.rise k]

private theorem low_low (hU : Undulates lo hi d f low high) (hd : 0 < d) {j k : ℤ} (h : j ≤ k) : low j ≤ low k := by
  rcases eq_or_lt_of_le h with rfl | h
  · exact le_rfl
  · linarith [high_low hU hd h, hU.rise j]

private theorem high_high (hU : Undulates lo hi d f low high) (hd : 0 < d) {j k : ℤ} (h : j < k) : high j + 2 * d ≤ high k := by
  linarith [high_low hU hd h, hU.rise k]

private theorem hill_of (hU : Undulates lo hi d f low high) (hd : 0 < d) (x : ℝ) : ∃ k, low k ≤ x ∧ x < low (k + 1) := by
  have hup : ∀ n : ℕ, low 0 + n * d ≤ low n := by
    intro n
    induction n with
    | zero => simp
    | succ n ih => push_cast; linarith [hU.rise n, hU.fall n]
  have hdown : ∀ n : ℕ, low (-(n : ℤ)) + n * d ≤ low 0 := by
    intro n
    induction n with
    | zero => simp
    | succ n ih =>
      have h1 := hU.rise (-(n : ℤ) - 1)
      have h2 := hU.fall (-(n : ℤ) - 1)
      rw [sub_add_cancel] at h2
      push_cast
      rw [show -((n : ℤ) + 1) = -(n : ℤ) - 1 by ring]
      linarith
  obtain ⟨n, hn⟩ := exists_nat_gt ((x - low 0) / d)
  obtain ⟨m, hm⟩ := exists_nat_gt ((low 0 - x) / d)
  rw [div_lt_iff₀ hd] at hn hm
  obtain ⟨k, hk, hmax⟩ := Int.exists_greatest_of_bdd (P := fun k => low k ≤ x) ⟨n, fun z hz => by
    by_contra hc
    have := low_low hU hd (show (n : ℤ) ≤ z by omega)
    linarith [hup n]⟩ ⟨-(m : ℤ), by linarith [hdown m]⟩
  refine ⟨k, hk, ?_⟩
  by_contra hc
  have := hmax (k + 1) (not_lt.1 hc)
  omega

end

/-- What the search for passes does, as far as it matters here: C67. -/
private structure Found (t0 t1 late limit : ℝ) (altitude : ℝ → ℝ) (events : List (ℝ × ℕ)) (Looks : ℝ → Prop) : Prop where
  range : ∀ e ∈ events, t0 ≤ e.1 ∧ e.1 ≤ t1 ∧ (e.2 = 0 ∨ e.2 = 1 ∨ e.2 = 2)
  rising : ∀ t, (t, 0) ∈ events → limit ≤ altitude t ∧ ∃ s, t0 ≤ s ∧ s < t ∧ t - s ≤ late ∧ altitude s < limit
  setting : ∀ t, (t, 2) ∈ events → altitude t < limit ∧ ∃ s, t0 ≤ s ∧ s < t ∧ t - s ≤ late ∧ limit ≤ altitude s
  last : ∀ x, Looks x → limit ≤ altitude x → ∀ e ∈ events, e.2 ≠ 1 → e.1 ≤ x → (∀ e' ∈ events, e'.2 ≠ 1 → e'.1 ≤ x → e'.1 ≤ e.1) → e.2 = 0
  next : ∀ x, Looks x → limit ≤ altitude x → ∀ e ∈ events, e.2 ≠ 1 → x < e.1 → (∀ e' ∈ events, e'.2 ≠ 1 → x < e'.1 → e.1 ≤ e'.1) → e.2 = 2
  crossing : ∀ x y, Looks x → Looks y → x < y → ¬(limit ≤ altitude x ↔ limit ≤ altitude y) → ∃ e ∈ events, e.2 ≠ 1 ∧ x < e.1 ∧ e.1 ≤ y
  alternate : ∀ e ∈ events, ∀ e' ∈ events, e.2 ≠ 1 → e'.2 ≠ 1 → e.1 < e'.1 →
      (∀ d ∈ events, d.2 ≠ 1 → ¬(e.1 < d.1 ∧ d.1 < e'.1)) → (e.2 = 0 ∧ e'.2 = 2) ∨ (e.2 = 2 ∧ e'.2 = 0)
  start : Looks t0
  stop : Looks t1
  culmination : ∀ c, (c, 1) ∈ events → Looks c
  middle : ∀ c c', (c, 1) ∈ events → (c', 1) ∈ events → c < c' → (∀ x, (x, 1) ∈ events → ¬(c < x ∧ x < c')) → Looks ((c + c') / 2)

section
variable {t0 t1 margin late limit step : ℝ} {altitude : ℝ → ℝ} {low high : ℤ → ℝ} {events : List (ℝ × ℕ)} {Looks : ℝ → Prop}

/-- Two of the same kind have one of the other kind between. -/
private theorem Found.another (F : Found t0 t1 late limit altitude events Looks) {e e' : ℝ} {v : ℕ} (hv : v ≠ 1) (he : (e, v) ∈ events) (he' : (e', v) ∈ events) (hlt : e < e') :
    ∃ x w, (x, w) ∈ events ∧ w ≠ 1 ∧ w ≠ v ∧ e < x ∧ x < e' := by
  obtain ⟨x, hx, hmin⟩ := Finset.exists_min_image (events.toFinset.filter fun x => x.2 ≠ 1 ∧ e < x.1) (·.1)
    ⟨(e', v), by simp [he', hv, hlt]⟩
  simp only [Finset.mem_filter, List.mem_toFinset] at hx hmin
  obtain ⟨h1, h2, h3⟩ := hx
  have hle := hmin (e', v) ⟨he', hv, hlt⟩
  have halt := F.alternate (e, v) he x h1 hv h2 h3 (fun y hy hy1 hy2 => by linarith [hmin y ⟨hy, hy1, hy2.1⟩, hy2.2])
  have hw : x.2 ≠ v := by
    simp only at halt
    omega
  refine ⟨x.1, x.2, h1, h2, hw, h3, lt_of_le_of_ne hle ?_⟩
  intro hxe
  have h4 := F.alternate (e, v) he (e', v) he' hv hv hlt (fun y hy hy1 hy2 => by
    have := hmin y ⟨hy, hy1, hy2.1⟩
    simp only at hy2
    linarith [hy2.2])
  simp only at h4
  omega

variable (F : Found t0 t1 late limit altitude events Looks)
  (hU : Undulates (t0 - step) (t1 + step) (2 * step) altitude low high) (hl : 0 < late) (hls : late ≤ step)
  (hc : ClearPasses t0 t1 margin late limit altitude high) (hcont : ContinuousOn altitude (Set.Icc t0 t1)) (hm : late ≤ margin)
include F hU hl hls hc hcont hm

/-- Around a culmination that reaches the limit the satellite is up. -/
private theorem up_around {k : ℤ} (h1 : t0 - late ≤ high k) (h2 : high k ≤ t1 + late) (h3 : limit ≤ altitude (high k)) {x : ℝ} (hx : |x - high k| ≤ late) :
    limit ≤ altitude x := by
  obtain ⟨c1, c2, c3, c4⟩ := hc.clear k h1 h2 h3
  rw [abs_le] at hx
  rcases le_total x (high k) with i | i
  · refine c3.trans ((hU.up k).monotoneOn ⟨⟨?_, ?_⟩, ?_, ?_⟩ ⟨⟨?_, i⟩, ?_, ?_⟩ ?_) <;> linarith [hU.rise k]
  · refine c4.trans ((hU.down k).antitoneOn ⟨⟨i, ?_⟩, ?_, ?_⟩ ⟨⟨?_, ?_⟩, ?_, ?_⟩ ?_) <;> linarith [hU.fall k]

private theorem rising_real {e : ℝ} (he : (e, 0) ∈ events) : ∃ r, t0 < r ∧ r < t1 ∧ ClimbsThrough limit altitude low high r ∧ r ≤ e ∧ e ≤ r + late := by
  obtain ⟨hup, s, hs0, hse, hsl, hdown⟩ := F.rising e he
  obtain ⟨-, he1, -⟩ := F.range _ he
  simp only at he1
  have hst : 0 < 2 * step := by linarith
  obtain ⟨k, hk1, hk2⟩ := hill_of hU hst e
  rcases le_or_gt e (high k) with i | i
  · -- climbing
    have hbase : ∃ a, t0 ≤ a ∧ low k ≤ a ∧ a < e ∧ e - a ≤ late ∧ altitude a < limit := by
      rcases le_or_gt (low k) s with j | j
      · exact ⟨s, hs0, j, hse, hsl, hdown⟩
      · have h4 := hU.fall (k - 1)
        rw [sub_add_cancel] at h4
        have h5 : altitude (low k) < altitude s := by
          have := hU.down (k - 1)
          rw [sub_add_cancel] at this
          refine this ⟨⟨?_, j.le⟩, ?_, ?_⟩ ⟨⟨?_, le_rfl⟩, ?_, ?_⟩ j <;> linarith
        refine ⟨low k, by linarith, le_rfl, lt_of_le_of_ne hk1 ?_, by linarith, h5.trans hdown⟩
        intro e'
        rw [e'] at h5
        linarith
    obtain ⟨a, a1, a2, a3, a4, a5⟩ := hbase
    obtain ⟨r, hr, hre⟩ := intermediate_value_Icc a3.le (hcont.mono (Set.Icc_subset_Icc a1 he1)) (show limit ∈ Set.Icc (altitude a) (altitude e) from ⟨a5.le, hup⟩)
    have har : a < r := lt_of_le_of_ne hr.1 fun e' => by rw [← e'] at hre; linarith
    have hrk : r < high k := by
      refine lt_of_le_of_ne (hr.2.trans i) fun e' => ?_
      rw [e'] at hre
      have hek : e = high k := le_antisymm i (e' ▸ hr.2)
      obtain ⟨c1, c2, c3, c4⟩ := hc.clear k (by linarith) (by linarith) hre.ge
      have := hU.up k (a := high k - late) (b := high k) ⟨⟨by linarith [hU.rise k], by linarith⟩, by linarith, by linarith⟩ ⟨⟨by linarith [hU.rise k], le_rfl⟩, by linarith, by linarith⟩ (by linarith)
      linarith
    refine ⟨r, by linarith, ?_, ⟨k, by linarith, hrk, hre⟩, hr.2, by linarith⟩
    refine lt_of_le_of_ne (hr.2.trans he1) fun e' => ?_
    rw [e'] at hre
    linarith [hc.endsDown]
  · -- sinking: not so
    exfalso
    rcases le_or_gt (high k) s with j | j
    · have := hU.down k (a := s) (b := e) ⟨⟨j, by linarith⟩, by linarith, by linarith⟩ ⟨⟨i.le, hk2.le⟩, by linarith, by linarith⟩ hse
      linarith
    · have h6 : limit ≤ altitude (high k) := by
        refine hup.trans ((hU.down k).antitoneOn (a := high k) (b := e) ⟨⟨le_rfl, ?_⟩, ?_, ?_⟩ ⟨⟨i.le, hk2.le⟩, ?_, ?_⟩ i.le) <;> linarith
      have := up_around F hU hl hls hc hcont hm (k := k) (by linarith) (by linarith) h6 (x := s) (by rw [abs_le]; constructor <;> linarith)
      linarith

private theorem setting_real {e : ℝ} (he : (e, 2) ∈ events) : ∃ s, t0 < s ∧ s < t1 ∧ SinksThrough limit altitude low high s ∧ s ≤ e ∧ e ≤ s + late := by
  obtain ⟨hdown, s, hs0, hse, hsl, hup⟩ := F.setting e he
  obtain ⟨-, he1, -⟩ := F.range _ he
  simp only at he1
  have hst : 0 < 2 * step := by linarith
  have hs0' : t0 < s := lt_of_le_of_ne hs0 fun e' => by rw [← e'] at hup; linarith [hc.startsDown]
  obtain ⟨k, hk1, hk2⟩ := hill_of hU hst s
  rcases le_or_gt (high k) s with i | i
  · have hbase : ∃ b, b ≤ t1 ∧ b ≤ low (k + 1) ∧ s < b ∧ b ≤ e ∧ altitude b < limit := by
      rcases le_or_gt e (low (k + 1)) with j | j
      · exact ⟨e, he1, j, hse, le_rfl, hdown⟩
      · have h4 := hU.rise (k + 1)
        have h5 : altitude (low (k + 1)) < altitude e := by
          refine hU.up (k + 1) ⟨⟨le_rfl, ?_⟩, ?_, ?_⟩ ⟨⟨j.le, ?_⟩, ?_, ?_⟩ j <;> linarith
        exact ⟨low (k + 1), by linarith, le_rfl, hk2, j.le, h5.trans hdown⟩
    obtain ⟨b, b1, b2, b3, b4, b5⟩ := hbase
    obtain ⟨r, hr, hre⟩ := intermediate_value_Icc' b3.le (hcont.mono (Set.Icc_subset_Icc hs0 b1)) (show limit ∈ Set.Icc (altitude b) (altitude s) from ⟨b5.le, hup⟩)
    have hrb : r < b := lt_of_le_of_ne hr.2 fun e' => by rw [e'] at hre; linarith
    have hkr : high k < r := by
      refine lt_of_le_of_ne (i.trans hr.1) fun e' => ?_
      rw [← e'] at hre
      obtain ⟨c1, c2, c3, c4⟩ := hc.clear k (by linarith [hr.1]) (by linarith) hre.ge
      have := hU.down k (a := high k) (b := high k + late) ⟨⟨le_rfl, by linarith [hU.fall k]⟩, by linarith, by linarith⟩ ⟨⟨by linarith, by linarith [hU.fall k]⟩, by linarith, by linarith⟩ (by linarith)
      linarith
    exact ⟨r, by linarith [hr.1], by linarith, ⟨k, hkr, by linarith, hre⟩, by linarith, by linarith [hr.1]⟩
  · exfalso
    rcases le_or_gt (high k) e with j | j
    · have h6 : limit ≤ altitude (high k) := by
        refine hup.trans ((hU.up k).monotoneOn (a := s) (b := high k) ⟨⟨hk1, i.le⟩, ?_, ?_⟩ ⟨⟨?_, le_rfl⟩, ?_, ?_⟩ i.le) <;> linarith
      have := up_around F hU hl hls hc hcont hm (k := k) (by linarith) (by linarith) h6 (x := e) (by rw [abs_le]; constructor <;> linarith)
      linarith
    · have := hU.up k (a := s) (b := e) ⟨⟨hk1, i.le⟩, by linarith, by linarith⟩ ⟨⟨by linarith, j.le⟩, by linarith, by linarith⟩ hse
      linarith

end

section
variable {t0 t1 margin late limit step : ℝ} {altitude : ℝ → ℝ} {low high : ℤ → ℝ} {events : List (ℝ × ℕ)} {Looks : ℝ → Prop}
variable (F : Found t0 t1 late limit altitude events Looks)
  (hU : Undulates (t0 - step) (t1 + step) (2 * step) altitude low high) (hl : 0 < late) (hls : late ≤ step)
  (hc : ClearPasses t0 t1 margin late limit altitude high) (hcont : ContinuousOn altitude (Set.Icc t0 t1)) (hm : late ≤ margin)
  (hculm : ∀ k, t0 + margin ≤ high k → high k ≤ t1 - margin → limit ≤ altitude (high k + late) → ∃! c, (c, 1) ∈ events ∧ |c - high k| ≤ late)
  (honly : ∀ c, (c, 1) ∈ events → ∃ k, |c - high k| ≤ late ∧ limit ≤ altitude (high k))
include F hU hl hls hc hcont hm hculm honly

/-- The culmination of a hill that reaches the limit is reported. -/
private theorem reported {k : ℤ} (h1 : t0 - late ≤ high k) (h2 : high k ≤ t1 + late) (h3 : limit ≤ altitude (high k)) :
    ∃ c, (c, 1) ∈ events ∧ |c - high k| ≤ late ∧ limit ≤ altitude c ∧ ∀ c', (c', 1) ∈ events → |c' - high k| ≤ late → c' = c := by
  obtain ⟨c1, c2, c3, c4⟩ := hc.clear k h1 h2 h3
  obtain ⟨c, ⟨a1, a2⟩, a3⟩ := hculm k c1 c2 c4
  exact ⟨c, a1, a2, up_around F hU hl hls hc hcont hm h1 h2 h3 a2, fun c' b1 b2 => a3 c' ⟨b1, b2⟩⟩

/-- Reported culminations of different hills, and the moment half-way between those that follow each other. -/
private theorem down_between {j k : ℤ} {c c' : ℝ} (hjk : j < k) (h : (c, 1) ∈ events) (h' : (c', 1) ∈ events) (hj : |c - high j| ≤ late) (hk : |c' - high k| ≤ late)
    (hj3 : limit ≤ altitude (high j)) (hk3 : limit ≤ altitude (high k)) (hnone : ∀ x, (x, 1) ∈ events → ¬(c < x ∧ x < c')) :
    c + 2 * late ≤ c' ∧ altitude ((c + c') / 2) < limit ∧ ∀ i, j < i → i < k → altitude (high i) < limit := by
  have hst : 0 < 2 * step := by linarith
  obtain ⟨r1, r2, -⟩ := F.range _ h
  obtain ⟨r1', r2', -⟩ := F.range _ h'
  simp only at r1 r2 r1' r2'
  have hj' := abs_le.1 hj
  have hk' := abs_le.1 hk
  obtain ⟨m1, m2, -, -⟩ := hc.clear j (by linarith) (by linarith) hj3
  obtain ⟨n1, n2, -, -⟩ := hc.clear k (by linarith) (by linarith) hk3
  have hbetween : ∀ i, j < i → i < k → altitude (high i) < limit := by
    intro i hi1 hi2
    by_contra hcon
    have g1 := high_high hU hst hi1
    have g2 := high_high hU hst hi2
    obtain ⟨x, x1, x2, -, -⟩ := reported F hU hl hls hc hcont hm hculm honly (k := i) (by linarith) (by linarith) (not_lt.1 hcon)
    rw [abs_le] at x2
    exact hnone x x1 ⟨by linarith, by linarith⟩
  refine ⟨by linarith [high_high hU hst hjk], ?_, hbetween⟩
  refine hc.between j k hjk (by linarith) (by linarith) hj3 hk3 hbetween _ ?_
  rw [abs_le]
  constructor <;> linarith

private theorem rising_found {r : ℝ} (h0 : t0 < r) (h1 : r < t1) (hr : ClimbsThrough limit altitude low high r) : ∃! e, (e, 0) ∈ events ∧ r ≤ e ∧ e ≤ r + late := by
  have hst : 0 < 2 * step := by linarith
  obtain ⟨k, k1, k2, k3⟩ := hr
  have hk1 : high k ≤ t1 := by
    by_contra hcon
    have := hU.up k (a := r) (b := t1) ⟨⟨k1.le, k2.le⟩, by linarith, by linarith⟩ ⟨⟨by linarith, by linarith⟩, by linarith, by linarith⟩ h1
    linarith [hc.endsDown]
  have hk3 : limit ≤ altitude (high k) := by
    have := hU.up k (a := r) (b := high k) ⟨⟨k1.le, k2.le⟩, by linarith, by linarith⟩ ⟨⟨by linarith, le_rfl⟩, by linarith, by linarith⟩ k2
    linarith
  obtain ⟨m1, m2, m3, m4⟩ := hc.clear k (by linarith) (by linarith) hk3
  have hr' : r ≤ high k - late := by
    by_contra hcon
    have := hU.up k (a := high k - late) (b := r) ⟨⟨by linarith [hU.rise k], by linarith⟩, by linarith, by linarith⟩ ⟨⟨k1.le, k2.le⟩, by linarith, by linarith⟩ (by linarith)
    linarith
  -- up from the climb to the culmination
  have hupto : ∀ x, r ≤ x → x ≤ high k + late → limit ≤ altitude x := by
    intro x x1 x2
    rcases le_or_gt x (high k) with i | i
    · have := (hU.up k).monotoneOn (a := r) (b := x) ⟨⟨k1.le, k2.le⟩, by linarith, by linarith⟩ ⟨⟨by linarith, i⟩, by linarith, by linarith⟩ x1
      linarith
    · exact up_around F hU hl hls hc hcont hm (by linarith) (by linarith) hk3 (by rw [abs_le]; constructor <;> linarith)
  obtain ⟨c, c1, c2, c3, c4⟩ := reported F hU hl hls hc hcont hm hculm honly (k := k) (by linarith) (by linarith) hk3
  have c2' := abs_le.1 c2
  obtain ⟨cr1, cr2, -⟩ := F.range _ c1
  simp only at cr1 cr2
  -- a moment before, when the satellite is down
  have hx : ∃ x, Looks x ∧ altitude x < limit ∧ x < r ∧ ∀ k' r', k' < k → t0 < r' → low k' < r' → r' < high k' → altitude r' = limit → ¬ (x < r' + late) := by
    by_cases hex : ∃ c', (c', 1) ∈ events ∧ c' < c
    · obtain ⟨p, hp, hmax⟩ := Finset.exists_max_image (events.toFinset.filter fun x => x.2 = 1 ∧ x.1 < c) (·.1)
        (by obtain ⟨c', h1, h2⟩ := hex; exact ⟨(c', 1), by simp [h1, h2]⟩)
      simp only [Finset.mem_filter, List.mem_toFinset] at hp hmax
      obtain ⟨hp1, hp2, hp3⟩ := hp
      obtain ⟨c', v⟩ := p
      simp only at hp2 hp3 hmax
      subst hp2
      have hnone : ∀ x, (x, 1) ∈ events → ¬(c' < x ∧ x < c) := fun x x1 x2 => by
        have := hmax (x, 1) ⟨x1, rfl, x2.2⟩
        simp only at this
        linarith [x2.1]
      obtain ⟨j, j1, j2⟩ := honly c' hp1
      have j1' := abs_le.1 j1
      obtain ⟨pr1, pr2, -⟩ := F.range _ hp1
      simp only at pr1 pr2
      have hjk : j < k := by
        rcases lt_trichotomy j k with i | i | i
        · exact i
        · subst i
          have := c4 c' hp1 j1
          linarith
        · have := high_high hU hst i
          linarith
      obtain ⟨g1, g2, g3⟩ := down_between F hU hl hls hc hcont hm hculm honly hjk hp1 c1 j1 c2 j2 hk3 hnone
      refine ⟨(c' + c) / 2, F.middle c' c hp1 c1 hp3 hnone, g2, ?_, ?_⟩
      · by_contra hcon
        have := hupto ((c' + c) / 2) (not_lt.1 hcon) (by linarith)
        linarith
      · intro k' r' i1 i2 i3 i4 i5 i6
        -- the hill climbed is one whose culmination was reported, not after c'
        have ihh : r' < t1 := by linarith [high_high hU hst i1]
        have q1 : limit ≤ altitude (high k') := by
          have := hU.up k' (a := r') (b := high k') ⟨⟨i3.le, i4.le⟩, by linarith, by linarith⟩ ⟨⟨by linarith, le_rfl⟩, by linarith, by linarith [high_high hU hst i1]⟩ i4
          linarith
        have q2 : k' ≤ j := by
          by_contra hcon
          linarith [g3 k' (by omega) i1]
        have q3 : high k' ≤ high j := by
          rcases eq_or_lt_of_le q2 with q | q
          · rw [q]
          · linarith [high_high hU hst q]
        obtain ⟨w1, w2, w3, w4⟩ := hc.clear k' (by linarith) (by linarith) q1
        have q4 : r' ≤ high k' - late := by
          by_contra hcon
          have := hU.up k' (a := high k' - late) (b := r') ⟨⟨by linarith [hU.rise k'], by linarith⟩, by linarith, by linarith⟩ ⟨⟨i3.le, i4.le⟩, by linarith, by linarith⟩ (by linarith)
          linarith
        have q5 : r' < (c' + c) / 2 := by linarith
        have := (hU.up k').monotoneOn (a := r') (b := (c' + c) / 2) ⟨⟨i3.le, i4.le⟩, by linarith, by linarith⟩ ⟨⟨by linarith, by linarith⟩, by linarith, by linarith⟩ q5.le
        linarith
    · push Not at hex
      refine ⟨t0, F.start, hc.startsDown, h0, ?_⟩
      intro k' r' i1 i2 i3 i4 i5 i6
      have hh := high_high hU hst i1
      have q1 : limit ≤ altitude (high k') := by
        have := hU.up k' (a := r') (b := high k') ⟨⟨i3.le, i4.le⟩, by linarith, by linarith⟩ ⟨⟨by linarith, le_rfl⟩, by linarith, by linarith⟩ i4
        linarith
      obtain ⟨x, x1, x2, -, -⟩ := reported F hU hl hls hc hcont hm hculm honly (k := k') (by linarith) (by linarith) q1
      rw [abs_le] at x2
      linarith [hex x x1]
  obtain ⟨x, x1, x2, x3, x4⟩ := hx
  have hrc : r ≤ c := by linarith
  obtain ⟨e0, y1, y2, y3, y4⟩ := F.crossing x c x1 (F.culmination c c1) (by linarith) (by
    intro h
    linarith [h.2 c3])
  obtain ⟨e, he, hmax⟩ := Finset.exists_max_image (events.toFinset.filter fun e => e.2 ≠ 1 ∧ e.1 ≤ c) (·.1) ⟨e0, by simp [y1, y2, y4]⟩
  simp only [Finset.mem_filter, List.mem_toFinset] at he hmax
  obtain ⟨he1, he2, he3⟩ := he
  have he0 := F.last c (F.culmination c c1) c3 e he1 he2 he3 fun e' a b c => hmax e' ⟨a, b, c⟩
  obtain ⟨e, v⟩ := e
  simp only at he0 he3 he2
  subst he0
  have hxe : x < e := lt_of_lt_of_le y3 (hmax e0 ⟨y1, y2, y4⟩)
  obtain ⟨r', s0, s1, ⟨k', s2, s3, s4⟩, s5, s6⟩ := rising_real F hU hl hls hc hcont hm he1
  have hrr : r' = r := by
    rcases lt_trichotomy k' k with i | i | i
    · exact absurd (show x < r' + late by linarith) (x4 k' r' i s0 s2 s3 s4)
    · subst i
      exact (hU.up k').injOn ⟨⟨s2.le, s3.le⟩, by linarith, by linarith⟩ ⟨⟨k1.le, k2.le⟩, by linarith, by linarith⟩ (s4.trans k3.symm)
    · linarith [high_low hU hst i]
  subst hrr
  refine ⟨e, ⟨he1, s5, s6⟩, ?_⟩
  rintro e' ⟨t1', t2', t3'⟩
  by_contra hne
  rcases lt_or_gt_of_ne hne with i | i
  · obtain ⟨z, w, z1, z2, z3, z4, z5⟩ := F.another (by norm_num) t1' he1 i
    have hw : w = 2 := by have := (F.range _ z1).2.2; simp only at this; omega
    subst hw
    linarith [(F.setting z z1).1, hupto z (by linarith) (by linarith)]
  · obtain ⟨z, w, z1, z2, z3, z4, z5⟩ := F.another (by norm_num) he1 t1' i
    have hw : w = 2 := by have := (F.range _ z1).2.2; simp only at this; omega
    subst hw
    linarith [(F.setting z z1).1, hupto z (by linarith) (by linarith)]

private theorem setting_found {s : ℝ} (h0 : t0 < s) (h1 : s < t1) (hs : SinksThrough limit altitude low high s) : ∃! e, (e, 2) ∈ events ∧ s ≤ e ∧ e ≤ s + late := by
  have hst : 0 < 2 * step := by linarith
  obtain ⟨k, k1, k2, k3⟩ := hs
  have hk1 : t0 ≤ high k := by
    by_contra hcon
    have := hU.down k (a := t0) (b := s) ⟨⟨by linarith, by linarith⟩, by linarith, by linarith⟩ ⟨⟨k1.le, k2.le⟩, by linarith, by linarith⟩ h0
    linarith [hc.startsDown]
  have hk3 : limit ≤ altitude (high k) := by
    have := hU.down k (a := high k) (b := s) ⟨⟨le_rfl, by linarith⟩, by linarith, by linarith⟩ ⟨⟨k1.le, k2.le⟩, by linarith, by linarith⟩ k1
    linarith
  obtain ⟨m1, m2, m3, m4⟩ := hc.clear k (by linarith) (by linarith) hk3
  have hs' : high k + late ≤ s := by
    by_contra hcon
    have := hU.down k (a := s) (b := high k + late) ⟨⟨k1.le, k2.le⟩, by linarith, by linarith⟩ ⟨⟨by linarith, by linarith [hU.fall k]⟩, by linarith, by linarith⟩ (by linarith)
    linarith
  -- up from the culmination to the setting
  have hupto : ∀ x, high k - late ≤ x → x ≤ s → limit ≤ altitude x := by
    intro x x1 x2
    rcases le_or_gt (high k) x with i | i
    · have := (hU.down k).antitoneOn (a := x) (b := s) ⟨⟨i, by linarith⟩, by linarith, by linarith⟩ ⟨⟨k1.le, k2.le⟩, by linarith, by linarith⟩ x2
      linarith
    · exact up_around F hU hl hls hc hcont hm (by linarith) (by linarith) hk3 (by rw [abs_le]; constructor <;> linarith)
  obtain ⟨c, c1, c2, c3, c4⟩ := reported F hU hl hls hc hcont hm hculm honly (k := k) (by linarith) (by linarith) hk3
  have c2' := abs_le.1 c2
  obtain ⟨cr1, cr2, -⟩ := F.range _ c1
  simp only at cr1 cr2
  -- a moment after, when the satellite is down
  have hy : ∃ y, Looks y ∧ altitude y < limit ∧ s < y ∧ ∀ k' s', k < k' → s' < t1 → high k' < s' → s' < low (k' + 1) → altitude s' = limit → ¬ (s' ≤ y) := by
    by_cases hex : ∃ c', (c', 1) ∈ events ∧ c < c'
    · obtain ⟨p, hp, hmin⟩ := Finset.exists_min_image (events.toFinset.filter fun x => x.2 = 1 ∧ c < x.1) (·.1)
        (by obtain ⟨c', h1, h2⟩ := hex; exact ⟨(c', 1), by simp [h1, h2]⟩)
      simp only [Finset.mem_filter, List.mem_toFinset] at hp hmin
      obtain ⟨hp1, hp2, hp3⟩ := hp
      obtain ⟨c', v⟩ := p
      simp only at hp2 hp3 hmin
      subst hp2
      have hnone : ∀ x, (x, 1) ∈ events → ¬(c < x ∧ x < c') := fun x x1 x2 => by
        have := hmin (x, 1) ⟨x1, rfl, x2.1⟩
        simp only at this
        linarith [x2.2]
      obtain ⟨j, j1, j2⟩ := honly c' hp1
      have j1' := abs_le.1 j1
      obtain ⟨pr1, pr2, -⟩ := F.range _ hp1
      simp only at pr1 pr2
      have hkj : k < j := by
        rcases lt_trichotomy j k with i | i | i
        · have := high_high hU hst i
          linarith
        · subst i
          have := c4 c' hp1 j1
          linarith
        · exact i
      obtain ⟨g1, g2, g3⟩ := down_between F hU hl hls hc hcont hm hculm honly hkj c1 hp1 c2 j1 hk3 j2 hnone
      refine ⟨(c + c') / 2, F.middle c c' c1 hp1 hp3 hnone, g2, ?_, ?_⟩
      · by_contra hcon
        have := hupto ((c + c') / 2) (by linarith) (not_lt.1 hcon)
        linarith
      · intro k' s' i1 i2 i3 i4 i5 i6
        have hh := high_high hU hst i1
        have q1 : limit ≤ altitude (high k') := by
          have := hU.down k' (a := high k') (b := s') ⟨⟨le_rfl, by linarith⟩, by linarith, by linarith⟩ ⟨⟨i3.le, i4.le⟩, by linarith, by linarith⟩ i3
          linarith
        have q2 : j ≤ k' := by
          by_contra hcon
          linarith [g3 k' i1 (by omega)]
        have q3 : high j ≤ high k' := by
          rcases eq_or_lt_of_le q2 with q | q
          · rw [q]
          · linarith [high_high hU hst q]
        linarith
    · push Not at hex
      refine ⟨t1, F.stop, hc.endsDown, h1, ?_⟩
      intro k' s' i1 i2 i3 i4 i5 i6
      have hh := high_high hU hst i1
      have q1 : limit ≤ altitude (high k') := by
        have := hU.down k' (a := high k') (b := s') ⟨⟨le_rfl, by linarith⟩, by linarith, by linarith⟩ ⟨⟨i3.le, i4.le⟩, by linarith, by linarith⟩ i3
        linarith
      obtain ⟨x, x1, x2, -, -⟩ := reported F hU hl hls hc hcont hm hculm honly (k := k') (by linarith) (by linarith) q1
      rw [abs_le] at x2
      linarith [hex x x1]
  obtain ⟨y, y1, y2, y3, y4⟩ := hy
  have hcs : c ≤ s := by linarith
  obtain ⟨e0, z1, z2, z3, z4⟩ := F.crossing c y (F.culmination c c1) y1 (by linarith) (by
    intro h
    linarith [h.1 c3])
  obtain ⟨e, he, hmin⟩ := Finset.exists_min_image (events.toFinset.filter fun e => e.2 ≠ 1 ∧ c < e.1) (·.1) ⟨e0, by simp [z1, z2, z3]⟩
  simp only [Finset.mem_filter, List.mem_toFinset] at he hmin
  obtain ⟨he1, he2, he3⟩ := he
  have he0 := F.next c (F.culmination c c1) c3 e he1 he2 he3 fun e' a b c => hmin e' ⟨a, b, c⟩
  have hye : e.1 ≤ y := (hmin e0 ⟨z1, z2, z3⟩).trans z4
  obtain ⟨e, v⟩ := e
  simp only at he0 he3 he2 hye
  subst he0
  obtain ⟨s', s0, s1, ⟨k', s2, s3, s4⟩, s5, s6⟩ := setting_real F hU hl hls hc hcont hm he1
  have hrr : s' = s := by
    rcases lt_trichotomy k' k with i | i | i
    · have := low_low hU hst (show k' + 1 ≤ k by omega)
      linarith [hU.rise k]
    · subst i
      exact (hU.down k').injOn ⟨⟨s2.le, s3.le⟩, by linarith, by linarith⟩ ⟨⟨k1.le, k2.le⟩, by linarith, by linarith⟩ (s4.trans k3.symm)
    · exact absurd (show s' ≤ y by linarith) (y4 k' s' i s1 s2 s3 s4)
  subst hrr
  -- not up again so soon
  have hsoon : ∀ z, (z, 0) ∈ events → s' < z → z ≤ s' + late → False := by
    intro z z1 z2 z3
    obtain ⟨r, r0, r1, ⟨j, r2, r3, r4⟩, r5, r6⟩ := rising_real F hU hl hls hc hcont hm z1
    have hjk : k < j := by
      by_contra hcon
      have : high j ≤ high k := by
        rcases eq_or_lt_of_le (not_lt.1 hcon) with q | q
        · rw [q]
        · linarith [high_high hU hst q]
      linarith
    have hj1 : high j ≤ t1 := by
      by_contra hcon
      have := hU.up j (a := r) (b := t1) ⟨⟨r2.le, r3.le⟩, by linarith, by linarith⟩ ⟨⟨by linarith, by linarith⟩, by linarith, by linarith⟩ r1
      linarith [hc.endsDown]
    have hj3 : limit ≤ altitude (high j) := by
      have := hU.up j (a := r) (b := high j) ⟨⟨r2.le, r3.le⟩, by linarith, by linarith⟩ ⟨⟨by linarith, le_rfl⟩, by linarith, by linarith⟩ r3
      linarith
    have hnone : ∀ i, k < i → i < j → altitude (high i) < limit := by
      intro i i1 i2
      have := high_low hU hst i2
      have := low_high hU hst (show k + 1 ≤ i by omega)
      linarith
    have hd := hc.between k j hjk hk1 hj1 hk3 hj3 hnone
    set u := (high k + high j) / 2 with hu
    have hh := high_high hU hst hjk
    -- the satellite is up from r to its culmination, so half-way is before r
    have hur : u + late < r := by
      by_contra hcon
      have h7 : u ≤ high j - late := by linarith
      have := (hU.up j).monotoneOn (a := r) (b := max r (u + late)) ⟨⟨r2.le, r3.le⟩, by linarith, by linarith⟩
        ⟨⟨le_trans r2.le (le_max_left _ _), max_le r3.le (by linarith)⟩, by linarith [le_max_left r (u + late)], by linarith [max_le r3.le (show u + late ≤ high j by linarith)]⟩ (le_max_left _ _)
      rw [max_eq_right (not_lt.1 hcon)] at this
      linarith [hd (u + late) (by rw [add_sub_cancel_left, abs_of_pos hl])]
    have hsu : s' < u - late := by
      by_contra hcon
      have := hupto (u - late) (by linarith) (not_lt.1 hcon)
      linarith [hd (u - late) (by rw [sub_sub_cancel_left, abs_neg, abs_of_pos hl])]
    linarith
  refine ⟨e, ⟨he1, s5, s6⟩, ?_⟩
  rintro e' ⟨t1', t2', t3'⟩
  by_contra hne
  rcases lt_or_gt_of_ne hne with i | i
  · obtain ⟨z, w, z1, z2, z3, z4, z5⟩ := F.another (by norm_num) t1' he1 i
    have hw : w = 0 := by have := (F.range _ z1).2.2; simp only at this; omega
    subst hw
    exact hsoon z z1 (by linarith) (by linarith)
  · obtain ⟨z, w, z1, z2, z3, z4, z5⟩ := F.another (by norm_num) he1 t1' i
    have hw : w = 0 := by have := (F.range _ z1).2.2; simp only at this; omega
    subst hw
    exact hsoon z z1 (by linarith) (by linarith)

end

private theorem neighbours_zip (z c c' : ℝ) (hcc : c < c') : ∀ (C : List ℝ) (a : ℝ), (a :: C).Pairwise (· ≤ ·) → c ∈ a :: C → c' ∈ C → (∀ x ∈ C, ¬(c < x ∧ x < c')) →
    (c, c') ∈ (a :: (C ++ [z])).zip (C ++ [z]) := by
  intro C
  induction C with
  | nil => intro a _ _ h; simp at h
  | cons b L ih =>
    intro a hp hm hm' hnone
    have hp' := List.pairwise_cons.1 hp
    have hb := List.pairwise_cons.1 hp'.2
    simp only [List.cons_append, List.zip_cons_cons, List.mem_cons]
    by_cases hcb : c ∈ b :: L
    · right
      refine ih b hp'.2 hcb ?_ fun x hx => hnone x (List.mem_cons_of_mem _ hx)
      rcases List.mem_cons.1 hm' with rfl | h
      · exfalso
        rcases List.mem_cons.1 hcb with rfl | h
        · exact lt_irrefl _ hcc
        · linarith [hb.1 c h]
      · exact h
    · left
      have hca : c = a := by
        rcases List.mem_cons.1 hm with h | h
        · exact h
        · exact absurd h hcb
      have hlt : c < b := lt_of_le_of_ne (hca ▸ hp'.1 b (by simp)) fun e => hcb (by simp [e])
      have hle : b ≤ c' := by
        rcases List.mem_cons.1 hm' with rfl | h
        · exact le_rfl
        · exact hb.1 _ h
      have : b = c' := by
        by_contra hne
        exact hnone b (by simp) ⟨hlt, lt_of_le_of_ne hle hne⟩
      rw [hca, this]

/-- **C116.** A satellite whose altitude goes continuously up and down, each time for at least a tenth of its orbit (or of a day), and whose passes
between the start and the end are clear ones: each time it climbs through the limit a rising is reported, once, at that moment or within half a second
after it; each time it sinks through the limit, a setting is; and no other risings and settings are reported. -/
theorem C116_passes (t0 t1 : ℝ) (altitude : ℝ → ℝ) (orbits limit : ℝ) (fuel fuel' n : ℕ) (low high : ℤ → ℝ) (events : List (ℝ × ℕ))
    (hn : n * eventStep orbits ≤ t1 - t0 ∧ t1 - t0 < (n + 1) * eventStep orbits) (hes : 0.5 / 86400 ≤ eventStep orbits)
    (hU : Undulates (t0 - eventStep orbits) (t1 + eventStep orbits) (2 * eventStep orbits) altitude low high)
    (hcont : ContinuousOn altitude (Set.Icc t0 t1))
    (hclear : ClearPasses t0 t1 (max (0.5 / 86400) ((t1 - t0) / ((n + 3) * (n + 4)))) (0.5 / 86400) limit altitude high)
    (h : findEvents t0 t1 altitude orbits limit fuel fuel' = .ok (some (some events))) :
    (∀ r, t0 < r → r < t1 → ClimbsThrough limit altitude low high r → ∃! e, (e, 0) ∈ events ∧ r ≤ e ∧ e ≤ r + 0.5 / 86400) ∧
    (∀ s, t0 < s → s < t1 → SinksThrough limit altitude low high s → ∃! e, (e, 2) ∈ events ∧ s ≤ e ∧ e ≤ s + 0.5 / 86400) ∧
    (∀ e, (e, 0) ∈ events → ∃ r, t0 < r ∧ r < t1 ∧ ClimbsThrough limit altitude low high r ∧ r ≤ e ∧ e ≤ r + 0.5 / 86400) ∧
    ∀ e, (e, 2) ∈ events → ∃ s, t0 < s ∧ s < t1 ∧ SinksThrough limit altitude low high s ∧ s ≤ e ∧ e ≤ s + 0.5 / 86400 := by
  obtain ⟨hsorted, hrange⟩ := C67_in_order t0 t1 altitude orbits limit fuel fuel' events h
  have hmemc : ∀ c, (c, 1) ∈ events ↔ c ∈ (events.filter fun e => e.2 = 1).map (·.1) := by
    intro c
    simp
  have F : Found t0 t1 (0.5 / 86400) limit altitude events (LooksAt t0 t1 ((events.filter fun e => e.2 = 1).map (·.1))) :=
    { range := hrange
      rising := C67_rising t0 t1 altitude orbits limit fuel fuel' events h
      setting := C67_setting t0 t1 altitude orbits limit fuel fuel' events h
      last := fun x hx hup e h1 h2 h3 h4 => ((C67_story t0 t1 altitude orbits limit fuel fuel' events h x hx).1 e h1 h2 h3 h4).2 hup
      next := fun x hx hup e h1 h2 h3 h4 => ((C67_story t0 t1 altitude orbits limit fuel fuel' events h x hx).2.2.1 e h1 h2 h3 h4).2 hup
      crossing := C67_no_crossing_missed t0 t1 altitude orbits limit fuel fuel' events h
      alternate := (C67_alternate t0 t1 altitude orbits limit fuel fuel' events h).1
      start := Or.inl rfl
      stop := Or.inr (Or.inl rfl)
      culmination := fun c hc => Or.inr (Or.inr (Or.inl ((hmemc c).1 hc)))
      middle := fun c c' hc hc' hlt hnone => by
        refine Or.inr (Or.inr (Or.inr ⟨(c, c'), ?_, rfl⟩))
        refine neighbours_zip t1 c c' hlt _ t0 ?_ (List.mem_cons_of_mem _ ((hmemc c).1 hc)) ((hmemc c').1 hc') fun x hx => hnone x ((hmemc x).2 hx)
        rw [List.pairwise_cons]
        constructor
        · intro x hx
          exact (hrange _ ((hmemc x).2 hx)).1
        · rw [List.pairwise_map]
          exact hsorted.sublist List.filter_sublist }
  obtain ⟨hculm, honly⟩ := C116_culminations t0 t1 altitude orbits limit fuel fuel' n low high events hn hes hU h
  have hpos : (0 : ℝ) < 0.5 / 86400 := by norm_num
  have hculm' : ∀ k, t0 + max (0.5 / 86400) ((t1 - t0) / ((n + 3) * (n + 4))) ≤ high k →
      high k ≤ t1 - max (0.5 / 86400) ((t1 - t0) / ((n + 3) * (n + 4))) → limit ≤ altitude (high k + 0.5 / 86400) →
      ∃! c, (c, 1) ∈ events ∧ |c - high k| ≤ 0.5 / 86400 := fun k a b c => hculm k a b (Or.inr c)
  exact ⟨fun r a b c => rising_found F hU hpos hes hclear hcont (le_max_left _ _) hculm' honly a b c,
    fun s a b c => setting_found F hU hpos hes hclear hcont (le_max_left _ _) hculm' honly a b c,
    fun e a => rising_real F hU hpos hes hclear hcont (le_max_left _ _) a,
    fun e a => setting_real F hU hpos hes hclear hcont (le_max_left _ _) a⟩

/-- Non-vacuity of `C116_passes`: a satellite going around fifteen times a day, from the low before one culmination to the low after the next; it is up
for a third of each orbit. -/
example : ∃ fuel fuel' events, findEvents (-1 / 30 : ℝ) (1 / 10) (fun t => cos (2 * π * (t / (1 / 15)))) (1 / 96) 0.5 fuel fuel' = .ok (some (some events)) ∧
    (∃! e, (e, 0) ∈ events ∧ -1 / 90 ≤ e ∧ e ≤ -1 / 90 + 0.5 / 86400) ∧
    (∃! e, (e, 2) ∈ events ∧ 1 / 90 ≤ e ∧ e ≤ 1 / 90 + 0.5 / 86400) := by
  obtain ⟨fuel, fuel', hr⟩ := C67_terminates (-1 / 30 : ℝ) (1 / 10) (1 / 96) (by norm_num)
  obtain ⟨events, he⟩ := hr (fun t => cos (2 * π * (t / (1 / 15)))) 0.5
  have hst : eventStep (1 / 96 : ℝ) = 1 / 300 := by
    unfold eventStep
    norm_num
  have hp := pi_pos
  have hU := undulates_cos (-1 / 30 - eventStep (1 / 96)) (1 / 10 + eventStep (1 / 96)) (1 / 15) (2 * eventStep (1 / 96)) (by norm_num) (by rw [hst]; norm_num)
  have hup : ∀ (k : ℤ) (t : ℝ), |t - 1 / 15 * k| ≤ 1 / 90 → 0.5 ≤ cos (2 * π * (t / (1 / 15))) := by
    intro k t ht
    have e : 2 * π * (t / (1 / 15)) = 30 * π * (t - 1 / 15 * k) + k * (2 * π) := by ring
    rw [e, cos_add_int_mul_two_pi, ← cos_abs, abs_mul, abs_of_pos (by positivity), show (0.5 : ℝ) = 1 / 2 by norm_num, ← cos_pi_div_three]
    apply cos_le_cos_of_nonneg_of_le_pi (by positivity) (by linarith)
    nlinarith
  have hdown : ∀ (k : ℤ) (t : ℝ), |t - 1 / 15 * k - 1 / 30| ≤ 1 / 60 → cos (2 * π * (t / (1 / 15))) < 0.5 := by
    intro k t ht
    have e : 2 * π * (t / (1 / 15)) = 30 * π * (t - 1 / 15 * k - 1 / 30) + π + k * (2 * π) := by ring
    rw [e, cos_add_int_mul_two_pi, cos_add_pi, ← cos_abs, abs_mul, abs_of_pos (by positivity)]
    have : 0 ≤ cos (30 * π * |t - 1 / 15 * k - 1 / 30|) := by
      apply cos_nonneg_of_neg_pi_div_two_le_of_le
      · have : 0 ≤ 30 * π * |t - 1 / 15 * (k : ℝ) - 1 / 30| := by positivity
        linarith
      · nlinarith
    linarith
  have hmx : max (0.5 / 86400) ((1 / 10 - -1 / 30 : ℝ) / (((40 : ℕ) + 3) * ((40 : ℕ) + 4))) ≤ 1 / 1000 := max_le (by norm_num) (by norm_num)
  have hclear : ClearPasses (-1 / 30) (1 / 10) (max (0.5 / 86400) ((1 / 10 - -1 / 30 : ℝ) / (((40 : ℕ) + 3) * ((40 : ℕ) + 4)))) (0.5 / 86400) 0.5
      (fun t => cos (2 * π * (t / (1 / 15)))) (fun k => 1 / 15 * (k : ℝ)) :=
    { startsDown := hdown (-1) _ (by norm_num)
      endsDown := hdown 1 _ (by norm_num)
      clear := by
        intro k k1 k2 _
        have h0 : 0 ≤ k := by
          by_contra hcon
          have : (k : ℝ) ≤ -1 := by exact_mod_cast (by omega : k ≤ -1)
          linarith
        have h1 : k ≤ 1 := by
          by_contra hcon
          have : (2 : ℝ) ≤ k := by exact_mod_cast (by omega : 2 ≤ k)
          linarith
        have h0' : (0 : ℝ) ≤ k := by exact_mod_cast h0
        have h1' : (k : ℝ) ≤ 1 := by exact_mod_cast h1
        refine ⟨by linarith, by linarith, hup k _ ?_, hup k _ ?_⟩
        · rw [sub_sub_cancel_left, abs_neg]; norm_num
        · rw [add_sub_cancel_left]; norm_num
      between := by
        intro j k hjk j1 k1 _ _ _ u hu
        have h0 : (0 : ℝ) ≤ j := by
          have : 0 ≤ j := by
            by_contra hcon
            have : (j : ℝ) ≤ -1 := by exact_mod_cast (by omega : j ≤ -1)
            linarith
          exact_mod_cast this
        have h1 : (k : ℝ) ≤ 1 := by
          have : k ≤ 1 := by
            by_contra hcon
            have : (2 : ℝ) ≤ k := by exact_mod_cast (by omega : 2 ≤ k)
            linarith
          exact_mod_cast this
        have hjk' : (j : ℝ) + 1 ≤ k := by exact_mod_cast hjk
        refine hdown 0 u ?_
        rw [abs_le] at hu ⊢
        push_cast
        constructor <;> linarith [hu.1, hu.2] }
  refine ⟨fuel, fuel', events, he, ?_⟩
  obtain ⟨h1, h2, -, -⟩ := C116_passes (-1 / 30) (1 / 10) _ (1 / 96) 0.5 fuel fuel' 40 _ _ events (by rw [hst]; norm_num) (by rw [hst]; norm_num) hU
    (by fun_prop) hclear he
  have hthird : cos (π / 3) = 0.5 := by rw [cos_pi_div_three]; norm_num
  constructor
  · refine h1 (-1 / 90) (by norm_num) (by norm_num) ⟨0, by norm_num, by norm_num, ?_⟩
    rw [← hthird, ← cos_neg]
    congr 1
    ring
  · refine h2 (1 / 90) (by norm_num) (by norm_num) ⟨0, by norm_num, by norm_num, ?_⟩
    rw [← hthird]
    congr 1
    ring

end Skyfield
