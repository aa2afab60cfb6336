import Verif.Lemmas.FloatTime
import Verif.Props.Utc

/-
C81: what floating point rounding does to times.  Specification of rounding in `Spec/Floats.lean`,
of UTC in `Spec/Utc.lean`.  `fl` is any rounding to nearest of 53-bit significands, applied at
every operation of the code; every theorem is compared with the exact arithmetic of C05 and C09.
-/
namespace Skyfield
open Spec

variable {fl : ℚ → ℚ}

/-- C81 (rounding).  What rounding to nearest gives: a relative error of at most 2⁻⁵³, no error on
floats, order and sign kept.  And such a rounding exists. -/
theorem C81_rounding :
    (∃ fl : ℚ → ℚ, RoundsToNearest fl) ∧
    ∀ fl, RoundsToNearest fl →
      (∀ x, |fl x - x| ≤ |x| / 2 ^ 53) ∧ (∀ x, IsFloat x → fl x = x) ∧
      (∀ x y, x ≤ y → fl x ≤ fl y) ∧ (∀ x, fl x < 0 ↔ x < 0) ∧ (∀ x, fl x = 0 ↔ x = 0) ∧
      (∀ n : ℤ, |n| ≤ 2 ^ 53 → fl n = n) :=
  ⟨exists_rounding, fun _ hf => ⟨fl_rel hf, fun _ h => fl_exact hf h, fun _ _ h => fl_mono hf h,
    fun _ => fl_neg_iff hf, fun _ => fl_eq_zero_iff hf, fun _ h => fl_int hf h⟩⟩

/-- A half-integer that is not too large: what every constructor but `tt_jd(jd, fraction)` and its
like stores as the whole part of a time. -/
def WholePart (w : ℚ) : Prop := ∃ n : ℤ, |n| ≤ 3 * 10 ^ 9 ∧ w = n / 2

/-- C81 (UTC to TAI and TT).  The TAI that `ts.utc()` stores is within 3·10⁻¹¹ seconds of the
instant that the calendar fields denote, and the TT it stores within 5·10⁻¹¹ seconds of that
instant plus 32.184 seconds — on every day within 10⁹ days of Julian date 0, and whatever leap
second table of moderate size is used. -/
theorem C81_utc_instant (hf : RoundsToNearest fl) {ts : Timescale ℚ} {L : List ℤ} {b : ℤ}
    (h : IsLeapTable ts L b) (hL : |b| + L.length ≤ 10 ^ 6) (hc : GoodCutoff ts.cutoff)
    {y m d D : ℤ} (hd : CivilDate ts.cutoff y m d D) (hD : |D| ≤ 10 ^ 9) {hh mi : ℤ} {s : ℚ}
    (hv : ValidUtc L D hh mi s) :
    ∃ t f, ts.utcF fl y m d hh mi s = some t ∧ t.taiFraction? = some f ∧ WholePart t.whole ∧
      0 ≤ f ∧ f ≤ 1 ∧
      |(t.whole + f) * 86400 - taiOf L b D hh mi s| ≤ 3 / 10 ^ 11 ∧
      |(t.whole + t.ttFraction) * 86400 - (taiOf L b D hh mi s + 32.184)| ≤ 5 / 10 ^ 11 := by
  have hJ := C03_civil_date_to_jd _ hc _ _ _ _ hd
  obtain ⟨v1, v2, v3, v4, v5, v6⟩ := hv
  have v7 : s ≤ 61 := by
    rcases v6 with v | ⟨_, _, v, _⟩ <;> linarith
  obtain ⟨N, hN, e⟩ := utcF_eq hf h y m d (by rw [hJ]; exact hD) hL v1 v2 v3 v4 v5 v7
  rw [hJ, ← taiMinusUtc_eq_cnt] at hN
  have hT : taiOf L b D hh mi s = (N:ℚ) - (⌊moreF fl hh mi s⌋ : ℚ) + (((3600 * hh + 60 * mi : ℤ) : ℚ) + s) := by
    rw [hN]; unfold taiOf midnight; push_cast; ring
  have q1 : (0:ℚ) ≤ ((3600 * hh + 60 * mi : ℤ) : ℚ) := by exact_mod_cast (by omega)
  have q2 : ((3600 * hh + 60 * mi : ℤ) : ℚ) ≤ 86340 := by exact_mod_cast (by omega)
  have em := fl_err hf (x := ((3600 * hh + 60 * mi : ℤ) : ℚ) + s) (B := 86401)
    (abs_le.2 ⟨by linarith, by linarith⟩)
  change |moreF fl hh mi s - _| ≤ _ at em
  have m0 : 0 ≤ moreF fl hh mi s := fl_nonneg hf (by linarith)
  have m1 : moreF fl hh mi s ≤ 86401 :=
    fl_le hf (by linarith) (by exact_mod_cast isFloat_int (n := 86401) (by norm_num))
  have g0 : 0 ≤ ⌊moreF fl hh mi s⌋ := Int.floor_nonneg.2 m0
  have g1 : ⌊moreF fl hh mi s⌋ ≤ 86401 := by
    have := Int.floor_le_floor m1
    have e : ⌊(86401:ℚ)⌋ = 86401 := by norm_num
    omega
  have f0 := Int.floor_le (moreF fl hh mi s)
  have f1 := Int.lt_floor_add_one (moreF fl hh mi s)
  generalize moreF fl hh mi s = M at *
  have r0 : (0:ℚ) ≤ ((N % 86400 : ℤ) : ℚ) := by exact_mod_cast (by omega)
  have r1 : ((N % 86400 : ℤ) : ℚ) ≤ 86399 := by exact_mod_cast (by omega)
  have hdm : (N:ℚ) = 86400 * ((N / 86400 : ℤ) : ℚ) + ((N % 86400 : ℤ) : ℚ) := by
    exact_mod_cast (Int.mul_ediv_add_emod N 86400).symm
  have ea := fl_err hf (x := ((N % 86400 : ℤ) : ℚ) + (M - ⌊M⌋)) (B := 86400)
    (abs_le.2 ⟨by linarith, by linarith⟩)
  have a0 : 0 ≤ fl (((N % 86400 : ℤ) : ℚ) + (M - ⌊M⌋)) := fl_nonneg hf (by linarith)
  have a1 : fl (((N % 86400 : ℤ) : ℚ) + (M - ⌊M⌋)) ≤ 86400 :=
    fl_le hf (by linarith) (by exact_mod_cast isFloat_int (n := 86400) (by norm_num))
  generalize fl (((N % 86400 : ℤ) : ℚ) + (M - ⌊M⌋)) = A at *
  have eb := fl_err hf (x := A / 86400) (B := 1)
    (abs_le.2 ⟨by linarith [div_nonneg a0 (by norm_num : (0:ℚ) ≤ 86400)],
      by rw [div_le_one (by norm_num)]; exact a1⟩)
  have b0 : 0 ≤ fl (A / 86400) := fl_nonneg hf (by positivity)
  have b1 : fl (A / 86400) ≤ 1 :=
    fl_le hf (by rw [div_le_one (by norm_num)]; exact a1)
      (by exact_mod_cast isFloat_int (n := 1) (by norm_num))
  generalize hB : fl (A / 86400) = B at *
  have ec1 := fl_err hf (x := 32184 / 1000) (B := 33) (by norm_num [abs_le])
  have ec1' := abs_le.1 ec1
  have ec2 := fl_err hf (x := fl (32184 / 1000) / 86400) (B := 1 / 1000)
    (abs_le.2 ⟨by rw [le_div_iff₀ (by norm_num)]; norm_num at ec1' ⊢; linarith [ec1'.1],
      by rw [div_le_iff₀ (by norm_num)]; norm_num at ec1' ⊢; linarith [ec1'.2]⟩)
  change |ttMinusTaiF fl - _| ≤ _ at ec2
  have ec2' := abs_le.1 ec2
  have c0 : 0 ≤ ttMinusTaiF fl := fl_nonneg hf (div_nonneg (fl_nonneg hf (by norm_num)) (by norm_num))
  have c1 : ttMinusTaiF fl ≤ 1 := by
    norm_num at ec1' ec2' ⊢; linarith [ec1'.2, ec2'.2]
  have ed := fl_err hf (x := B + ttMinusTaiF fl) (B := 2) (abs_le.2 ⟨by linarith, by linarith⟩)
  generalize ttMinusTaiF fl = C at *
  generalize fl (32184 / 1000) = C0 at *
  refine ⟨_, B, e, rfl, ⟨2 * (N / 86400), ?_, by push_cast; ring⟩, b0, b1, ?_, ?_⟩
  · have k1 : 0 ≤ ((L.filter (· ≤ D)).length : ℤ) := by positivity
    have k2 : ((L.filter (· ≤ D)).length : ℤ) ≤ L.length := by
      exact_mod_cast List.length_filter_le _ _
    have k3 := abs_le.1 (show |b| ≤ |b| from le_rfl)
    have k4 := abs_le.1 hD
    unfold taiMinusUtc midnight at hN
    rw [abs_le]
    omega
  · rw [hT]
    generalize ((3600 * hh + 60 * mi : ℤ) : ℚ) = P at *
    generalize ((N / 86400 : ℤ) : ℚ) = W at *
    generalize ((N % 86400 : ℤ) : ℚ) = R at *
    generalize ((⌊M⌋ : ℤ) : ℚ) = Q at *
    rw [abs_le] at em ea eb ⊢
    norm_num at em ea eb ⊢
    constructor
    · linarith [em.1, em.2, ea.1, ea.2, eb.1, eb.2]
    · linarith [em.1, em.2, ea.1, ea.2, eb.1, eb.2]
  · rw [hT]
    generalize ((3600 * hh + 60 * mi : ℤ) : ℚ) = P at *
    generalize ((N / 86400 : ℤ) : ℚ) = W at *
    generalize ((N % 86400 : ℤ) : ℚ) = R at *
    generalize ((⌊M⌋ : ℤ) : ℚ) = Q at *
    generalize fl (B + C) = E at *
    rw [abs_le] at em ea eb ed ec1 ec2 ⊢
    norm_num at em ea eb ed ec1 ec2 ⊢
    constructor
    · linarith [em.1, em.2, ea.1, ea.2, eb.1, eb.2, ec1.1, ec1.2, ec2.1, ec2.2, ed.1, ed.2]
    · linarith [em.1, em.2, ea.1, ea.2, eb.1, eb.2, ec1.1, ec1.2, ec2.1, ec2.2, ed.1, ed.2]

/-- C81 (UTC read back, exact).  If the seconds since midnight are a float — so for every whole
second, every half second, every multiple of 2⁻³⁶ seconds — then `ts.utc(…)` followed by `.utc`
returns exactly the fields that were given: no rounding at all. -/
theorem C81_utc_roundtrip (hf : RoundsToNearest fl) {ts : Timescale ℚ} {L : List ℤ} {b : ℤ}
    (h : IsLeapTable ts L b) (hL : |b| + L.length ≤ 10 ^ 6) (hc : GoodCutoff ts.cutoff)
    {y m d D : ℤ} (hd : CivilDate ts.cutoff y m d D) (hD : |D| ≤ 10 ^ 9) {hh mi : ℤ} {s : ℚ}
    (hv : ValidUtc L D hh mi s) (hs : IsFloat s)
    (hx : IsFloat (((3600 * hh + 60 * mi : ℤ) : ℚ) + s)) :
    (ts.utcF fl y m d hh mi s).bind (·.utcTupleF fl 0) = some ⟨y, m, d, hh, mi, s, D⟩ := by
  have hJ := C03_civil_date_to_jd _ hc _ _ _ _ hd
  have hv' := hv
  obtain ⟨v1, v2, v3, v4, v5, v6⟩ := hv
  have v7 : s ≤ 61 := by
    rcases v6 with v | ⟨_, _, v, _⟩ <;> linarith
  obtain ⟨N, hN, e⟩ := utcF_eq hf h y m d (by rw [hJ]; exact hD) hL v1 v2 v3 v4 v5 v7
  have hM : moreF fl hh mi s = ((3600 * hh + 60 * mi : ℤ) : ℚ) + s := fl_exact hf hx
  rw [hM] at hN e
  rw [hJ, ← taiMinusUtc_eq_cnt] at hN
  have hT : taiOf L b D hh mi s = (N:ℚ) + ((((3600 * hh + 60 * mi : ℤ) : ℚ) + s)
      - (⌊((3600 * hh + 60 * mi : ℤ) : ℚ) + s⌋ : ℚ)) := by
    rw [hN]; unfold taiOf midnight; push_cast; ring
  have q1 : (0:ℚ) ≤ ((3600 * hh + 60 * mi : ℤ) : ℚ) := by exact_mod_cast (by omega)
  have q2 : ((3600 * hh + 60 * mi : ℤ) : ℚ) ≤ 86340 := by exact_mod_cast (by omega)
  have m0 : 0 ≤ ((3600 * hh + 60 * mi : ℤ) : ℚ) + s := by linarith
  have m1 : ((3600 * hh + 60 * mi : ℤ) : ℚ) + s ≤ 86401 := by linarith
  have g0 := Int.floor_nonneg.2 m0
  have g1 : ⌊((3600 * hh + 60 * mi : ℤ) : ℚ) + s⌋ ≤ 86401 := by
    have := Int.floor_le_floor m1
    have e : ⌊(86401:ℚ)⌋ = 86401 := by norm_num
    omega
  have f0 := Int.floor_le (((3600 * hh + 60 * mi : ℤ) : ℚ) + s)
  have f1 := Int.lt_floor_add_one (((3600 * hh + 60 * mi : ℤ) : ℚ) + s)
  have ff := isFloat_fract hx m0
  generalize ((3600 * hh + 60 * mi : ℤ) : ℚ) + s = M at *
  have ffl : ⌊M - (⌊M⌋ : ℚ)⌋ = 0 := by rw [Int.floor_eq_iff]; constructor <;> push_cast <;> linarith
  have k1 : 0 ≤ ((L.filter (· ≤ D)).length : ℤ) := by positivity
  have k2 : ((L.filter (· ≤ D)).length : ℤ) ≤ L.length := by
    exact_mod_cast List.length_filter_le _ _
  have k3 := abs_le.1 (show |b| ≤ |b| from le_rfl)
  have k4 := abs_le.1 hD
  have hNb : |N| ≤ 10 ^ 15 := by
    unfold taiMinusUtc midnight at hN
    rw [abs_le]
    omega
  rw [e, Option.bind_some]
  generalize hB : fl (fl (((N % 86400 : ℤ) : ℚ) + (M - (⌊M⌋ : ℚ))) / 86400) = B
  obtain ⟨r, sec, r1, r2, r3, r4, r5⟩ := utcTupleF_spec hf
    { ts := ts, whole := ((N / 86400 : ℤ) : ℚ), ttFraction := fl (B + ttMinusTaiF fl),
      taiFraction? := some B, taiSeconds? := some ((N:ℚ), M - (⌊M⌋ : ℚ)) }
    h hL (n := N) (fr := M - (⌊M⌋ : ℚ)) rfl hNb (by linarith) (by linarith) ff
  rw [r1]
  rw [ffl, Int.cast_zero, sub_zero] at r2
  rw [ffl, add_zero] at r4
  have r6 : taiOf L b r.jd r.hour r.minute ((sec:ℚ) + (M - (⌊M⌋ : ℚ))) = taiOf L b D hh mi s := by
    rw [hT, ← r4]; unfold taiOf; ring
  have r7 : ValidUtc L r.jd r.hour r.minute ((sec:ℚ) + (M - (⌊M⌋ : ℚ))) := by
    obtain ⟨w1, w2, w3, w4, w5, w6⟩ := r3
    refine ⟨w1, w2, w3, w4, by linarith, ?_⟩
    rcases w6 with w | ⟨w, w', w'', w'''⟩
    · left
      have : (sec:ℚ) ≤ 59 := by
        have : sec < 60 := by exact_mod_cast w
        exact_mod_cast (by omega : sec ≤ 59)
      linarith
    · right
      refine ⟨w, w', ?_, w'''⟩
      have : (sec:ℚ) ≤ 60 := by
        have : sec < 61 := by exact_mod_cast w''
        exact_mod_cast (by omega : sec ≤ 60)
      linarith
  obtain ⟨e1, e2, e3, e4⟩ := taiOf_inj r7 hv' r6
  rw [e4, fl_exact hf hs] at r2
  simp only at r5
  rw [e1, (C03_reads_civil_date _ _ _ _ _).2 hd] at r5
  obtain ⟨_, _, _, _, _, _, _⟩ := r
  simp_all

/-- C81 (UTC read back, any fraction).  With any fraction of a second, the fields that are read
back denote an instant within 10⁻¹¹ seconds of the one that was given.  (They need not be the same
fields: 23:59:59.999999999999 may come back as midnight.) -/
theorem C81_utc_readback (hf : RoundsToNearest fl) {ts : Timescale ℚ} {L : List ℤ} {b : ℤ}
    (h : IsLeapTable ts L b) (hL : |b| + L.length ≤ 10 ^ 6) (hc : GoodCutoff ts.cutoff)
    {y m d D : ℤ} (hd : CivilDate ts.cutoff y m d D) (hD : |D| ≤ 10 ^ 9) {hh mi : ℤ} {s : ℚ}
    (hv : ValidUtc L D hh mi s) :
    ∃ r, (ts.utcF fl y m d hh mi s).bind (·.utcTupleF fl 0) = some r ∧
      CivilDate ts.cutoff r.year r.month r.day r.jd ∧
      0 ≤ r.hour ∧ r.hour ≤ 23 ∧ 0 ≤ r.minute ∧ r.minute ≤ 59 ∧ 0 ≤ r.second ∧ r.second ≤ 61 ∧
      |taiOf L b r.jd r.hour r.minute r.second - taiOf L b D hh mi s| ≤ 1 / 10 ^ 11 := by
  have hJ := C03_civil_date_to_jd _ hc _ _ _ _ hd
  obtain ⟨v1, v2, v3, v4, v5, v6⟩ := hv
  have v7 : s ≤ 61 := by
    rcases v6 with v | ⟨_, _, v, _⟩ <;> linarith
  obtain ⟨N, hN, e⟩ := utcF_eq hf h y m d (by rw [hJ]; exact hD) hL v1 v2 v3 v4 v5 v7
  rw [hJ, ← taiMinusUtc_eq_cnt] at hN
  have hT : taiOf L b D hh mi s = (N:ℚ) - (⌊moreF fl hh mi s⌋ : ℚ) + (((3600 * hh + 60 * mi : ℤ) : ℚ) + s) := by
    rw [hN]; unfold taiOf midnight; push_cast; ring
  have q1 : (0:ℚ) ≤ ((3600 * hh + 60 * mi : ℤ) : ℚ) := by exact_mod_cast (by omega)
  have q2 : ((3600 * hh + 60 * mi : ℤ) : ℚ) ≤ 86340 := by exact_mod_cast (by omega)
  have em := fl_err hf (x := ((3600 * hh + 60 * mi : ℤ) : ℚ) + s) (B := 86401)
    (abs_le.2 ⟨by linarith, by linarith⟩)
  change |moreF fl hh mi s - _| ≤ _ at em
  have m0 : 0 ≤ moreF fl hh mi s := fl_nonneg hf (by linarith)
  have m1 : moreF fl hh mi s ≤ 86401 :=
    fl_le hf (by linarith) (by exact_mod_cast isFloat_int (n := 86401) (by norm_num))
  have g0 : 0 ≤ ⌊moreF fl hh mi s⌋ := Int.floor_nonneg.2 m0
  have g1 : ⌊moreF fl hh mi s⌋ ≤ 86401 := by
    have := Int.floor_le_floor m1
    have e : ⌊(86401:ℚ)⌋ = 86401 := by norm_num
    omega
  have f0 := Int.floor_le (moreF fl hh mi s)
  have f1 := Int.lt_floor_add_one (moreF fl hh mi s)
  have ff : IsFloat (moreF fl hh mi s - (⌊moreF fl hh mi s⌋ : ℚ)) := isFloat_fract (hf.float _) m0
  generalize moreF fl hh mi s = M at *
  have ffl : ⌊M - (⌊M⌋ : ℚ)⌋ = 0 := by rw [Int.floor_eq_iff]; constructor <;> push_cast <;> linarith
  have k1 : 0 ≤ ((L.filter (· ≤ D)).length : ℤ) := by positivity
  have k2 : ((L.filter (· ≤ D)).length : ℤ) ≤ L.length := by
    exact_mod_cast List.length_filter_le _ _
  have k3 := abs_le.1 (show |b| ≤ |b| from le_rfl)
  have k4 := abs_le.1 hD
  have hNb : |N| ≤ 10 ^ 15 := by
    unfold taiMinusUtc midnight at hN
    rw [abs_le]
    omega
  rw [e, Option.bind_some]
  generalize hB : fl (fl (((N % 86400 : ℤ) : ℚ) + (M - (⌊M⌋ : ℚ))) / 86400) = B
  obtain ⟨r, sec, r1, r2, r3, r4, r5⟩ := utcTupleF_spec hf
    { ts := ts, whole := ((N / 86400 : ℤ) : ℚ), ttFraction := fl (B + ttMinusTaiF fl),
      taiFraction? := some B, taiSeconds? := some ((N:ℚ), M - (⌊M⌋ : ℚ)) }
    h hL (n := N) (fr := M - (⌊M⌋ : ℚ)) rfl hNb (by linarith) (by linarith) ff
  rw [ffl, Int.cast_zero, sub_zero] at r2
  rw [ffl, add_zero] at r4
  obtain ⟨w1, w2, w3, w4, w5, w6⟩ := r3
  have w7 : (sec:ℚ) ≤ 60 := by
    rcases w6 with w | ⟨w, w', w'', w'''⟩
    · linarith
    · have : sec < 61 := by exact_mod_cast w''
      exact_mod_cast (by omega : sec ≤ 60)
  have es := fl_err hf (x := (sec:ℚ) + (M - (⌊M⌋ : ℚ))) (B := 61)
    (abs_le.2 ⟨by linarith, by linarith⟩)
  rw [← r2] at es
  have s0 : 0 ≤ r.second := by rw [r2]; exact fl_nonneg hf (by linarith)
  have s1 : r.second ≤ 61 := by
    rw [r2]
    exact fl_le hf (by linarith) (by exact_mod_cast isFloat_int (n := 61) (by norm_num))
  refine ⟨r, r1, (C03_reads_civil_date _ _ _ _ _).1 r5, w1, w2, w3, w4, s0, s1, ?_⟩
  have r6 : taiOf L b r.jd r.hour r.minute r.second = (N:ℚ) - sec + r.second := by
    rw [← r4]; unfold taiOf; ring
  rw [r6, hT]
  generalize ((3600 * hh + 60 * mi : ℤ) : ℚ) = P at *
  generalize ((⌊M⌋ : ℤ) : ℚ) = Q at *
  generalize r.second = S at *
  rw [abs_le] at em es ⊢
  norm_num at em es ⊢
  constructor
  · linarith [em.1, em.2, es.1, es.2]
  · linarith [em.1, em.2, es.1, es.2]

/-- C81 (UTC of any time).  A time that was not made from UTC — from TT, TAI, UT1, TDB, from
arithmetic — and whose parts have the usual size reads, as UTC, an instant within 2·10⁻¹¹ seconds
of its stored TAI. -/
theorem C81_read_utc (hf : RoundsToNearest fl) (t : Time ℚ) {L : List ℤ} {b : ℤ}
    (h : IsLeapTable t.ts L b) (hL : |b| + L.length ≤ 10 ^ 6) (hn : t.taiSeconds? = none)
    (hw : WholePart t.whole) (ha : |t.taiFractionF fl| ≤ 2) :
    ∃ r, t.utcTupleF fl 0 = some r ∧ CivilDate t.ts.cutoff r.year r.month r.day r.jd ∧
      0 ≤ r.hour ∧ r.hour ≤ 23 ∧ 0 ≤ r.minute ∧ r.minute ≤ 59 ∧ 0 ≤ r.second ∧ r.second ≤ 61 ∧
      |taiOf L b r.jd r.hour r.minute r.second - (t.whole + t.taiFractionF fl) * 86400|
        ≤ 2 / 10 ^ 11 := by
  obtain ⟨n, hn1, hn2⟩ := hw
  have hn3 := abs_le.1 hn1
  have e1 : fl (t.whole * 86400) = ((n * 43200 : ℤ) : ℚ) := by
    have : t.whole * 86400 = ((n * 43200 : ℤ) : ℚ) := by rw [hn2]; push_cast; ring
    rw [this]
    exact fl_int hf (abs_le.2 ⟨by omega, by omega⟩)
  set a := t.taiFractionF fl with hA
  have ha2 := abs_le.1 ha
  have ex := fl_err hf (x := a * 86400) (B := 172800)
    (abs_le.2 ⟨by linarith, by linarith⟩)
  have x0 : -172800 ≤ fl (a * 86400) := by
    have := le_fl hf (x := a * 86400) (y := ((-172800 : ℤ) : ℚ)) (by push_cast; linarith)
      (isFloat_int (by norm_num))
    exact_mod_cast this
  have x1 : fl (a * 86400) ≤ 172800 := by
    have := fl_le hf (x := a * 86400) (y := ((172800 : ℤ) : ℚ)) (by push_cast; linarith)
      (isFloat_int (by norm_num))
    exact_mod_cast this
  have xf : IsFloat (fl (a * 86400)) := hf.float _
  generalize hX : fl (a * 86400) = X at *
  have g0 : -172800 ≤ ⌊X⌋ := by
    have := Int.floor_le_floor x0
    have e : ⌊(-172800:ℚ)⌋ = -172800 := by norm_num
    omega
  have g1 : ⌊X⌋ ≤ 172800 := by
    have := Int.floor_le_floor x1
    have e : ⌊(172800:ℚ)⌋ = 172800 := by norm_num
    omega
  have f0 := Int.floor_le X
  have f1 := Int.lt_floor_add_one X
  have e2 : fl (((n * 43200 : ℤ) : ℚ) + ((⌊X⌋ : ℤ) : ℚ)) = ((n * 43200 + ⌊X⌋ : ℤ) : ℚ) := by
    rw [← Int.cast_add]
    exact fl_int hf (abs_le.2 ⟨by omega, by omega⟩)
  have ht : t.taiSecondsF fl = (((n * 43200 + ⌊X⌋ : ℤ) : ℚ), fl (X - ⌊X⌋)) := by
    unfold Time.taiSecondsF
    simp only [hn, e1, divmodF_one_int hf, ← hA, hX, zero_add, fl_exact hf xf, divmodF_one, e2]
  have er := fl_err hf (x := X - ⌊X⌋) (B := 1) (abs_le.2 ⟨by linarith, by linarith⟩)
  have u0 : 0 ≤ fl (X - ⌊X⌋) := fl_nonneg hf (by linarith)
  have u1 : fl (X - ⌊X⌋) ≤ 1 :=
    fl_le hf (by linarith) (by exact_mod_cast isFloat_int (n := 1) (by norm_num))
  have uf : IsFloat (fl (X - ⌊X⌋)) := hf.float _
  generalize fl (X - ⌊X⌋) = fr at *
  obtain ⟨r, sec, r1, r2, r3, r4, r5⟩ := utcTupleF_spec hf t h hL ht
    (abs_le.2 ⟨by omega, by omega⟩) u0 u1 uf
  have f2 := Int.floor_le fr
  have f3 := Int.lt_floor_add_one fr
  obtain ⟨w1, w2, w3, w4, w5, w6⟩ := r3
  have w7 : (sec:ℚ) ≤ 60 := by
    rcases w6 with w | ⟨w, w', w'', w'''⟩
    · linarith
    · have : sec < 61 := by exact_mod_cast w''
      exact_mod_cast (by omega : sec ≤ 60)
  have es := fl_err hf (x := (sec:ℚ) + (fr - (⌊fr⌋ : ℚ))) (B := 61)
    (abs_le.2 ⟨by linarith, by linarith⟩)
  rw [← r2] at es
  have s0 : 0 ≤ r.second := by rw [r2]; exact fl_nonneg hf (by linarith)
  have s1 : r.second ≤ 61 := by
    rw [r2]
    exact fl_le hf (by linarith) (by exact_mod_cast isFloat_int (n := 61) (by norm_num))
  refine ⟨r, r1, (C03_reads_civil_date _ _ _ _ _).1 r5, w1, w2, w3, w4, s0, s1, ?_⟩
  have r6 : taiOf L b r.jd r.hour r.minute r.second = (n:ℚ) * 43200 + ⌊X⌋ + ⌊fr⌋ - sec + r.second := by
    have : taiOf L b r.jd r.hour r.minute r.second
        = taiOf L b r.jd r.hour r.minute (sec:ℚ) - sec + r.second := by unfold taiOf; ring
    rw [this, r4]; push_cast; ring
  rw [r6, hn2]
  generalize ((⌊X⌋ : ℤ) : ℚ) = Q at *
  generalize ((⌊fr⌋ : ℤ) : ℚ) = Q' at *
  generalize r.second = S at *
  rw [abs_le] at ex er es ⊢
  norm_num at ex er es ⊢
  constructor
  · linarith [ex.1, ex.2, er.1, er.2, es.1, es.2]
  · linarith [ex.1, ex.2, er.1, er.2, es.1, es.2]

/-- The hypotheses of `C81_utc_instant`, `C81_utc_roundtrip` and `C81_utc_readback` hold of
23:59:60.25 on 1972 June 30, in the leap second of that day. -/
example : IsLeapTable exampleTs [2441500, 2441684, 2442049] 10 ∧
    |(10:ℤ)| + ([2441500, 2441684, 2442049] : List ℤ).length ≤ 10 ^ 6 ∧
    GoodCutoff exampleTs.cutoff ∧ CivilDate exampleTs.cutoff 1972 6 30 2441499 ∧
    |(2441499:ℤ)| ≤ 10 ^ 9 ∧
    ValidUtc [2441500, 2441684, 2442049] 2441499 23 59 (60 + 1/4 : ℚ) ∧ IsFloat (60 + 1/4) ∧
    IsFloat (((3600 * 23 + 60 * 59 : ℤ) : ℚ) + (60 + 1/4)) := by
  refine ⟨exampleTs_ok, by norm_num, exampleTs_cutoff, ?_, by norm_num, ?_,
    ⟨241, -2, by norm_num, by norm_num⟩, ⟨345601, -2, by norm_num, by norm_num⟩⟩
  · exact (C03_reads_civil_date _ _ _ _ _).1 (by decide)
  · exact ⟨by norm_num, by norm_num, by norm_num, by norm_num, by norm_num,
      Or.inr ⟨rfl, rfl, by norm_num, by decide⟩⟩

/-- The hypotheses of `C81_read_utc` hold of `ts.tai_jd(2451544.5, 0.25)`. -/
example : WholePart (4903089 / 2) ∧
    |({ ts := exampleTs, whole := 4903089 / 2, ttFraction := fl (1/4 + ttMinusTaiF fl),
        taiFraction? := some (1/4) } : Time ℚ).taiFractionF fl| ≤ 2 := by
  refine ⟨⟨4903089, by norm_num, by norm_num⟩, ?_⟩
  show |(1/4 : ℚ)| ≤ 2
  norm_num [abs_le]

end Skyfield
