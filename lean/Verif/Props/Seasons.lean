import Verif.Props.PassageSearch
import Verif.Props.AlmanacSearch
import Verif.Props.HourAngleRate

/-
C118, second part: the searches of `seasons`, `moon_phases`, `solar_terms` and `oppositions_conjunctions`, with the ecliptic of date as Skyfield computes it.
-/
namespace Skyfield
open _root_.Spec Real

/-! ### The ecliptic of date -/

/-- The ecliptic of date depends on TT and TDB alone. -/
private theorem ecliptic_of {s s' : SkyTime} (h1 : s.tdb = s'.tdb) (h2 : s.dPsi = s'.dPsi) (h3 : s.dEps = s'.dEps) :
    eclipticRotation s = eclipticRotation s' := by
  obtain ⟨a, b, c, d, e⟩ := s
  obtain ⟨a', b', c', d', e'⟩ := s'
  simp only at h1 h2 h3
  subst h1 h2 h3
  rfl

/-- The same time scale with a ∆T that never changes. -/
private def evenScale (ts : Timescale ℝ) : Timescale ℝ := { ts with deltaT := fun _ => 69 }

private theorem even_sky (ts : Timescale ℝ) (jd : ℝ) {series : NutationSeries} {s s' : SkyTime} (h : (ts.ttJd jd none).sky series = some s)
    (h' : ((evenScale ts).ttJd jd none).sky series = some s') : eclipticRotation s = eclipticRotation s' := by
  obtain ⟨n1, -, n2, -⟩ := Time.sky_eq h
  obtain ⟨m1, -, m2, -⟩ := Time.sky_eq h'
  have e : (ts.ttJd jd none).nutationAnglesRadians series = ((evenScale ts).ttJd jd none).nutationAnglesRadians series := rfl
  rw [n1, m1, Option.some.injEq, Prod.mk.injEq] at e
  exact ecliptic_of (n2.trans m2.symm) e.1 e.2

private theorem within {jd : ℝ} (h1 : 2451545 - 29 * 36525 ≤ jd) (h2 : jd ≤ 2451545 + 29 * 36525) (ts : Timescale ℝ) :
    WithinThirtyCenturies (ts.ttJd jd none).tt ∧ WithinThirtyCenturies ((ts.ttJd jd none).tdb tdbMinusTt) := by
  have ht : (ts.ttJd jd none).tt = jd := (C11_jd_reads_back ts jd 0).1
  have h := C12_within_2ms (ts.ttJd jd none).whole (ts.ttJd jd none).ttFraction (by
    have : (ts.ttJd jd none).whole + (ts.ttJd jd none).ttFraction = jd := ht
    rw [this, abs_le]; constructor <;> linarith)
  rw [abs_lt] at h
  have e : (ts.ttJd jd none).tdb tdbMinusTt = jd + tdbMinusTt (ts.ttJd jd none).whole (ts.ttJd jd none).ttFraction / 86400 := by
    have h0 : ∀ x : Time ℝ, x.tdbFraction? = none → x.tdb tdbMinusTt = x.tt + tdbMinusTt x.whole x.ttFraction / 86400 := by
      intro x hx
      unfold Time.tdb Time.tdbFraction
      rw [hx]
      unfold Time.tt dayS
      ring
    rw [h0 _ rfl, ht]
  rw [ht, e]
  unfold WithinThirtyCenturies
  constructor <;> rw [abs_le] <;> constructor <;> linarith [h.1, h.2]

/-- From one date to another the ecliptic of date turns by no more than 2.04e-6 radians a day. -/
theorem near_ecliptics (ts : Timescale ℝ) {a b : ℝ} (ha : 2451545 - 29 * 36525 ≤ a) (hab : a ≤ b) (hb : b ≤ 2451545 + 29 * 36525)
    {series : NutationSeries} {s s' : SkyTime} (hs : (ts.ttJd a none).sky series = some s) (hs' : (ts.ttJd b none).sky series = some s') :
    NearMatrices (2.04e-6 * (b - a) + 1e-20) (eclipticRotation s) (eclipticRotation s') := by
  obtain ⟨σ, hσ⟩ := ((evenScale ts).ttJd a none).sky_defined series
  obtain ⟨σ', hσ'⟩ := ((evenScale ts).ttJd b none).sky_defined series
  rw [even_sky ts a hs hσ, even_sky ts b hs' hσ']
  obtain ⟨w1, w2⟩ := within ha (hab.trans hb) (evenScale ts)
  obtain ⟨w3, w4⟩ := within (ha.trans hab) hb (evenScale ts)
  have ta : ((evenScale ts).ttJd a none).tt = a := (C11_jd_reads_back (evenScale ts) a 0).1
  have tb : ((evenScale ts).ttJd b none).tt = b := (C11_jd_reads_back (evenScale ts) b 0).1
  have hd : ((evenScale ts).ttJd b none).deltaT - ((evenScale ts).ttJd a none).deltaT = 0 := by
    simp [Time.deltaT, evenScale, Timescale.ttJd]
  have hc := C106_clocks_agree w1 (t := (evenScale ts).ttJd a none) (u := (evenScale ts).ttJd b none) ⟨rfl, rfl⟩ ⟨rfl, rfl⟩
    (by rw [hd, abs_zero]; positivity)
  have e1 : ((evenScale ts).ttJd b none).ut1 - ((evenScale ts).ttJd a none).ut1 = b - a := by
    have : ∀ x : Time ℝ, x.ut1Fraction? = none → x.ut1 = x.tt - x.deltaT / 86400 := by
      intro x hx
      unfold Time.ut1 Time.ut1Fraction
      rw [hx]
      unfold Time.tt dayS
      ring
    rw [this _ rfl, this _ rfl, ta, tb]
    linarith [hd]
  have h := (near_dates ⟨hc, w1, w3, w2, w4⟩ hσ hσ').2.2
  rw [e1, abs_of_nonneg (by linarith)] at h
  refine h.mono ?_
  have hA : (asec2rad : ℝ) ≤ 4.848136812e-6 := by unfold asec2rad; norm_num
  have hA0 : (0 : ℝ) ≤ asec2rad := by unfold asec2rad; norm_num
  have : (0.42 * (b - a) + 2e-15) * asec2rad ≤ (0.42 * (b - a) + 2e-15) * 4.848136812e-6 := mul_le_mul_of_nonneg_left hA (by linarith)
  linarith

theorem ecliptic_length (s : SkyTime) {x : Vec3} (hx : x.length = 1) : 1 - 2e-14 ≤ ((eclipticRotation s).mulVec x).length ∧
    ((eclipticRotation s).mulVec x).length ≤ 1 + 2e-14 := by
  have hm : IsometryUpTo 2e-14 (eclipticRotation s) := (C35_frames s 0 0 0 0).2.2.2.2.1
  have h := hm.dot x x
  have h1 := Vec3.length_nonneg ((eclipticRotation s).mulVec x)
  rw [← Vec3.length_sq, ← Vec3.length_sq, abs_le, hx] at h
  constructor
  · by_contra hlt
    push Not at hlt
    nlinarith [h.1]
  · by_contra hlt
    push Not at hlt
    nlinarith [h.2]

/-- Coordinates of a direction on the ecliptic of date. -/
private theorem ecliptic_coords (σ : SkyTime) {x : Vec3} (hx : x ≠ 0) :
    ((eclipticRotation σ).mulVec x.direction).x = ((eclipticRotation σ).mulVec x.direction).length * cos (eclipticLat σ x) * cos (eclipticLon σ x) ∧
      ((eclipticRotation σ).mulVec x.direction).y = ((eclipticRotation σ).mulVec x.direction).length * cos (eclipticLat σ x) * sin (eclipticLon σ x) := by
  obtain ⟨m1, m2, -⟩ := C36_meaning ((eclipticRotation σ).mulVec x)
  have hl : frameLatlon eclipticFrame σ x = toSpherical ((eclipticRotation σ).mulVec x) := rfl
  unfold eclipticLat eclipticLon
  rw [hl]
  have hpos := Vec3.length_pos hx
  have e : (eclipticRotation σ).mulVec x = x.length • (eclipticRotation σ).mulVec x.direction := by
    rw [← Mat3.mulVec_smul, ← Vec3.smul_direction hx]
  have hl1 : (toSpherical ((eclipticRotation σ).mulVec x)).1 = x.length * ((eclipticRotation σ).mulVec x.direction).length := by
    rw [(C36_range _).1, e, Vec3.length_smul_of_nonneg hpos.le]
  have ex : ((eclipticRotation σ).mulVec x).x = x.length * ((eclipticRotation σ).mulVec x.direction).x := by rw [e]; rfl
  have ey : ((eclipticRotation σ).mulVec x).y = x.length * ((eclipticRotation σ).mulVec x.direction).y := by rw [e]; rfl
  rw [hl1, ex] at m1
  rw [hl1, ey] at m2
  exact ⟨mul_left_cancel₀ hpos.ne' (by rw [m1]; ring), mul_left_cancel₀ hpos.ne' (by rw [m2]; ring)⟩

/-- **C118.** As the ecliptic and equinox of date move, the ecliptic longitude of a fixed direction no more than 60° from the ecliptic changes by no more
than 6.5e-6 radians a day. -/
theorem C118_fixed_direction (ts : Timescale ℝ) {a b : ℝ} (ha : 2451545 - 29 * 36525 ≤ a) (hab : a ≤ b) (hb : b ≤ 2451545 + 29 * 36525)
    {series : NutationSeries} {s s' : SkyTime} (hs : (ts.ttJd a none).sky series = some s) (hs' : (ts.ttJd b none).sky series = some s')
    {v : Vec3} (hv : v ≠ 0) (h1 : 0.5 ≤ cos (eclipticLat s v)) (h2 : 0.5 ≤ cos (eclipticLat s' v)) :
    ∃ n : ℤ, |eclipticLon s' v - eclipticLon s v - 2 * π * n| ≤ 6.5e-6 * (b - a) + 1e-19 := by
  obtain ⟨px, py⟩ := ecliptic_coords s hv
  obtain ⟨qx, qy⟩ := ecliptic_coords s' hv
  have hu := Vec3.direction_length hv
  obtain ⟨n, hn⟩ := lon_change (ecliptic_length s hu).1 (ecliptic_length s' hu).1 (by linarith) (by linarith) px py qx qy
  refine ⟨n, ?_⟩
  have hN := near_ecliptics ts ha hab hb hs hs' v.direction
  rw [hu, mul_one] at hN
  have hm : (0.5 : ℝ) ≤ min (cos (eclipticLat s v)) (cos (eclipticLat s' v)) := le_min h1 h2
  have h3 := mul_le_mul_of_nonneg_left hm (abs_nonneg (eclipticLon s' v - eclipticLon s v - 2 * π * n))
  have h4 := mul_le_mul_of_nonneg_left hN (by norm_num : (0 : ℝ) ≤ 1.5708 * (1 + 3e-14))
  have h5 := h3.trans (hn.trans h4)
  linarith

/-- Specification: from `lo` to `hi` the body advances along the ecliptic.  On the ecliptic of any date in the span, from that date on, it is never more than 60° from the
ecliptic, and its longitude grows by between `slow` and `fast` radians a day (to within 1e-13, and up to whole turns). -/
structure AdvancesAlong (ts : Timescale ℝ) (series : NutationSeries) (body : ℝ → Vec3) (lo hi slow fast : ℝ) : Prop where
  somewhere : ∀ jd, lo ≤ jd → jd ≤ hi → body jd ≠ 0
  latitude : ∀ a b s, lo ≤ a → a ≤ b → b ≤ hi → (ts.ttJd a none).sky series = some s → 0.5 ≤ cos (eclipticLat s (body b))
  longitude : ∀ a b s, lo ≤ a → a ≤ b → b ≤ hi → (ts.ttJd a none).sky series = some s →
    ∃ n : ℤ, slow * (b - a) - 1e-13 ≤ eclipticLon s (body b) - eclipticLon s (body a) - 2 * π * n ∧
      eclipticLon s (body b) - eclipticLon s (body a) - 2 * π * n ≤ fast * (b - a) + 1e-13

/-- **C118.** The longitude on the ecliptic and equinox of date, as Skyfield computes them, of a body that advances along the ecliptic, advances at the same
rate to within 6.5e-6 radians a day. -/
theorem C118_longitude_of_date (ts : Timescale ℝ) {series : NutationSeries} {body : ℝ → Vec3} {lo hi slow fast : ℝ} (hlo : 2451545 - 29 * 36525 ≤ lo)
    (hhi : hi ≤ 2451545 + 29 * 36525) (h : AdvancesAlong ts series body lo hi slow fast) {a b : ℝ} (ha : lo ≤ a) (hab : a ≤ b) (hb : b ≤ hi)
    {s s' : SkyTime} (hs : (ts.ttJd a none).sky series = some s) (hs' : (ts.ttJd b none).sky series = some s') :
    ∃ n : ℤ, (slow - 6.5e-6) * (b - a) - 1.1e-13 ≤ eclipticLon s' (body b) - eclipticLon s (body a) - 2 * π * n ∧
      eclipticLon s' (body b) - eclipticLon s (body a) - 2 * π * n ≤ (fast + 6.5e-6) * (b - a) + 1.1e-13 := by
  obtain ⟨n, n1, n2⟩ := h.longitude a b s ha hab hb hs
  obtain ⟨m, hm⟩ := C118_fixed_direction ts (by linarith) hab (by linarith) hs hs' (h.somewhere b (by linarith) hb)
    (h.latitude a b s ha hab hb hs) (h.latitude b b s' (by linarith) le_rfl hb hs')
  rw [abs_le] at hm
  refine ⟨n + m, ?_, ?_⟩ <;> push_cast <;> linarith [hm.1, hm.2]

private theorem one_turning (ts : Timescale ℝ) {series : NutationSeries} {body : ℝ → Vec3} {lo hi slow fast : ℝ} (hlo : 2451545 - 29 * 36525 ≤ lo)
    (hhi : hi ≤ 2451545 + 29 * 36525) (h : AdvancesAlong ts series body lo hi slow fast) {L : ℝ → ℝ}
    (hL : IsAngle ts series lo hi (fun jd s => eclipticLon s (body jd)) L) : Turning (slow - 1.4e-5) (fast + 1.4e-5) 3e-13 lo hi L := by
  intro a b ha hab hb
  obtain ⟨s, hs⟩ := (ts.ttJd a none).sky_defined series
  obtain ⟨s', hs'⟩ := (ts.ttJd b none).sky_defined series
  obtain ⟨n, n1, n2⟩ := C118_longitude_of_date ts hlo hhi h ha hab hb hs hs'
  obtain ⟨i, hi'⟩ := hL a s ha (hab.trans hb) hs
  obtain ⟨j, hj⟩ := hL b s' (ha.trans hab) hb hs'
  refine ⟨n + j - i, ?_, ?_⟩ <;> rw [hi', hj] <;> push_cast <;> linarith

private theorem two_turning (ts : Timescale ℝ) {series : NutationSeries} {body other : ℝ → Vec3} {lo hi slow fast slow' fast' : ℝ}
    (hlo : 2451545 - 29 * 36525 ≤ lo) (hhi : hi ≤ 2451545 + 29 * 36525) (h : AdvancesAlong ts series body lo hi slow fast)
    (h' : AdvancesAlong ts series other lo hi slow' fast') {L : ℝ → ℝ}
    (hL : IsAngle ts series lo hi (fun jd s => eclipticLon s (body jd) - eclipticLon s (other jd)) L) :
    Turning (slow - fast' - 1.4e-5) (fast - slow' + 1.4e-5) 3e-13 lo hi L := by
  intro a b ha hab hb
  obtain ⟨s, hs⟩ := (ts.ttJd a none).sky_defined series
  obtain ⟨s', hs'⟩ := (ts.ttJd b none).sky_defined series
  obtain ⟨n, n1, n2⟩ := C118_longitude_of_date ts hlo hhi h ha hab hb hs hs'
  obtain ⟨m, m1, m2⟩ := C118_longitude_of_date ts hlo hhi h' ha hab hb hs hs'
  obtain ⟨i, hi'⟩ := hL a s ha (hab.trans hb) hs
  obtain ⟨j, hj⟩ := hL b s' (ha.trans hab) hb hs'
  refine ⟨n - m + j - i, ?_, ?_⟩ <;> rw [hi', hj] <;> push_cast <;> linarith

/-! ### The searches -/

/-- Specification: with the library's own settings, an accuracy of a millisecond and twelve samples a step, the search ends, and what it returns are the passages of `L` into each
of `k` parts of the turn. -/
def SearchReports (k : ℕ) (lo hi fast : ℝ) (f : Searchable ℝ (Option ℤ)) (L : ℝ → ℝ) : Prop :=
  ∃ rounds events, findDiscrete lo hi f (0.001 / 86400) 12 rounds = .ok (some events) ∧
    ReportsPassages k (fun n => some (n % k)) (1.2e-8 * fast + 1e-12) 3e-13 (0.0001 / 86400) (0.0011 / 86400) lo hi L events

private theorem names_mod (k : ℕ) : Names k fun n => (some (n % k) : Option ℤ) := by
  intro m n
  rw [Option.some.injEq]
  exact Int.emod_eq_emod_iff_emod_sub_eq_zero.trans Int.dvd_iff_emod_eq_zero.symm

private theorem in_parts {k : ℕ} (hk : 2 ≤ k) {lo hi : ℝ} {L : ℝ → ℝ} {f : ℝ → Option ℤ}
    (hf : ∀ t, lo ≤ t → t ≤ hi → f t = some (⌊L t / (2 * π / k)⌋ % k)) : InParts k (fun n => some (n % k)) lo hi L f := by
  intro t h1 h2
  have hk0 : (0 : ℝ) < k := by exact_mod_cast (by omega : 0 < k)
  have hw : 0 < 2 * π / (k : ℝ) := by have := pi_pos; positivity
  have f1 := Int.floor_le (L t / (2 * π / k))
  have f2 := Int.lt_floor_add_one (L t / (2 * π / k))
  refine ⟨⌊L t / (2 * π / k)⌋, ?_, ?_, hf t h1 h2⟩
  · rw [le_div_iff₀ hw] at f1; linarith
  · rw [div_lt_iff₀ hw] at f2; linarith

private theorem search_reports {k : ℕ} (hk : 2 ≤ k) {lo hi slow fast step : ℝ} {L : ℝ → ℝ} {f : Searchable ℝ (Option ℤ)}
    (hspan : lo + 0.001 / 86400 ≤ hi) (hturn : Turning (slow - 1.4e-5) (fast + 1.4e-5) 3e-13 lo hi L)
    (hf : ∀ t, lo ≤ t → t ≤ hi → f.call t = some (⌊L t / (2 * π / k)⌋ % k)) (hstep : f.stepDays = some step) (h1 : 1 ≤ step) (hslow : 0.0025 ≤ slow)
    (hfast : slow ≤ fast) (hlong : (fast + 1.4e-5) * (step + 1e-6) + 1e-9 < 2 * π - 2 * π / k) (hsmall : (fast + 1.4e-5) * 1e-6 + 1e-9 < 2 * π / k) :
    SearchReports k lo hi fast f L := by
  obtain ⟨samples, hsm, -⟩ := C16_sample_spacing lo hi f 12 step (by linarith) hstep (by linarith)
  obtain ⟨⟨rounds, hr⟩, hall⟩ := C17_terminates lo hi f (0.001 / 86400) 12 (by norm_num) (by norm_num)
    (by intro s' hs'; have : step = s' := Option.some.inj (hstep.symm.trans hs'); rw [← this]; linarith) samples hsm
  obtain ⟨events, hev⟩ := hall rounds hr
  have hp : 0 < fast + 1.4e-5 := by linarith
  have hR := C118_search hk (names_mod k) hturn (in_parts hk hf) (by norm_num) hstep (by norm_num) (by linarith) hspan (by norm_num)
    (by linarith) hp.le (tiny := 1.3e-10) (by linarith) (by norm_num) (by nlinarith) (by nlinarith) hev
  refine ⟨rounds + 1, events, hev, ?_, ?_, hR.inTurn⟩
  · intro e he
    obtain ⟨a1, a2, n, a3, m, a4, a5⟩ := hR.happened e he
    refine ⟨a1, a2, n, a3, m, a4, a5.trans ?_⟩
    nlinarith
  · intro T n hT hT' ⟨m, m1, m2⟩
    obtain ⟨t, t1, t2, t3⟩ := hR.reported T n (by linarith) (by linarith) ⟨m, m1, m2⟩
    exact ⟨t, t1, by linarith, by linarith⟩

/-- **C118.** A search of `seasons` for a Sun that advances along the ecliptic by between 0.0025 and 0.05 radians a day (it advances by 0.0172, on the average) reports the equinoxes
and solstices, all of them and in turn: the passages of the Sun's longitude of date through each multiple of 90°. -/
theorem C118_seasons (ts : Timescale ℝ) (sun : ℝ → Vec3) {lo hi slow fast : ℝ} (hlo : 2451545 - 29 * 36525 ≤ lo) (hhi : hi ≤ 2451545 + 29 * 36525)
    (hspan : lo + 0.001 / 86400 ≤ hi) (hsun : AdvancesAlong ts .iau2000b sun lo hi slow fast) (hslow : 0.0025 ≤ slow) (hord : slow ≤ fast) (hfast : fast ≤ 0.05)
    {L : ℝ → ℝ} (hL : IsAngle ts .iau2000b lo hi (fun jd s => eclipticLon s (sun jd)) L) : SearchReports 4 lo hi fast (seasons ts sun) L := by
  have hp := pi_gt_d4
  refine search_reports (by norm_num) hspan (one_turning ts hlo hhi hsun hL) ?_ (step := 90) rfl (by norm_num) hslow hord
    (by push_cast; linarith) (by push_cast; linarith)
  intro t h1 h2
  obtain ⟨s, hs⟩ := (ts.ttJd t none).sky_defined .iau2000b
  have := part_of (k := 4) (by norm_num) (hL t s h1 h2 hs)
  unfold seasons
  simp only [hs, Option.map_some, Option.some.injEq]
  unfold seasonAt
  exact_mod_cast this

/-- **C118.** A search of `solar_terms` for a Sun that advances along the ecliptic by between 0.0025 and 0.4 radians a day reports the 24 terms of the year, all of them and in turn:
the passages of the Sun's longitude of date through each multiple of 15°. -/
theorem C118_solar_terms (ts : Timescale ℝ) (sun : ℝ → Vec3) {lo hi slow fast : ℝ} (hlo : 2451545 - 29 * 36525 ≤ lo) (hhi : hi ≤ 2451545 + 29 * 36525)
    (hspan : lo + 0.001 / 86400 ≤ hi) (hsun : AdvancesAlong ts .iau2000b sun lo hi slow fast) (hslow : 0.0025 ≤ slow) (hord : slow ≤ fast) (hfast : fast ≤ 0.4)
    {L : ℝ → ℝ} (hL : IsAngle ts .iau2000b lo hi (fun jd s => eclipticLon s (sun jd)) L) : SearchReports 24 lo hi fast (solarTerms ts sun) L := by
  have hp := pi_gt_d4
  refine search_reports (by norm_num) hspan (one_turning ts hlo hhi hsun hL) ?_ (step := 14) rfl (by norm_num) hslow hord
    (by push_cast; linarith) (by push_cast; linarith)
  intro t h1 h2
  obtain ⟨s, hs⟩ := (ts.ttJd t none).sky_defined .iau2000b
  have := part_of (k := 24) (by norm_num) (hL t s h1 h2 hs)
  unfold solarTerms eclipticLatlon resolveEpoch
  simp only [hs, Option.bind_some, Option.some.injEq]
  unfold solarTermAt
  exact_mod_cast this

/-- **C118.** A search of `moon_phases`, for a Moon and a Sun that advance along the ecliptic, the Moon by at least 0.0025 radians a day more than the Sun and at most 0.6, reports
the new moons, quarters and full moons, all of them and in turn: the passages of the Moon's longitude of date, less the Sun's, through each multiple of 90°. -/
theorem C118_moon_phases (ts : Timescale ℝ) (moon sun : ℝ → Vec3) {lo hi slow fast slow' fast' : ℝ} (hlo : 2451545 - 29 * 36525 ≤ lo)
    (hhi : hi ≤ 2451545 + 29 * 36525) (hspan : lo + 0.001 / 86400 ≤ hi) (hmoon : AdvancesAlong ts .iau2000b moon lo hi slow fast)
    (hsun : AdvancesAlong ts .iau2000b sun lo hi slow' fast') (hslow : 0.0025 ≤ slow - fast') (hord : slow - fast' ≤ fast - slow')
    (hfast : fast - slow' ≤ 0.6) {L : ℝ → ℝ} (hL : IsAngle ts .iau2000b lo hi (fun jd s => eclipticLon s (moon jd) - eclipticLon s (sun jd)) L) :
    SearchReports 4 lo hi (fast - slow') (moonPhases ts moon sun) L := by
  have hp := pi_gt_d4
  refine search_reports (by norm_num) hspan (two_turning ts hlo hhi hmoon hsun hL) ?_ (step := 7) rfl (by norm_num) hslow hord
    (by push_cast; linarith) (by push_cast; linarith)
  intro t h1 h2
  obtain ⟨s, hs⟩ := (ts.ttJd t none).sky_defined .iau2000b
  have := part_of (k := 4) (by norm_num) (hL t s h1 h2 hs)
  unfold moonPhases
  simp only [hs, Option.map_some, Option.some.injEq]
  unfold moonPhaseAt
  exact_mod_cast this

/-- **C118.** A search of `oppositions_conjunctions` for an outer planet, one on which the Sun gains by between 0.0025 and 0.078 radians a day, reports its conjunctions as 0 and its
oppositions as 1, all of them and in turn: the passages of the Sun's longitude of date, less the planet's, through each multiple of 180°.  The planet may move backwards. -/
theorem C118_oppositions (ts : Timescale ℝ) {code : ℤ} (hcode : code ≠ 301) (target sun : ℝ → Vec3) {lo hi slow fast slow' fast' : ℝ}
    (hlo : 2451545 - 29 * 36525 ≤ lo) (hhi : hi ≤ 2451545 + 29 * 36525) (hspan : lo + 0.001 / 86400 ≤ hi)
    (hsun : AdvancesAlong ts .iau2000a sun lo hi slow fast) (htarget : AdvancesAlong ts .iau2000a target lo hi slow' fast')
    (hslow : 0.0025 ≤ slow - fast') (hord : slow - fast' ≤ fast - slow') (hfast : fast - slow' ≤ 0.078) {L : ℝ → ℝ}
    (hL : IsAngle ts .iau2000a lo hi (fun jd s => eclipticLon s (sun jd) - eclipticLon s (target jd)) L) :
    SearchReports 2 lo hi (fast - slow') (oppositionsConjunctions ts code target sun) L := by
  have hp := pi_gt_d4
  exact search_reports (by norm_num) hspan (two_turning ts hlo hhi hsun htarget hL) (opposition_call ts code target sun hL) (step := 40)
    (by unfold oppositionsConjunctions; rw [if_neg hcode]) (by norm_num) hslow hord (by push_cast; linarith) (by push_cast; linarith)

/-! ### Bodies that advance so -/

private theorem flat_enough {a b : SkyTime} {v : Vec3} (hv : v ≠ 0) {ε : ℝ} (hN : NearMatrices ε (eclipticRotation a) (eclipticRotation b)) (hε : ε ≤ 0.1)
    (h0 : eclipticLat b v = 0) : 0.5 ≤ cos (eclipticLat a v) := by
  obtain ⟨px, py⟩ := ecliptic_coords a hv
  obtain ⟨qx, qy⟩ := ecliptic_coords b hv
  have hu := Vec3.direction_length hv
  have hp := ecliptic_length a hu
  have hq := ecliptic_length b hu
  have h := hN v.direction
  rw [hu, mul_one] at h
  rw [h0, cos_zero, mul_one] at qx qy
  have hc : 0 ≤ cos (eclipticLat a v) :=
    cos_nonneg_of_mem_Icc ⟨by linarith [(abs_le.1 (C36_range ((eclipticRotation a).mulVec v)).2.2.1).1, show eclipticLat a v = (toSpherical ((eclipticRotation a).mulVec v)).2.1 from rfl],
      (abs_le.1 (C36_range ((eclipticRotation a).mulVec v)).2.2.1).2⟩
  have hsq := Vec3.length_sq ((eclipticRotation a).mulVec v.direction - (eclipticRotation b).mulVec v.direction)
  generalize (eclipticRotation a).mulVec v.direction = p at *
  generalize (eclipticRotation b).mulVec v.direction = q at *
  generalize cos (eclipticLat a v) = c at *
  have hl := Vec3.length_nonneg (p - q)
  have hs : (p - q).length ^ 2 ≤ 0.1 ^ 2 := pow_le_pow_left₀ hl (h.trans hε) 2
  rw [hsq] at hs
  simp only [Vec3.dot, Vec3.sub_x, Vec3.sub_y, Vec3.sub_z] at hs
  rw [px, py, qx, qy] at hs
  have e1 := sin_sq_add_cos_sq (eclipticLon a v)
  have e2 := sin_sq_add_cos_sq (eclipticLon b v)
  have e3 := cos_sub (eclipticLon a v) (eclipticLon b v)
  have e4 := cos_le_one (eclipticLon a v - eclipticLon b v)
  generalize eclipticLon a v = L at *
  generalize eclipticLon b v = L' at *
  have hA : 0 ≤ p.length * c * q.length := by
    have := Vec3.length_nonneg p
    have := Vec3.length_nonneg q
    positivity
  have key : (p.length * c - q.length) ^ 2 ≤ 0.1 ^ 2 := by
    have h1 : (p.length * c * cos L - q.length * cos L') * (p.length * c * cos L - q.length * cos L') +
        (p.length * c * sin L - q.length * sin L') * (p.length * c * sin L - q.length * sin L') =
        (p.length * c - q.length) ^ 2 + 2 * (p.length * c * q.length) * (1 - cos (L - L')) := by
      rw [e3]; linear_combination (p.length * c) ^ 2 * e1 + q.length ^ 2 * e2
    have h2 : 0 ≤ 2 * (p.length * c * q.length) * (1 - cos (L - L')) := mul_nonneg (by linarith) (by linarith)
    nlinarith [mul_self_nonneg (p.z - q.z)]
  have := abs_le_of_sq_le_sq key (by norm_num)
  rw [abs_le] at this
  nlinarith [this.1]

/-- A body on the ecliptic of date, at a longitude of date that grows at a steady rate, advances along the ecliptic at about that rate. -/
theorem steady_body (ts : Timescale ℝ) (series : NutationSeries) {lo hi : ℝ} (rate t0 : ℝ) (hlo : 2451545 - 29 * 36525 ≤ lo)
    (hhi : hi ≤ 2451545 + 29 * 36525) (hspan : hi - lo ≤ 36525) : ∃ body, AdvancesAlong ts series body lo hi (rate - 6.5e-6) (rate + 6.5e-6) ∧
      IsAngle ts series lo hi (fun jd s => eclipticLon s (body jd)) fun t => rate * (t - t0) := by
  have hp := pi_pos
  obtain ⟨body, h0, hb⟩ := body_exists ts series (fun _ => 0) (fun t => rate * (t - t0)) (fun _ => by rw [abs_zero]; linarith)
  have lat : ∀ a b s, lo ≤ a → a ≤ b → b ≤ hi → (ts.ttJd a none).sky series = some s → 0.5 ≤ cos (eclipticLat s (body b)) := by
    intro a b s ha hab hb' hs
    obtain ⟨s', hs'⟩ := (ts.ttJd b none).sky_defined series
    exact flat_enough (h0 b) (near_ecliptics ts (by linarith) hab (by linarith) hs hs') (by linarith) (hb b s' hs').1
  refine ⟨body, ⟨fun jd _ _ => h0 jd, lat, ?_⟩, fun jd s _ _ h => (hb jd s h).2⟩
  intro a b s ha hab hb' hs
  obtain ⟨s', hs'⟩ := (ts.ttJd b none).sky_defined series
  obtain ⟨m, hm⟩ := C118_fixed_direction ts (by linarith) hab (by linarith) hs hs' (h0 b) (lat a b s ha hab hb' hs) (lat b b s' (by linarith) le_rfl hb' hs')
  obtain ⟨i, hi'⟩ := (hb a s hs).2
  obtain ⟨j, hj⟩ := (hb b s' hs').2
  rw [abs_le] at hm
  have e : rate * (b - a) = rate * (b - t0) - rate * (a - t0) := by ring
  refine ⟨i - j - m, ?_, ?_⟩ <;> push_cast <;> linarith [hm.1, hm.2]

/-- A year of a Sun that advances by 0.0172 radians a day: what `C118_seasons` and `C118_solar_terms` ask for, and the passage through the first multiple of 90°. -/
example (ts : Timescale ℝ) : ∃ (sun : ℝ → Vec3) (L : ℝ → ℝ), AdvancesAlong ts .iau2000b sun 2451545 2451910 0.01719 0.01721 ∧
    IsAngle ts .iau2000b 2451545 2451910 (fun jd s => eclipticLon s (sun jd)) L ∧ ∃ T, 2451545 + 0.0011 / 86400 ≤ T ∧ T ≤ 2451910 - 0.0011 / 86400 ∧
      PastBy (2 * π / (4 : ℕ) * (1 : ℤ)) (-3e-13) 3e-13 (L T) := by
  obtain ⟨sun, h1, h2⟩ := steady_body ts .iau2000b (lo := 2451545) (hi := 2451910) 0.0172 2451545 (by norm_num) (by norm_num) (by norm_num)
  refine ⟨sun, _, ⟨h1.somewhere, h1.latitude, fun a b s ha hab hb hs => ?_⟩, h2, 2451545 + π / 2 / 0.0172, ?_, ?_, 0, ?_, ?_⟩
  · obtain ⟨n, n1, n2⟩ := h1.longitude a b s ha hab hb hs
    exact ⟨n, by linarith, by linarith⟩
  · have := pi_gt_three
    norm_num
    linarith
  · have := pi_lt_four
    norm_num
    linarith
  · push_cast; norm_num; ring_nf; norm_num
  · push_cast; norm_num; ring_nf; norm_num

/-- Four months of a Moon, a Sun and a planet that goes backwards: what `C118_moon_phases` and `C118_oppositions` ask for. -/
example (ts : Timescale ℝ) (series : NutationSeries) : ∃ (moon sun planet : ℝ → Vec3) (L M : ℝ → ℝ),
    AdvancesAlong ts series moon 2451545 2451665 0.2299 0.2301 ∧ AdvancesAlong ts series sun 2451545 2451665 0.01719 0.01721 ∧
    AdvancesAlong ts series planet 2451545 2451665 (-0.00201) (-0.00199) ∧
    IsAngle ts series 2451545 2451665 (fun jd s => eclipticLon s (moon jd) - eclipticLon s (sun jd)) L ∧
    IsAngle ts series 2451545 2451665 (fun jd s => eclipticLon s (sun jd) - eclipticLon s (planet jd)) M := by
  have wide : ∀ (rate x y : ℝ), x ≤ rate - 6.5e-6 → rate + 6.5e-6 ≤ y → ∃ body, AdvancesAlong ts series body 2451545 2451665 x y ∧
      IsAngle ts series 2451545 2451665 (fun jd s => eclipticLon s (body jd)) fun t => rate * (t - 2451545) := by
    intro rate x y hx hy
    obtain ⟨body, h1, h2⟩ := steady_body ts series (lo := 2451545) (hi := 2451665) rate 2451545 (by norm_num) (by norm_num) (by norm_num)
    refine ⟨body, ⟨h1.somewhere, h1.latitude, fun a b s ha hab hb hs => ?_⟩, h2⟩
    obtain ⟨n, n1, n2⟩ := h1.longitude a b s ha hab hb hs
    have q1 := mul_le_mul_of_nonneg_right hx (by linarith : 0 ≤ b - a)
    have q2 := mul_le_mul_of_nonneg_right hy (by linarith : 0 ≤ b - a)
    exact ⟨n, by linarith, by linarith⟩
  have diff : ∀ {body other : ℝ → Vec3} {L M : ℝ → ℝ}, IsAngle ts series 2451545 2451665 (fun jd s => eclipticLon s (body jd)) L →
      IsAngle ts series 2451545 2451665 (fun jd s => eclipticLon s (other jd)) M →
      IsAngle ts series 2451545 2451665 (fun jd s => eclipticLon s (body jd) - eclipticLon s (other jd)) fun t => L t - M t := by
    intro body other L M h1 h2 jd s a b hs
    obtain ⟨n, hn⟩ := h1 jd s a b hs
    obtain ⟨m, hm⟩ := h2 jd s a b hs
    exact ⟨n - m, by simp only [hn, hm]; push_cast; ring⟩
  obtain ⟨moon, a1, a2⟩ := wide 0.23 0.2299 0.2301 (by norm_num) (by norm_num)
  obtain ⟨sun, b1, b2⟩ := wide 0.0172 0.01719 0.01721 (by norm_num) (by norm_num)
  obtain ⟨planet, c1, c2⟩ := wide (-0.002) (-0.00201) (-0.00199) (by norm_num) (by norm_num)
  exact ⟨moon, sun, planet, _, _, a1, b1, c1, diff a2 b2, diff b2 c2⟩

end Skyfield
