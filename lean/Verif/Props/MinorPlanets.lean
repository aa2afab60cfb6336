import Verif.Model.MinorPlanets
import Verif.Props.PeriapsisTime
import Verif.Props.Calendar
import Verif.Spec.Calendar

/-
C76: orbits of comets and minor planets built from catalogue rows.
-/
namespace Skyfield
open Real

/-! ### Changing the units of a two-body motion -/

/-- A two-body motion stays one when lengths are multiplied by `k` and time is counted from `t0` in units `c` times as long. -/
theorem TwoBody.rescale {mu : ℝ} {r v : ℝ → Vec3} (h : TwoBody mu r v) {k c t0 : ℝ} (hk : 0 < k) :
    TwoBody (mu * k ^ 3 * c ^ 2) (fun s => k • r (t0 + c * s)) (fun s => (k * c) • v (t0 + c * s)) := by
  have dl : ∀ s, HasDerivAt (fun s => t0 + c * s) c s := fun s => by
    simpa using ((hasDerivAt_id s).const_mul c).const_add t0
  have mv : ∀ (f : ℝ → Vec3) (w : Vec3) (m s : ℝ), MovesWith f (t0 + c * s) w →
      MovesWith (fun s => m • f (t0 + c * s)) s ((m * c) • w) := by
    intro f w m s hf
    refine ⟨?_, ?_, ?_⟩
    · have := (hf.1.comp s (dl s)).const_mul m
      simpa [Function.comp_def, mul_comm, mul_left_comm, mul_assoc] using this
    · have := (hf.2.1.comp s (dl s)).const_mul m
      simpa [Function.comp_def, mul_comm, mul_left_comm, mul_assoc] using this
    · have := (hf.2.2.comp s (dl s)).const_mul m
      simpa [Function.comp_def, mul_comm, mul_left_comm, mul_assoc] using this
  refine ⟨fun s hs => ?_, fun s => mv r _ k s (h.moves _), fun s => ?_⟩
  · apply h.away (t0 + c * s)
    ext
    · have := congrArg Vec3.x hs; simpa [hk.ne'] using this
    · have := congrArg Vec3.y hs; simpa [hk.ne'] using this
    · have := congrArg Vec3.z hs; simpa [hk.ne'] using this
  · have := mv v _ (k * c) s (h.pull _)
    have hl := Vec3.length_pos (h.away (t0 + c * s))
    rw [show (k * c * c) • (-(mu / (r (t0 + c * s)).length ^ 3)) • r (t0 + c * s) =
      (-(mu * k ^ 3 * c ^ 2 / (k • r (t0 + c * s)).length ^ 3)) • k • r (t0 + c * s) by
        rw [Vec3.length_smul_of_nonneg hk.le]
        ext <;> simp only [Vec3.smul_x, Vec3.smul_y, Vec3.smul_z] <;> field_simp] at this
    exact this

theorem convertGm_pos : 0 < convertGm := by unfold convertGm daySeconds auKm; norm_num

/-! ### Any orbit object -/

/-- **C76.** Where an orbit object says the body is.  There is one motion under the attraction of the given strength that
passes through the state at the epoch; the object reports, at every time, that motion's place and velocity — with the
universal variable solved for to within `2⁻⁶⁵` of its scale — turned by the orbit's rotation. -/
theorem C76_motion (o : KeplerOrbit) (bound : ℝ) (hm : 0 < o.mu) (hh : o.pos.cross o.vel ≠ 0) :
    ∃ r v : ℝ → Vec3, TwoBody o.mu r v ∧ r o.epoch = o.pos ∧ v o.epoch = o.vel ∧
      ∀ t, |(t - o.epoch) / (orbitConstants o.pos o.vel o.mu).bq| ≤ bound →
        ∃ x root, |x - root| ≤ |(t - o.epoch) / (orbitConstants o.pos o.vel o.mu).bq| / 2 ^ 65 ∧
          stateAt (orbitConstants o.pos o.vel o.mu) o.pos o.vel (t - o.epoch) root = (r t, v t) ∧
          o.at bound t =
            some (o.turn (stateAt (orbitConstants o.pos o.vel o.mu) o.pos o.vel (t - o.epoch) x).1,
              o.turn (stateAt (orbitConstants o.pos o.vel o.mu) o.pos o.vel (t - o.epoch) x).2) := by
  obtain ⟨X, hX, h0, h1, h2⟩ := C45_newton o.pos o.vel o.mu hm hh
  have tb : TwoBody o.mu _ _ := ⟨fun t => (h2 t).1, fun t => (h2 t).2.1, fun t => (h2 t).2.2⟩
  have ts := tb.rescale (k := 1) (c := 1) (t0 := -o.epoch) one_pos
  simp only [one_pow, mul_one, one_mul] at ts
  have one : ∀ w : Vec3, (1 : ℝ) • w = w := fun w => by ext <;> simp
  simp only [one] at ts
  refine ⟨_, _, ts, by simpa using h0, by simpa using h1, fun t hb => ?_⟩
  obtain ⟨x, root, hp, hr, hx⟩ := (C45_propagate o.pos o.vel o.epoch t o.mu bound).2 hm hh hb
  refine ⟨x, root, hx, ?_, ?_⟩
  · have : root = X (-o.epoch + t) := (hX _ _).1 (by rw [hr]; ring)
    rw [this, show -o.epoch + t = t - o.epoch by ring]
  · unfold KeplerOrbit.at
    rw [hp]; rfl

/-- **C76.** At the epoch the reported state is exactly the state the orbit was built from, turned by its rotation. -/
theorem C76_at_epoch (o : KeplerOrbit) (bound : ℝ) (hb : 0 ≤ bound) (hm : 0 < o.mu) (hh : o.pos.cross o.vel ≠ 0) :
    o.at bound o.epoch = some (o.turn o.pos, o.turn o.vel) := by
  obtain ⟨x, root, hp, hr, hx⟩ := (C45_propagate o.pos o.vel o.epoch o.epoch o.mu bound).2 hm hh (by simpa using hb)
  have hx0 : x = root := by
    have : |x - root| ≤ 0 := by simpa using hx
    exact sub_eq_zero.1 (abs_nonpos_iff.1 this)
  unfold KeplerOrbit.at
  rw [hp, hx0]
  rw [sub_self] at hr ⊢
  rw [C45_zero_time o.pos o.vel o.mu hm hh root hr]
  rfl

/-- Non-vacuity: a circular orbit around the Sun one unit out. -/
example : ∃ o : KeplerOrbit, 0 < o.mu ∧ o.pos.cross o.vel ≠ 0 ∧ o.epoch = 2451545 :=
  ⟨⟨⟨1, 0, 0⟩, ⟨0, 1, 0⟩, 2451545, 1, none⟩, one_pos, fun h => by
    have := congrArg Vec3.z h; simp [Vec3.cross] at this, rfl⟩

/-! ### Comets -/

section
variable {ts : Timescale ℝ} {row : CometRow} {gm : ℝ}

theorem cometP_eq (q e : ℝ) (he : 0 ≤ e) : cometP q e = q * (1 + e) := by
  have := (C58_comet_perihelion q e he).1
  rw [cos_zero, mul_one] at this
  have h1 : 1 + e ≠ 0 := by linarith
  field_simp at this
  linarith

/-- What `comet_orbit` builds. -/
theorem cometOrbit_eq (hi : 0 ≤ deg2rad * row.i ∧ deg2rad * row.i ≤ π) :
    ∃ pos vel, eleToVec (cometP row.q row.e) row.e (deg2rad * row.i) (deg2rad * row.Om) (deg2rad * row.w) 0 (gm * convertGm) =
        .state pos vel ∧
      cometOrbit ts row gm = some ⟨pos, vel, (ts.tt row.year row.month row.day 0 0 0).tt, gm * convertGm,
        some eclipJ2000Matrix.transpose⟩ := by
  obtain ⟨pos, vel, h⟩ := (C44_accepted (cometP row.q row.e) row.e (deg2rad * row.i) (deg2rad * row.Om) (deg2rad * row.w) 0
    (gm * convertGm)).2 ⟨hi.1, hi.2, Or.inr (arccos_nonneg _)⟩
  refine ⟨pos, vel, h, ?_⟩
  unfold cometOrbit KeplerOrbit.fromPeriapsis
  simp only [h, KeplerOrbit.ofState, Option.map_some]

/-- **C76.** A comet row is refused only for an inclination outside 0–180°. -/
theorem C76_comet_accepted : (∃ o, cometOrbit ts row gm = some o) ↔ 0 ≤ deg2rad * row.i ∧ deg2rad * row.i ≤ π := by
  constructor
  · rintro ⟨o, h⟩
    unfold cometOrbit KeplerOrbit.fromPeriapsis at h
    simp only [Option.map_eq_some_iff] at h
    obtain ⟨o', h, -⟩ := h
    have : ∃ r vel, eleToVec (cometP row.q row.e) row.e (deg2rad * row.i) (deg2rad * row.Om) (deg2rad * row.w) 0
        (gm * convertGm) = .state r vel := by
      cases hh : eleToVec (cometP row.q row.e) row.e (deg2rad * row.i) (deg2rad * row.Om) (deg2rad * row.w) 0
        (gm * convertGm) with
      | state r vel => exact ⟨r, vel, rfl⟩
      | valueError => rw [hh] at h; cases h
    have := (C44_accepted _ _ _ _ _ _ _).1 this
    exact ⟨this.1, this.2.1⟩
  · intro h
    obtain ⟨_, _, -, h⟩ := cometOrbit_eq (ts := ts) (gm := gm) h
    exact ⟨_, h⟩

/-- **C76.** A comet at the perihelion date of its row is at the perihelion distance of its row, in the direction set by the
row's node, inclination and argument of perihelion — measured in the ecliptic and equinox of J2000 and then turned to the
axes of the ICRF — moving at right angles to that direction, in the sense of the orbit. -/
theorem C76_comet_perihelion (bound : ℝ) (hb : 0 ≤ bound) (hi : 0 ≤ deg2rad * row.i ∧ deg2rad * row.i ≤ π)
    (hq : 0 < row.q) (he : 0 ≤ row.e) (hgm : 0 < gm) :
    ∃ o, cometOrbit ts row gm = some o ∧
      ∃ place velocity, o.at bound (ts.tt row.year row.month row.day 0 0 0).tt =
          some (eclipJ2000Matrix.transpose.mulVec place, eclipJ2000Matrix.transpose.mulVec velocity) ∧
        place = row.q • planeDir (deg2rad * row.Om) (deg2rad * row.i) (deg2rad * row.w) ∧
        place.dot velocity = 0 ∧
        place.cross velocity = √(gm * convertGm * (row.q * (1 + row.e))) • poleDir (deg2rad * row.Om) (deg2rad * row.i) := by
  obtain ⟨pos, vel, h, ho⟩ := cometOrbit_eq (ts := ts) (gm := gm) hi
  have hp : 0 < cometP row.q row.e := by rw [cometP_eq _ _ he]; positivity
  have hmu : 0 < gm * convertGm := mul_pos hgm convertGm_pos
  have hd : 0 < 1 + row.e * cos 0 := by rw [cos_zero]; linarith
  obtain ⟨f1, f2⟩ := eleToVec_form hp hd.ne' h
  have hL := C44_angular_momentum hp hmu hd h
  have hpl : cometP row.q row.e / (1 + row.e * cos 0) = row.q := (C58_comet_perihelion row.q row.e he).1
  rw [hpl, zero_add] at f1
  rw [sin_zero, mul_zero, zero_div, zero_add] at f2
  have hz : ∀ w : Vec3, (0 : ℝ) • w = 0 := fun w => by ext <;> simp
  rw [hz] at f2
  have hh : pos.cross vel ≠ 0 := fun hc => by
    rw [hL] at hc
    have hl := congrArg Vec3.length hc
    rw [Vec3.length_smul_of_nonneg (sqrt_nonneg _), Vec3.length_zero, Vec3.length_eq, pole_unit, sqrt_one, mul_one] at hl
    have : 0 < √(gm * convertGm * cometP row.q row.e) := sqrt_pos.2 (by positivity)
    linarith
  refine ⟨_, ho, pos, vel, C76_at_epoch ⟨pos, vel, _, _, _⟩ bound hb hmu hh, f1, ?_, ?_⟩
  · rw [f1, f2]
    have := planeDir_dot (deg2rad * row.Om) (deg2rad * row.i) (deg2rad * row.w)
    simp only [Vec3.dot, Vec3.add_x, Vec3.add_y, Vec3.add_z, Vec3.smul_x, Vec3.smul_y, Vec3.smul_z, Vec3.zero_x, Vec3.zero_y,
      Vec3.zero_z, zero_add] at this ⊢
    linear_combination row.q * (√(cometP row.q row.e * (gm * convertGm)) * (1 + row.e * cos 0) / cometP row.q row.e) * this
  · rw [hL, cometP_eq _ _ he]

/-- Non-vacuity: a parabolic comet passing perihelion on 2020 July 3.68, half an astronomical unit from the Sun. -/
example : ∃ (row : CometRow) (gm : ℝ), row.year = 2020 ∧ row.day = 3.68 ∧ (0 ≤ deg2rad * row.i ∧ deg2rad * row.i ≤ π) ∧
    0 < row.q ∧ row.e = 1 ∧ 0 < gm :=
  ⟨⟨2020, 7, 3.68, 0.5, 1, 37, 61, 100⟩, 132712440041.9394, rfl, rfl, ⟨by unfold deg2rad; norm_num, by
    have := pi_gt_three; unfold deg2rad; norm_num; linarith⟩, by norm_num, rfl, by norm_num⟩

/-- **C76.** The perihelion date of a row is read as a Gregorian date in Terrestrial Time with a decimal day: day `d` and
fraction `f` are the instant `f` of a day after the start of the date. -/
theorem C76_perihelion_date (D : ℤ → ℤ → ℤ → ℤ) (hD : Spec.IsGregorianDayNumber D) (hts : ts.cutoff = none) (y m d : ℤ)
    (f : ℝ) (hv : Spec.ValidDate Spec.gregorianLeap y m d) :
    (ts.tt y m (d + f) 0 0 0).tt = (D y m d : ℝ) - 1 / 2 + f := by
  rw [← C02_agrees_with_every_gregorian_count D hD y m d hv]
  unfold Timescale.tt Time.tt Timescale.jdOf julianDayFrac julianDay
  simp only [hts, cutoffMask]
  push_cast
  ring

/-- Non-vacuity. -/
example : ∃ ts : Timescale ℝ, ts.cutoff = none ∧ Spec.ValidDate Spec.gregorianLeap 2020 7 3 :=
  ⟨⟨fun _ => 0, [], [], none⟩, rfl, by decide⟩

end

section
variable {mu p e i Om w v : ℝ} {pos vel : Vec3}

/-- Size and shape of the orbit of a state made from elements. -/
theorem eleToVec_orbit (hp : 0 < p) (hmu : 0 < mu) (hd : 0 < 1 + e * cos v) (h : eleToVec p e i Om w v mu = .state pos vel) :
    let o : Osculating := ⟨pos, vel, mu⟩
    o.hVec ≠ 0 ∧ o.latusRectum = p ∧ o.eVec = e • planeDir Om i w := by
  intro o
  obtain ⟨hr, hrl⟩ := C44_position hp hd h
  have hL : o.hVec = √(mu * p) • poleDir Om i := C44_angular_momentum hp hmu hd h
  have hS : 0 < √(mu * p) := sqrt_pos.2 (by positivity)
  have hhl : o.hVec.length = √(mu * p) := by
    rw [hL, Vec3.length_smul_of_nonneg hS.le, Vec3.length_eq, pole_unit, sqrt_one, mul_one]
  have lr : 0 < pos.length := by rw [hrl]; positivity
  have hr0 : o.pos ≠ 0 := fun h => by
    rw [show pos = 0 from h, Vec3.length_zero] at lr; exact lt_irrefl _ lr
  refine ⟨fun h => by rw [h, Vec3.length_zero] at hhl; linarith, ?_, ?_⟩
  · unfold Osculating.latusRectum semiLatusRectum
    rw [hhl, sq_sqrt (by positivity)]
    exact mul_div_cancel_left₀ p hmu.ne'
  · rw [Osculating.eVec_eq hmu hr0]; exact C44_eccentricity_vector hp hmu hd h

/-- **C76.** Nothing moving as the orbit object says comes closer to the Sun than the perihelion distance. -/
theorem C76_never_closer (hp : 0 < p) (hmu : 0 < mu) (he : 0 ≤ e)
    (hd : 0 < 1 + e * cos v) (h : eleToVec p e i Om w v mu = .state pos vel) {r u : ℝ → Vec3} (hm : TwoBody mu r u) {t0 : ℝ}
    (hr : r t0 = pos) (hu : u t0 = vel) (t : ℝ) : p / (1 + e) ≤ (r t).length := by
  obtain ⟨a, b, c⟩ := eleToVec_orbit hp hmu hd h
  have hs : TwoBody.at_ mu r u t0 = ⟨pos, vel, mu⟩ := by unfold TwoBody.at_; rw [hr, hu]
  have hh : (r t0).cross (u t0) ≠ 0 := by rw [hr, hu]; exact a
  have h1 := Osculating.e_dot_pos (o := TwoBody.at_ mu r u t) hmu (hm.momentum_ne hh t)
  rw [hm.latus_const t t0, hm.eVec_const hmu t t0, hs, b, c] at h1
  have h2 := Vec3.dot_le (e • planeDir Om i w) (r t)
  rw [Vec3.length_smul_of_nonneg he, Vec3.length_eq (planeDir _ _ _), planeDir_unit, sqrt_one, mul_one] at h2
  have h3 : (TwoBody.at_ mu r u t).pos = r t := rfl
  rw [h3] at h1
  rw [div_le_iff₀ (by linarith)]
  linarith

/-- Multiplying the unit of length. -/
theorem eleToVec_scale {k : ℝ} (hk : 0 < k) (hp : 0 < p) (hmu : 0 < mu) (hd : 0 < 1 + e * cos v)
    (h : eleToVec p e i Om w v mu = .state pos vel) :
    eleToVec (k * p) e i Om w v (mu * k ^ 3) = .state (k • pos) (k • vel) := by
  obtain ⟨a1, a2⟩ := eleToVec_form hp hd.ne' h
  obtain ⟨r', v', h'⟩ := (C44_accepted (k * p) e i Om w v (mu * k ^ 3)).2 ((C44_accepted p e i Om w v mu).1 ⟨_, _, h⟩)
  obtain ⟨b1, b2⟩ := eleToVec_form (mul_pos hk hp) hd.ne' h'
  have hs : √(k * p * (mu * k ^ 3)) = k ^ 2 * √(p * mu) := by
    rw [show k * p * (mu * k ^ 3) = (k ^ 2) ^ 2 * (p * mu) by ring, sqrt_mul (by positivity), sqrt_sq (by positivity)]
  rw [h', b1, b2, a1, a2, hs]
  congr 1
  · ext <;> simp only [Vec3.smul_x, Vec3.smul_y, Vec3.smul_z] <;> ring
  · ext <;> simp only [Vec3.smul_x, Vec3.smul_y, Vec3.smul_z, Vec3.add_x, Vec3.add_y, Vec3.add_z] <;> field_simp

end

/-- **C76.** The attraction is the given one.  Written in kilometers and seconds from the epoch, the motion of an orbit whose
strength was converted from km³/s² by the code is a motion under exactly that attraction. -/
theorem C76_attraction {gm t0 : ℝ} {r v : ℝ → Vec3} (h : TwoBody (gm * convertGm) r v) :
    TwoBody gm (fun s => (149597870.7 : ℝ) • r (t0 + s / 86400)) (fun s => (149597870.7 / 86400 : ℝ) • v (t0 + s / 86400)) := by
  have := h.rescale (k := 149597870.7) (c := 1 / 86400) (t0 := t0) (by norm_num)
  rw [show gm * convertGm * 149597870.7 ^ 3 * (1 / 86400) ^ 2 = gm by
    unfold convertGm daySeconds auKm; norm_num; ring] at this
  simp only [one_div, inv_mul_eq_div, mul_comm (149597870.7 : ℝ) (86400⁻¹ : ℝ)] at this
  exact this

/-- **C76.** The osculating elements an orbit reports for its own epoch are those of the catalogue: perihelion distance (in
kilometers), eccentricity, inclination, node and argument of perihelion. -/
theorem C76_comet_elements {ts : Timescale ℝ} {row : CometRow} {gm : ℝ} {o : KeplerOrbit} (ho : cometOrbit ts row gm = some o)
    (hi : 0 < deg2rad * row.i ∧ deg2rad * row.i < π) (hOm : 0 ≤ deg2rad * row.Om ∧ deg2rad * row.Om < 2 * π)
    (hw : 0 ≤ deg2rad * row.w ∧ deg2rad * row.w < 2 * π) (hq : 0 < row.q) (he : 1e-15 < row.e) (hgm : 0 < gm) :
    o.elementsAtEpoch.periapsis = 149597870.7 * row.q ∧ o.elementsAtEpoch.eccentricity = row.e ∧
      o.elementsAtEpoch.inclination = deg2rad * row.i ∧ o.elementsAtEpoch.ascendingNode = deg2rad * row.Om ∧
      o.elementsAtEpoch.periapsisArgument = deg2rad * row.w ∧ o.elementsAtEpoch.trueAnomaly = 0 := by
  have he0 : 0 ≤ row.e := by linarith [show (0:ℝ) < 1e-15 by norm_num]
  obtain ⟨pos, vel, h, ho'⟩ := cometOrbit_eq (ts := ts) (gm := gm) ⟨hi.1.le, hi.2.le⟩
  rw [ho, Option.some_inj] at ho'
  have hp : 0 < cometP row.q row.e := by rw [cometP_eq _ _ he0]; positivity
  have hmu : 0 < gm * convertGm := mul_pos hgm convertGm_pos
  have hd : 0 < 1 + row.e * cos 0 := by rw [cos_zero]; linarith
  have hk : (0 : ℝ) < auKm := by unfold auKm; norm_num
  have hs := eleToVec_scale hk hp hmu hd h
  have e1 : o.elementsAtEpoch = ⟨(auKm : ℝ) • pos, (auKm : ℝ) • vel, gm * convertGm * auKm ^ 3⟩ := by
    rw [ho']
    unfold KeplerOrbit.elementsAtEpoch
    simp only [Osculating.mk.injEq, true_and]
    unfold convertGm daySeconds auKm
    norm_num
    ring
  obtain ⟨l, ec, inc, nd, ap, ta⟩ := C62_round_trip' _ _ _ _ _ _ _ _ _ (mul_pos hk hp) (by positivity) he hi.1 hi.2 hOm hw
    (by split <;> constructor <;> linarith [pi_pos]) hd hs
  rw [e1]
  refine ⟨?_, ec, inc, nd, ap, ta⟩
  rw [Osculating.periapsis_eq, l, ec, cometP_eq _ _ he0]
  have : 1 + row.e ≠ 0 := by linarith
  field_simp
  unfold auKm
  norm_num

/-- Non-vacuity. -/
example : ∃ (row : CometRow), (0 < deg2rad * row.i ∧ deg2rad * row.i < π) ∧ (0 ≤ deg2rad * row.Om ∧ deg2rad * row.Om < 2 * π) ∧
    (0 ≤ deg2rad * row.w ∧ deg2rad * row.w < 2 * π) ∧ 0 < row.q ∧ 1e-15 < row.e ∧
    ∃ (ts : Timescale ℝ) (o : KeplerOrbit), cometOrbit ts row 1 = some o := by
  have h3 := pi_gt_three
  have hi : 0 < deg2rad * 100 ∧ deg2rad * 100 < π := by unfold deg2rad; constructor <;> norm_num; linarith
  refine ⟨⟨2020, 7, 3.68, 0.5, 1, 37, 61, 100⟩, hi, ⟨by unfold deg2rad; norm_num, by unfold deg2rad; norm_num; linarith⟩,
    ⟨by unfold deg2rad; norm_num, by unfold deg2rad; norm_num; linarith⟩, by norm_num, by norm_num,
    ⟨fun _ => 0, [], [], none⟩, C76_comet_accepted.2 ⟨hi.1.le, hi.2.le⟩⟩

/-! ### Minor planets -/

theorem ttJd_tt (ts : Timescale ℝ) (jd : ℝ) : (ts.ttJd jd none).tt = jd := by
  unfold Timescale.ttJd normalizeJd pyDivmod Time.tt
  simp only [pyFloorDiv, pyMod]
  ring

/-- The eccentric anomaly stays away from half a turn when the mean anomaly does. -/
theorem eccentric_lt_pi {e M E : ℝ} (he0 : 0 ≤ e) (he1 : e < 1) (hM : |M| ≤ π - 1e-15) (h : |E - e * sin E - M| ≤ 1e-16) :
    |E| < π := by
  have mono := kepler_left_strictMono he0 he1
  have := abs_le.1 hM
  have := abs_le.1 h
  rw [abs_lt]
  constructor
  · by_contra hc
    push Not at hc
    have := mono.monotone hc
    simp only [sin_neg, sin_pi] at this
    norm_num at *
    linarith
  · by_contra hc
    push Not at hc
    have := mono.monotone hc
    simp only [sin_pi] at this
    norm_num at *
    linarith

/-- What `mpcorb_orbit` builds. -/
theorem mpcorbOrbit_eq {ts : Timescale ℝ} {row : MinorPlanetRow} {gm : ℝ} {o : KeplerOrbit}
    (ho : mpcorbOrbit ts row gm = some o) (he1 : row.e < 1) :
    ∃ E, eccentricAnomaly row.e (deg2rad * row.M) = some E ∧
      eleToVec (row.a * (1 - row.e * row.e)) row.e (deg2rad * row.i) (deg2rad * row.Om) (deg2rad * row.w)
        (trueAnomalyClosed row.e E) (gm * convertGm) = .state o.pos o.vel ∧
      packedEpoch row.epochPacked = some o.epoch ∧ o.mu = gm * convertGm ∧
      o.rotation = some eclipJ2000Matrix.transpose := by
  unfold mpcorbOrbit at ho
  simp only [Option.bind_eq_some_iff, Option.map_eq_some_iff, ttJd_tt] at ho
  obtain ⟨jd, hjd, o', ho', rfl⟩ := ho
  unfold KeplerOrbit.fromMeanAnomaly trueFromMean at ho'
  simp only [if_pos he1, Option.bind_eq_some_iff, Option.map_eq_some_iff] at ho'
  obtain ⟨v, ⟨E, hE, rfl⟩, ho'⟩ := ho'
  refine ⟨E, hE, ?_⟩
  cases h : eleToVec (row.a * (1 - row.e * row.e)) row.e (deg2rad * row.i) (deg2rad * row.Om) (deg2rad * row.w)
        (trueAnomalyClosed row.e E) (gm * convertGm) with
  | valueError => rw [h] at ho'; cases ho'
  | state pos vel =>
    rw [h] at ho'
    unfold KeplerOrbit.ofState at ho'
    simp only [Option.some_inj] at ho'
    subst ho'
    exact ⟨rfl, hjd, rfl, rfl⟩

/-- Half the rate of change of the squared distance, in terms of the eccentric anomaly. -/
theorem radial_rate {a e E v mu p al ka Om i w : ℝ} {pos vel : Vec3} (ha : 0 < a) (he : 0 < 1 - e * e) (hmu : 0 < mu)
    (hal : al = 1 / a) (hka0 : 0 < ka) (hka : ka ^ 2 = mu * al) (hp : p = a * (1 - e * e)) (hd : 0 < 1 + e * cos v)
    (t2 : p / (1 + e * cos v) * sin v = a * √(1 - e * e) * sin E) (h : eleToVec p e i Om w v mu = .state pos vel) :
    al / ka * pos.dot vel = e * sin E := by
  have hp0 : 0 < p := by rw [hp]; positivity
  obtain ⟨f1, f2⟩ := eleToVec_form hp0 hd.ne' h
  have h1 : al * a = 1 := by rw [hal]; field_simp
  have hs2 : √(1 - e * e) ^ 2 = 1 - e * e := sq_sqrt he.le
  have hs0 : 0 < √(1 - e * e) := sqrt_pos.2 he
  have hroot : √(p * mu) = ka * a * √(1 - e * e) := by
    rw [sqrt_eq_iff_mul_self_eq (by positivity) (by positivity)]
    symm
    calc ka * a * √(1 - e * e) * (ka * a * √(1 - e * e)) = ka ^ 2 * a ^ 2 * √(1 - e * e) ^ 2 := by ring
      _ = p * mu := by rw [hka, hs2, hp]; linear_combination mu * a * (1 - e * e) * h1
  have u1 := planeDir_unit Om i (v + w)
  have u2 := planeDir_dot Om i (v + w)
  have hdot : pos.dot vel = √(p * mu) * e * (p / (1 + e * cos v) * sin v) / p := by
    rw [f1, f2, Vec3.dot_add, Vec3.dot_smul, Vec3.dot_smul, Vec3.smul_dot, Vec3.smul_dot, u1, u2]; ring
  rw [hdot, t2, hroot]
  have : al / ka * (ka * a * √(1 - e * e) * e * (a * √(1 - e * e) * sin E) / p) =
    (al * a) * (√(1 - e * e) ^ 2 * a / p) * (e * sin E) := by field_simp
  rw [this, hs2, show (1 - e * e) * a = p by rw [hp]; ring, div_self hp0.ne', h1]
  ring

/-- A body at eccentric anomaly `E` was at perihelion the time `(E - e sin E)/n` earlier. -/
theorem passed_perihelion {mu a e E al ka s : ℝ} {r u : ℝ → Vec3} (hm : TwoBody mu r u) (hmu : 0 < mu) (he0 : 0 ≤ e)
    (he1 : e < 1) (ha : al * a = 1) (hal : 0 < al) (hka0 : 0 < ka) (hka : ka ^ 2 = mu * al)
    (hv : ∀ t, (u t).dot (u t) = 2 * mu / (r t).length - mu * al)
    (c1 : 1 - al * (r s).length = e * cos E) (c2 : al / ka * (r s).dot (u s) = e * sin E) :
    (r (s - (E - e * sin E) / (al * ka))).length = a * (1 - e) := by
  have hP := hm.ellipse_phase hmu hal hka0 hka hv s (s - (E - e * sin E) / (al * ka))
  simp only at hP
  rw [c1, c2] at hP
  set S := al / ka * (r (s - (E - e * sin E) / (al * ka))).dot (u (s - (E - e * sin E) / (al * ka)))
  have hD : al * ka * (s - (E - e * sin E) / (al * ka) - s) + S - e * sin E = S - E := by
    field_simp; ring
  rw [hD] at hP
  have hS : S - e * sin S = 0 := by
    have := sin_add E (S - E)
    rw [show E + (S - E) = S by ring] at this
    rw [this]; linarith [hP.2]
  have hS0 : S = 0 := (kepler_left_strictMono he0 he1).injective (by simpa using hS)
  have hC := hP.1
  rw [hS0] at hC
  have e1 : cos E * cos (0 - E) - sin E * sin (0 - E) = 1 := by
    rw [← cos_add]; simp
  have : al * (r (s - (E - e * sin E) / (al * ka))).length = 1 - e := by
    linear_combination -hC - e * e1
  linear_combination a * this - (r (s - (E - e * sin E) / (al * ka))).length * ha

/-- **C76.** A minor planet at the epoch of its row stands on the ellipse with the row's axis, eccentricity and orientation,
at the eccentric anomaly that solves Kepler's equation for the row's mean anomaly (to within 10⁻¹⁶ radian).

With the mean motion `n = √(gm/a³)`, any motion under the Sun's attraction through the state reported for the epoch passes
perihelion, at distance `a(1-e)`, the time `M/n` before the epoch (to within 10⁻¹⁶/n), and is never closer.  Mean anomalies
within 10⁻¹⁵ of half a turn are left out. -/
theorem C76_minor_planet {ts : Timescale ℝ} {row : MinorPlanetRow} {gm : ℝ} {o : KeplerOrbit}
    (ho : mpcorbOrbit ts row gm = some o) (ha : 0 < row.a) (he0 : 0 ≤ row.e) (he1 : row.e ≤ 1 - 1e-10) (hgm : 0 < gm)
    (hM : ∀ k : ℤ, 1e-15 ≤ |deg2rad * row.M - π - 2 * π * k|) :
    ∃ E M' : ℝ, (∃ k : ℤ, deg2rad * row.M = M' + 2 * π * k) ∧ |M'| ≤ π ∧ |E - row.e * sin E - M'| ≤ 1e-16 ∧
      o.pos = (row.a * (cos E - row.e)) • planeDir (deg2rad * row.Om) (deg2rad * row.i) (deg2rad * row.w) +
        (row.a * √(1 - row.e ^ 2) * sin E) • planeDir (deg2rad * row.Om) (deg2rad * row.i) (deg2rad * row.w + π / 2) ∧
      packedEpoch row.epochPacked = some o.epoch ∧
      (∀ bound, 0 ≤ bound → o.at bound o.epoch =
        some (eclipJ2000Matrix.transpose.mulVec o.pos, eclipJ2000Matrix.transpose.mulVec o.vel)) ∧
      ∃ n tp : ℝ, 0 < n ∧ n ^ 2 * row.a ^ 3 = o.mu ∧ o.mu = gm * convertGm ∧ |tp - (o.epoch - M' / n)| ≤ 1e-16 / n ∧
        ∀ r v, TwoBody o.mu r v → r o.epoch = o.pos → v o.epoch = o.vel →
          (r tp).length = row.a * (1 - row.e) ∧ ∀ t, row.a * (1 - row.e) ≤ (r t).length := by
  have he1' : row.e < 1 := by norm_num at he1; linarith
  obtain ⟨E, hE, h, hepoch, hmu, hrot⟩ := mpcorbOrbit_eq ho he1'
  obtain ⟨M', m0, m1, ⟨k, hk⟩, hres⟩ := C58_kepler_equation _ _ _ he0 he1 hE
  have hM' : |M'| ≤ π - 1e-15 := by
    have a1 := hM k
    have a2 := hM (k - 1)
    push_cast at a2
    rw [hk, show M' + k * (2 * π) - π - 2 * π * k = M' - π by ring, abs_of_neg (by linarith)] at a1
    rw [hk, show M' + k * (2 * π) - π - 2 * π * (k - 1) = M' + π by ring, abs_of_nonneg (by linarith)] at a2
    rw [abs_le]; constructor <;> linarith
  have hEpi := abs_lt.1 (eccentric_lt_pi he0 he1' hM' hres)
  have hcE : cos (E / 2) ≠ 0 := (cos_pos_of_mem_Ioo ⟨by linarith, by linarith⟩).ne'
  have h12 : 0 < 1 - row.e ^ 2 := by nlinarith
  have hp : 0 < row.a * (1 - row.e * row.e) := mul_pos ha (by nlinarith)
  have hmp : 0 < gm * convertGm := mul_pos hgm convertGm_pos
  set v := trueAnomalyClosed row.e E with hv
  have hd : 0 < 1 + row.e * cos v := by
    have := neg_one_le_cos v; nlinarith
  obtain ⟨t1, t2, t3⟩ := C58_true_anomaly row.a row.e E he0 he1' hcE
  rw [← hv] at t1 t2 t3
  rw [show row.e ^ 2 = row.e * row.e by ring] at t1 t2 t3
  obtain ⟨f1, f2⟩ := eleToVec_form hp hd.ne' h
  set p := row.a * (1 - row.e * row.e) with hpd
  set R := p / (1 + row.e * cos v) with hR
  obtain ⟨q1, q2, q3⟩ := eleToVec_orbit hp hmp hd h
  obtain ⟨l1, l2⟩ := C44_position hp hd h
  refine ⟨E, M', ⟨k, by rw [hk]; ring⟩, abs_le.2 ⟨m0, m1.le⟩, hres, ?_, hepoch, fun bound hb => ?_, ?_⟩
  · rw [f1, show row.e ^ 2 = row.e * row.e by ring, ← t1, ← t2]
    simp only [planeDir, cos_add_pi_div_two, sin_add_pi_div_two, cos_add v, sin_add v]
    ext <;> simp only [Vec3.smul_x, Vec3.smul_y, Vec3.smul_z, Vec3.add_x, Vec3.add_y, Vec3.add_z] <;> ring
  · rw [C76_at_epoch o bound hb (by rw [hmu]; exact hmp) q1]
    unfold KeplerOrbit.turn
    rw [hrot]
  · set al := 1 / row.a with hal
    have hal0 : 0 < al := by positivity
    set ka := √(gm * convertGm * al) with hka
    have hka0 : 0 < ka := sqrt_pos.2 (by positivity)
    have hka2 : ka ^ 2 = gm * convertGm * al := sq_sqrt (by positivity)
    have hn : 0 < al * ka := by positivity
    refine ⟨al * ka, o.epoch - (E - row.e * sin E) / (al * ka), hn, ?_, hmu, ?_, ?_⟩
    · rw [mul_pow, hka2, hmu, hal]; field_simp
    · rw [show o.epoch - (E - row.e * sin E) / (al * ka) - (o.epoch - M' / (al * ka)) =
        -((E - row.e * sin E - M') / (al * ka)) by ring, abs_neg, abs_div, abs_of_pos hn]
      gcongr
    · intro r u hm hr hu
      rw [hmu] at hm
      have hq : p / (1 + row.e) = row.a * (1 - row.e) := by
        rw [hpd]; have : 1 + row.e ≠ 0 := by linarith
        field_simp; ring
      refine ⟨?_, fun t => by
        rw [← hq]; exact C76_never_closer hp hmp he0 hd h hm hr hu t⟩
      have hh : (r o.epoch).cross (u o.epoch) ≠ 0 := by rw [hr, hu]; exact q1
      have hs : TwoBody.at_ (gm * convertGm) r u o.epoch = ⟨o.pos, o.vel, gm * convertGm⟩ := by
        unfold TwoBody.at_; rw [hr, hu]
      have hecc : (TwoBody.at_ (gm * convertGm) r u o.epoch).eccentricity = row.e := by
        unfold Osculating.eccentricity
        rw [hs, q3, Vec3.length_smul_of_nonneg he0, Vec3.length_eq, planeDir_unit, sqrt_one, mul_one]
      have hlat : (TwoBody.at_ (gm * convertGm) r u o.epoch).latusRectum = p := by rw [hs]; exact q2
      have hale : al = (1 - (TwoBody.at_ (gm * convertGm) r u o.epoch).eccentricity ^ 2) /
          (TwoBody.at_ (gm * convertGm) r u o.epoch).latusRectum := by
        rw [hecc, hlat, hal, hpd]
        have : 1 - row.e * row.e ≠ 0 := by nlinarith
        field_simp
      have h1 : al * row.a = 1 := by rw [hal]; field_simp
      refine passed_perihelion hm hmp he0 he1' h1 hal0 hka0 hka2 (fun t => (hm.scalars_at hmp hh hale t).1) ?_ ?_
      · rw [hr, l2, show p / (1 + row.e * cos v) = R from rfl, t3]; linear_combination -(1 - row.e * cos E) * h1
      · rw [hr, hu]
        exact radial_rate ha (by nlinarith) hmp hal hka0 hka2 hpd hd t2 h

/-- A mean anomaly of zero is solved at once. -/
theorem eccentricAnomaly_half_zero : eccentricAnomaly (1 / 2) 0 = some 0 := by
  have h3 := pi_gt_three
  have hn : normpi 0 = 0 := by
    unfold normpi pyMod tau
    have : ⌊(0 + π) / (2 * π)⌋ = 0 := by
      rw [zero_add, show π / (2 * π) = 1 / 2 by field_simp]; norm_num
    rw [this]; simp
  have hb : 0 < 1 / 4 * π / (1 / 2) - 1 := by linarith
  unfold eccentricAnomaly
  simp only [hn, sign_zero, SignType.coe_zero, mul_zero]
  rw [if_neg (by norm_num), if_neg hb.ne', sign_pos hb]
  simp only [SignType.coe_one, zero_div, add_zero, sqrt_one, mul_one, sub_self, mul_zero]
  unfold eccentricLoop
  norm_num

/-- Non-vacuity: a minor planet at its perihelion on 2010 July 23. -/
example : ∃ (ts : Timescale ℝ) (row : MinorPlanetRow) (o : KeplerOrbit), mpcorbOrbit ts row 1 = some o ∧ 0 < row.a ∧
    (0 ≤ row.e ∧ 1e-15 < row.e) ∧ (row.e ≤ 1 - 1e-10 ∧ row.e < 1 - 1e-15) ∧
    (∀ k : ℤ, 1e-15 ≤ |deg2rad * row.M - π - 2 * π * k|) ∧ (0 < deg2rad * row.i ∧ deg2rad * row.i < π) ∧
    (0 ≤ deg2rad * row.Om ∧ deg2rad * row.Om < 2 * π) ∧ (0 ≤ deg2rad * row.w ∧ deg2rad * row.w < 2 * π) := by
  have h3 := pi_gt_three
  have hep : ∃ x, packedEpoch "K107N".toList = some x := by
    have : "K107N".toList = ['K', '1', '0', '7', 'N'] := by decide
    rw [this]
    exact ⟨_, rfl⟩
  obtain ⟨jd, hjd⟩ := hep
  obtain ⟨pos, vel, h⟩ := (C44_accepted (2 * (1 - 1 / 2 * (1 / 2))) (1 / 2) (deg2rad * 10) (deg2rad * 80) (deg2rad * 73)
    (trueAnomalyClosed (1 / 2) 0) (1 * convertGm)).2 ⟨by unfold deg2rad; norm_num, by unfold deg2rad; norm_num; linarith,
      Or.inl (by norm_num)⟩
  refine ⟨⟨fun _ => 0, [], [], none⟩, ⟨"K107N".toList, 0, 73, 80, 10, 1 / 2, 2⟩, ⟨pos, vel, jd, 1 * convertGm,
    some eclipJ2000Matrix.transpose⟩, ?_, by norm_num, by norm_num, by norm_num, fun k => ?_,
    by unfold deg2rad; constructor <;> norm_num; linarith, by unfold deg2rad; constructor <;> norm_num; linarith,
    by unfold deg2rad; constructor <;> norm_num; linarith⟩
  · unfold mpcorbOrbit KeplerOrbit.fromMeanAnomaly trueFromMean
    simp only [hjd, Option.bind_some, mul_zero, eccentricAnomaly_half_zero, Option.map_some]
    rw [if_pos (by norm_num)]
    simp only [Option.bind_some, h, KeplerOrbit.ofState, Option.map_some, ttJd_tt]
  · have hk : (1 : ℝ) ≤ |((2 * k + 1 : ℤ) : ℝ)| := by
      rw [← Int.cast_abs]; exact_mod_cast Int.one_le_abs (by omega)
    rw [show deg2rad * (0 : ℝ) - π - 2 * π * k = -(π * ((2 * k + 1 : ℤ) : ℝ)) by push_cast; ring, abs_neg, abs_mul,
      abs_of_pos pi_pos]
    nlinarith [show (1e-15 : ℝ) ≤ 1 by norm_num]

/-- **C76.** The osculating elements a minor planet reports for its epoch: semimajor axis (in kilometers), eccentricity,
inclination, node and argument of perihelion are those of the row. -/
theorem C76_minor_planet_elements {ts : Timescale ℝ} {row : MinorPlanetRow} {gm : ℝ} {o : KeplerOrbit}
    (ho : mpcorbOrbit ts row gm = some o) (ha : 0 < row.a) (he0 : 1e-15 < row.e) (he1 : row.e < 1 - 1e-15) (hgm : 0 < gm)
    (hi : 0 < deg2rad * row.i ∧ deg2rad * row.i < π) (hOm : 0 ≤ deg2rad * row.Om ∧ deg2rad * row.Om < 2 * π)
    (hw : 0 ≤ deg2rad * row.w ∧ deg2rad * row.w < 2 * π) :
    o.elementsAtEpoch.majorAxis = some (149597870.7 * row.a) ∧ o.elementsAtEpoch.eccentricity = row.e ∧
      o.elementsAtEpoch.inclination = deg2rad * row.i ∧ o.elementsAtEpoch.ascendingNode = deg2rad * row.Om ∧
      o.elementsAtEpoch.periapsisArgument = deg2rad * row.w := by
  have h15 : (0 : ℝ) < 1e-15 := by norm_num
  have he1' : row.e < 1 := by linarith
  obtain ⟨E, hE, h, -, hmu, -⟩ := mpcorbOrbit_eq ho he1'
  set v := trueAnomalyClosed row.e E
  have hp : 0 < row.a * (1 - row.e * row.e) := mul_pos ha (by nlinarith)
  have hmp : 0 < gm * convertGm := mul_pos hgm convertGm_pos
  have hd : 0 < 1 + row.e * cos v := by have := neg_one_le_cos v; nlinarith
  -- the same state with the true anomaly brought into the range of the elements
  obtain ⟨n, hn⟩ := pyMod_eq_sub' v tau
  have hv' : pyMod v tau = v - n * (2 * π) := by rw [hn, tau]; ring
  have hc : cos (pyMod v tau) = cos v := by rw [hv', cos_sub_int_mul_two_pi]
  have hsn : sin (pyMod v tau) = sin v := by rw [hv', sin_sub_int_mul_two_pi]
  have hcu : cos (pyMod v tau + deg2rad * row.w) = cos (v + deg2rad * row.w) := by rw [cos_add, cos_add, hc, hsn]
  have hsu : sin (pyMod v tau + deg2rad * row.w) = sin (v + deg2rad * row.w) := by rw [sin_add, sin_add, hc, hsn]
  have hmod : eleToVec (row.a * (1 - row.e * row.e)) row.e (deg2rad * row.i) (deg2rad * row.Om) (deg2rad * row.w)
      (pyMod v tau) (gm * convertGm) = .state o.pos o.vel := by
    rw [← h]
    unfold eleToVec
    have hno : ∀ x, ¬ (row.e > 1 ∧ x > arccos (-1 / row.e)) := fun x hh => absurd hh.1 (not_lt.2 he1'.le)
    simp only [hc, hsn, hcu, hsu, if_neg (hno _)]
  have hk : (0 : ℝ) < auKm := by unfold auKm; norm_num
  have hd' : 0 < 1 + row.e * cos (pyMod v tau) := by rw [hc]; exact hd
  have hs := eleToVec_scale hk hp hmp hd' hmod
  have e1 : o.elementsAtEpoch = ⟨(auKm : ℝ) • o.pos, (auKm : ℝ) • o.vel, gm * convertGm * auKm ^ 3⟩ := by
    unfold KeplerOrbit.elementsAtEpoch
    rw [hmu]
    simp only [Osculating.mk.injEq, true_and]
    unfold convertGm daySeconds auKm
    norm_num
    ring
  obtain ⟨l, ec, inc, nd, ap, -⟩ := C62_round_trip' _ _ _ _ _ _ _ _ _ (mul_pos hk hp) (by positivity) he0 hi.1 hi.2 hOm hw
    (by rw [if_pos he1]; exact pyMod_tau_mem v) hd' hs
  rw [e1]
  refine ⟨?_, ec, inc, nd, ap⟩
  unfold Osculating.majorAxis semiMajorAxis
  rw [ec, l, if_pos he1'.ne, Option.some_inj]
  have : 1 - row.e ^ 2 ≠ 0 := by nlinarith
  field_simp
  unfold auKm
  norm_num

/-! ### Findings -/

/-- **C76 (limitation).** The builder that takes a true anomaly stores the strength in km³/s² where au³/day² is expected: the
motion it then predicts is one under an attraction more than 10¹⁴ times too strong. -/
theorem C76_true_anomaly_units (pKm e i Om w v epoch gm : ℝ) (o : KeplerOrbit) (hgm : 0 < gm)
    (h : KeplerOrbit.fromTrueAnomaly pKm e i Om w v epoch (some gm) none = some o) :
    o.mu = gm ∧ 1e14 * (gm * convertGm) < o.mu := by
  have hmu : o.mu = gm := by
    unfold KeplerOrbit.fromTrueAnomaly at h
    simp only [ne_eq, reduceCtorEq, not_false_eq_true, Option.some_inj, not_true_eq_false, and_false,
      and_true, false_or, hgm.ne', Option.getD_some, if_false, not_not] at h
    split at h
    · rw [Option.some_inj] at h
      rw [← h]
    · cases h
  refine ⟨hmu, ?_⟩
  rw [hmu]
  have : 1e14 * convertGm < 1 := by unfold convertGm daySeconds auKm; norm_num
  nlinarith

/-- Non-vacuity. -/
example : ∃ o, KeplerOrbit.fromTrueAnomaly 1e8 0.5 1 0 0 0 2451545 (some 132712440041.9394) none = some o := by
  obtain ⟨pos, vel, h⟩ := (C44_accepted 1e8 0.5 1 0 0 0 132712440041.9394).2 ⟨by norm_num, by linarith [pi_gt_three],
    Or.inl (by norm_num)⟩
  have e : KeplerOrbit.fromTrueAnomaly 1e8 0.5 1 0 0 0 2451545 (some 132712440041.9394) none =
      some ⟨(1 / auKm : ℝ) • pos, (daySeconds / auKm : ℝ) • vel, 2451545, 132712440041.9394, none⟩ := by
    unfold KeplerOrbit.fromTrueAnomaly
    simp only
    rw [if_neg (by norm_num; exact Option.some_ne_none _), if_neg (by simp)]
    simp only [Option.getD_some, h]
  exact ⟨_, e⟩

end Skyfield
