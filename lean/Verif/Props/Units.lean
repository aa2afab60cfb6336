import Verif.Model.Units
import Mathlib.Tactic.Linarith
import Mathlib.Tactic.FieldSimp
import Mathlib.Tactic.Ring
import Mathlib.Tactic.NormNum
import Mathlib.Tactic.Positivity
import Mathlib.Data.Rat.Floor

/-
C20-C24: units, sexagesimal notation, angle access.
-/
namespace Skyfield
set_option linter.unusedSectionVars false
variable {K : Type*} [Field K] [LinearOrder K] [IsStrictOrderedRing K] [FloorRing K]

/-! ### Specification: how big each unit is -/

/-- Metres in each unit of distance. -/
def DistanceUnit.metres : DistanceUnit → K
  | .au => 149597870700 | .km => 1000 | .m => 1

/-- Metres per second in each unit of velocity. -/
def VelocityUnit.metresPerSecond : VelocityUnit → K
  | .auPerD => 149597870700 / 86400 | .kmPerS => 1000 | .mPerS => 1

/-- Turns in each unit of angle. -/
noncomputable def AngleRateUnit.turns : AngleRateUnit → ℝ
  | .radians => 1 / (2 * Real.pi) | .degrees => 1 / 360 | .arcminutes => 1 / (360 * 60)
  | .arcseconds => 1 / (360 * 60 * 60) | .mas => 1 / (360 * 60 * 60 * 1000)

/-- Days in each unit of time. -/
noncomputable def RateUnit.days : RateUnit → ℝ
  | .perDay => 1 | .perHour => 1 / 24 | .perMinute => 1 / (24 * 60) | .perSecond => 1 / (24 * 60 * 60)

/-! ### C20 -/

/-- The instance stores the quantity `q` (in some absolute measure `size`) in each unit it has, and has
the core unit. -/
def UnitClass.Holds {U : Type*} (c : UnitClass U K) (size : U → K) (d : UnitDict U K) (q : K) : Prop :=
  (∃ v, d c.core = some v) ∧ ∀ u v, d u = some v → v * size u = q

theorem UnitClass.read_holds {U : Type*} [DecidableEq U] (c : UnitClass U K) (size : U → K)
    (hpos : ∀ u, size u ≠ 0) (hf : ∀ u, u ≠ c.core → c.factor u * size u = size c.core)
    (d : UnitDict U K) (q : K) (h : c.Holds size d q) (u : U) :
    ∃ d', c.read d u = some (q / size u, d') ∧ c.Holds size d' q := by
  unfold UnitClass.read
  cases hd : d u with
  | some v =>
    refine ⟨d, ?_, h⟩
    have := h.2 u v hd
    rw [← this, mul_div_assoc, div_self (hpos u), mul_one]
  | none =>
    obtain ⟨⟨v, hv⟩, h2⟩ := h
    simp only [hv]
    have hu : u ≠ c.core := by rintro rfl; rw [hd] at hv; cases hv
    have e : v * c.factor u = q / size u := by
      rw [eq_div_iff (hpos u), mul_assoc, hf u hu]; exact h2 _ _ hv
    refine ⟨_, by rw [e], ⟨v, ?_⟩, ?_⟩
    · simp [UnitDict.set, Ne.symm hu, hv]
    · intro u' v' h'
      unfold UnitDict.set at h'
      split at h'
      · rename_i hc
        simp only [Option.some.injEq] at h'
        rw [hc, ← h']; first | rw [div_mul_cancel₀ _ (hpos u)] | rw [e, div_mul_cancel₀ _ (hpos u)]
      · exact h2 u' v' h'

theorem UnitClass.readAll_holds {U : Type*} [DecidableEq U] (c : UnitClass U K) (size : U → K)
    (hpos : ∀ u, size u ≠ 0) (hf : ∀ u, u ≠ c.core → c.factor u * size u = size c.core)
    (us : List U) (d : UnitDict U K) (q : K) (h : c.Holds size d q) :
    c.readAll d us = some (us.map fun u => q / size u) := by
  induction us generalizing d with
  | nil => rfl
  | cons u us ih =>
    obtain ⟨d', h1, h2⟩ := c.read_holds size hpos hf d q h u
    simp [UnitClass.readAll, h1, ih d' h2]

theorem UnitClass.construct_holds {U : Type*} [DecidableEq U] (c : UnitClass U K) (size : U → K)
    (hpos : ∀ u, size u ≠ 0) (hf : ∀ u, u ≠ c.core → c.factor u * size u = size c.core) (u : U) (x : K) :
    c.Holds size (c.construct u x) (x * size u) := by
  unfold UnitClass.construct
  by_cases hu : u = c.core
  · rw [if_pos hu]
    refine ⟨⟨x, by simp [UnitDict.set, hu]⟩, ?_⟩
    intro u' v' h'
    unfold UnitDict.set at h'
    split at h'
    · simp only [Option.some.injEq] at h'; subst h'; simp_all
    · cases h'
  · rw [if_neg hu]
    have hfu : c.factor u ≠ 0 := by
      intro e; have := hf u hu; rw [e, zero_mul] at this; exact hpos _ this.symm
    refine ⟨⟨x / c.factor u, by simp [UnitDict.set]⟩, ?_⟩
    intro u' v' h'
    unfold UnitDict.set at h'
    split at h'
    · rename_i hc
      simp only [Option.some.injEq] at h'
      rw [hc, ← h', ← hf u hu]
      field_simp
    · split at h'
      · rename_i hc
        simp only [Option.some.injEq] at h'
        rw [hc, h']
      · cases h'

theorem distance_sizes : (∀ u : DistanceUnit, (u.metres : K) ≠ 0) ∧
    ∀ u : DistanceUnit, u ≠ (distanceClass : UnitClass DistanceUnit K).core →
      (distanceClass : UnitClass DistanceUnit K).factor u * u.metres =
        (distanceClass : UnitClass DistanceUnit K).core.metres := by
  constructor
  · intro u; cases u <;> simp [DistanceUnit.metres]
  · intro u hu
    cases u
    · exact absurd rfl hu
    · simp [distanceClass, DistanceUnit.metres, auKm]; norm_num
    · simp [distanceClass, DistanceUnit.metres, auM]

theorem velocity_sizes : (∀ u : VelocityUnit, (u.metresPerSecond : K) ≠ 0) ∧
    ∀ u : VelocityUnit, u ≠ (velocityClass : UnitClass VelocityUnit K).core →
      (velocityClass : UnitClass VelocityUnit K).factor u * u.metresPerSecond =
        (velocityClass : UnitClass VelocityUnit K).core.metresPerSecond := by
  constructor
  · intro u; cases u <;> simp [VelocityUnit.metresPerSecond]
  · intro u hu
    cases u
    · exact absurd rfl hu
    · simp [velocityClass, VelocityUnit.metresPerSecond, auKm, daySeconds]; norm_num
    · simp [velocityClass, VelocityUnit.metresPerSecond, auM, daySeconds]

/-- **C20.** A distance made from `x` in the unit `u`, however it is then read — any units, in any order, any
number of times — shows in each unit the number of metres divided by the unit's size; in particular
reading it in `u` gives `x`. -/
theorem C20_distance (u : DistanceUnit) (x : K) (reads : List DistanceUnit) :
    distanceClass.readAll (distanceClass.construct u x) reads =
      some (reads.map fun r => x * u.metres / r.metres) :=
  UnitClass.readAll_holds _ _ distance_sizes.1 distance_sizes.2 _ _ _
    (UnitClass.construct_holds _ _ distance_sizes.1 distance_sizes.2 u x)

/-- **C20.** `Distance(au=..)`, `Distance(km=..)` and `Distance(m=..)` are the same as
`Distance.au(..)`, `Distance.km(..)` and `Distance.m(..)`; au takes precedence over km over m. -/
theorem C20_distance_init (au km m : Option K) :
    distanceInit au km m = match au, km, m with
      | some x, _, _ => some (distanceClass.construct .au x)
      | none, some x, _ => some (distanceClass.construct .km x)
      | none, none, some x => some (distanceClass.construct .m x)
      | none, none, none => none := by
  cases au <;> cases km <;> cases m <;> rfl

/-- **C20.** Light seconds: how long light takes for that many metres. -/
theorem C20_light_seconds (u : DistanceUnit) (x : K) :
    lightSeconds (distanceClass.construct u x) = some (x * u.metres / 299792458) := by
  obtain ⟨d', h1, -⟩ := UnitClass.read_holds _ _ distance_sizes.1 distance_sizes.2 _ _
    (UnitClass.construct_holds _ _ distance_sizes.1 distance_sizes.2 u x) .m
  unfold lightSeconds
  rw [h1]
  simp [DistanceUnit.metres, lightSpeed]

/-- **C20.** The same for velocities. -/
theorem C20_velocity (u : VelocityUnit) (x : K) (reads : List VelocityUnit) :
    velocityClass.readAll (velocityClass.construct u x) reads =
      some (reads.map fun r => x * u.metresPerSecond / r.metresPerSecond) :=
  UnitClass.readAll_holds _ _ velocity_sizes.1 velocity_sizes.2 _ _ _
    (UnitClass.construct_holds _ _ velocity_sizes.1 velocity_sizes.2 u x)

/-- **C20.** `Velocity(km_per_s=..)` and `Velocity(au_per_d=..)`. -/
theorem C20_velocity_init (au km : Option K) :
    velocityInit au km = match km, au with
      | some x, _ => some (velocityClass.construct .kmPerS x)
      | none, some x => some (velocityClass.construct .auPerD x)
      | none, none => none := by
  cases km with
  | none => cases au <;> rfl
  | some x =>
    have : x / ((velocityClass : UnitClass VelocityUnit K).factor .kmPerS) = x * daySeconds / auKm :=
      div_div_eq_mul_div _ _ _
    show velocityInit au (some x) = some (velocityClass.construct .kmPerS x)
    unfold UnitClass.construct
    rw [this]
    rfl

/-- **C20.** Rates of change of angles: the same rate in turns per day whichever units it is read in. -/
theorem C20_angle_rate (x : ℝ) (u : AngleRateUnit) (r : RateUnit) :
    rateIn (angleRatePerDay x u) r * u.turns / r.days = x / (2 * Real.pi) := by
  have := Real.pi_pos
  cases u <;> cases r <;>
    simp only [rateIn, angleRatePerDay, AngleRateUnit.turns, RateUnit.days, tau] <;> field_simp <;> norm_num <;> ring

/-! ### C20: angles -/

/-- How an angle can be made. -/
inductive AngleMade : AngleObj → ℝ → Prop
  | radians (x : ℝ) (p s) : AngleMade (angleInit none (some x) none none p s) (x / (2 * Real.pi))
  | degrees (x : ℝ) (p s) : AngleMade (angleInit none none (some x) none p s) (x / 360)
  | hours (x : ℝ) (p s) : AngleMade (angleInit none none none (some x) p s) (x / 24)
  | fromDegrees (x : ℝ) (s) : AngleMade (angleFromDegrees x s) (x / 360)
  | fromRadians (x : ℝ) : AngleMade (angleFromRadians x) (x / (2 * Real.pi))
  | copy (a : AngleObj) (turns : ℝ) (p s) (h : AngleMade a turns) :
      AngleMade (angleInit (some a) none none none p s) turns

/-- The instance stores an angle of `turns` turns in every unit it has stored so far. -/
def AngleObj.Holds (a : AngleObj) (turns : ℝ) : Prop :=
  a.radians = some (turns * (2 * Real.pi)) ∧ (∀ h, a.hours = some h → h = turns * 24) ∧
    ∀ d, a.degrees = some d → d = turns * 360

theorem AngleMade.holds {a : AngleObj} {turns : ℝ} (h : AngleMade a turns) : a.Holds turns := by
  have := Real.pi_pos
  induction h with
  | radians x p s =>
    refine ⟨?_, ?_, ?_⟩ <;> simp [angleInit]
  | degrees x p s =>
    refine ⟨?_, ?_, ?_⟩ <;> simp [angleInit, tau]
  | hours x p s =>
    refine ⟨?_, ?_, ?_⟩ <;> simp [angleInit, tau]
  | fromDegrees x s =>
    refine ⟨?_, ?_, ?_⟩ <;> simp [angleFromDegrees, tau]
  | fromRadians x =>
    refine ⟨?_, ?_, ?_⟩ <;> simp [angleFromRadians]
  | copy a turns p s h ih =>
    refine ⟨?_, ?_, ?_⟩
    · simpa [angleInit] using ih.1
    · simp [angleInit]
    · simp [angleInit]

theorem AngleObj.getHours_eq {a : AngleObj} {turns : ℝ} (h : a.Holds turns) :
    ∃ a', a.getHours = .ok (turns * 24, a') ∧ a'.Holds turns ∧ a'.preference = a.preference ∧
      a'.signed = a.signed := by
  have hp := Real.pi_pos
  unfold AngleObj.getHours
  cases hh : a.hours with
  | some x => exact ⟨a, by rw [h.2.1 x hh], h, rfl, rfl⟩
  | none =>
    have e : turns * (2 * Real.pi) * 24 / tau = turns * 24 := by unfold tau; field_simp
    refine ⟨{ a with hours := some (turns * 24) }, by simp only [h.1, e], ⟨h.1, ?_, h.2.2⟩, rfl, rfl⟩
    intro x hx
    simp only [Option.some.injEq] at hx
    exact hx.symm

theorem AngleObj.getDegrees_eq {a : AngleObj} {turns : ℝ} (h : a.Holds turns) :
    ∃ a', a.getDegrees = .ok (turns * 360, a') ∧ a'.Holds turns ∧ a'.preference = a.preference ∧
      a'.signed = a.signed := by
  have hp := Real.pi_pos
  unfold AngleObj.getDegrees
  cases hh : a.degrees with
  | some x => exact ⟨a, by rw [h.2.2 x hh], h, rfl, rfl⟩
  | none =>
    have e : turns * (2 * Real.pi) * 360 / tau = turns * 360 := by unfold tau; field_simp
    refine ⟨{ a with degrees := some (turns * 360) }, by simp only [h.1, e], ⟨h.1, h.2.1, ?_⟩, rfl, rfl⟩
    intro x hx
    simp only [Option.some.injEq] at hx
    exact hx.symm

/-- What every access should return, as a function of the angle in turns, of the preference and of the
`signed` flag it was made with: the numbers in each unit, hours refused unless preferred or `warn=False`,
degrees likewise. -/
noncomputable def expectedAccess (turns : ℝ) (pref : Option Preference) (signed : Option Bool) :
    AngleAccess → Except AngleError AngleResult
  | .radians => .ok (.number (turns * (2 * Real.pi)))
  | .hours => .ok (.number (turns * 24))
  | .degrees => .ok (.number (turns * 360))
  | .arcminutes => .ok (.number (turns * (360 * 60)))
  | .arcseconds => .ok (.number (turns * (360 * 60 * 60)))
  | .mas => .ok (.number (turns * (360 * 60 * 60 * 1000)))
  | .hms warn => guarded warn .hours (.tuple (signedTuple (sexagesimalizeToFloat (SignedNum.ofNum (turns * 24)))))
  | .signedHms warn => guarded warn .hours (.tuple (fourTuple (turns * 24)))
  | .hstr places warn => guarded warn .hours (.text (sfmt .hfmt (turns * 24) places))
  | .dms warn =>
    guarded warn .degrees (.tuple (signedTuple (sexagesimalizeToFloat (SignedNum.ofNum (turns * 360)))))
  | .signedDms warn => guarded warn .degrees (.tuple (fourTuple (turns * 360)))
  | .dstr places warn =>
    match signed with
    | none => match guarded warn .degrees (.number 0) with
      | .error e => .error e
      | .ok _ => .error .missingAttribute
    | some b => guarded warn .degrees (.text (sfmt (if b then .dsgn else .dfmt) (turns * 360) places))
where
  guarded (warn : Bool) (wanted : Preference) (r : AngleResult) : Except AngleError AngleResult :=
    match warn, pref with
    | false, _ => .ok r
    | true, none => .error .missingAttribute
    | true, some p => if p = wanted then .ok r else .error .wrongUnit
  fourTuple (x : ℝ) : List (SignedNum ℝ) :=
    let s := sexagesimalizeToFloat (SignedNum.ofNum x)
    [s.sign, ⟨false, s.units⟩, ⟨false, s.minutes⟩, ⟨false, s.seconds⟩]

theorem AngleObj.access_eq (a : AngleObj) (turns : ℝ) (h : a.Holds turns) (x : AngleAccess) :
    (∃ e, a.access x = .error e ∧ expectedAccess turns a.preference a.signed x = .error e) ∨
    ∃ r a', a.access x = .ok (r, a') ∧ expectedAccess turns a.preference a.signed x = .ok r ∧
      a'.Holds turns ∧ a'.preference = a.preference ∧ a'.signed = a.signed := by
  obtain ⟨ah, eh, h1, h2, h3⟩ := a.getHours_eq h
  obtain ⟨ad, ed, d1, d2, d3⟩ := a.getDegrees_eq h
  cases x with
  | radians =>
    right; refine ⟨_, a, ?_, rfl, h, rfl, rfl⟩
    simp [AngleObj.access, h.1]
  | hours =>
    right; refine ⟨_, ah, ?_, rfl, h1, h2, h3⟩
    simp [AngleObj.access, eh, Except.map]
  | degrees =>
    right; refine ⟨_, ad, ?_, rfl, d1, d2, d3⟩
    simp [AngleObj.access, ed, Except.map]
  | arcminutes =>
    right; refine ⟨_, ad, ?_, rfl, d1, d2, d3⟩
    simp [AngleObj.access, ed, Except.map]; ring
  | arcseconds =>
    right; refine ⟨_, ad, ?_, rfl, d1, d2, d3⟩
    simp [AngleObj.access, ed, Except.map]; ring
  | mas =>
    right; refine ⟨_, ad, ?_, rfl, d1, d2, d3⟩
    simp [AngleObj.access, ed, Except.map]; ring
  | hms warn =>
    rcases warn with _ | _ <;> cases hp : a.preference with
    | none =>
      simp [AngleObj.access, AngleObj.check, hp, eh, expectedAccess, expectedAccess.guarded, bind, Except.bind,
        pure, Except.pure, h1, h2, h3]
    | some p =>
      cases p <;>
      simp [AngleObj.access, AngleObj.check, hp, eh, expectedAccess, expectedAccess.guarded, bind, Except.bind,
        pure, Except.pure, h1, h2, h3]
  | signedHms warn =>
    rcases warn with _ | _ <;> cases hp : a.preference with
    | none =>
      simp [AngleObj.access, AngleObj.check, hp, eh, expectedAccess, expectedAccess.guarded, bind, Except.bind,
        pure, Except.pure, h1, h2, h3, expectedAccess.fourTuple]
    | some p =>
      cases p <;>
      simp [AngleObj.access, AngleObj.check, hp, eh, expectedAccess, expectedAccess.guarded, bind, Except.bind,
        pure, Except.pure, h1, h2, h3, expectedAccess.fourTuple]
  | hstr places warn =>
    rcases warn with _ | _ <;> cases hp : a.preference with
    | none =>
      simp [AngleObj.access, AngleObj.check, hp, eh, expectedAccess, expectedAccess.guarded, bind, Except.bind,
        pure, Except.pure, h1, h2, h3]
    | some p =>
      cases p <;>
      simp [AngleObj.access, AngleObj.check, hp, eh, expectedAccess, expectedAccess.guarded, bind, Except.bind,
        pure, Except.pure, h1, h2, h3]
  | dms warn =>
    rcases warn with _ | _ <;> cases hp : a.preference with
    | none =>
      simp [AngleObj.access, AngleObj.check, hp, ed, expectedAccess, expectedAccess.guarded, bind, Except.bind,
        pure, Except.pure, d1, d2, d3]
    | some p =>
      cases p <;>
      simp [AngleObj.access, AngleObj.check, hp, ed, expectedAccess, expectedAccess.guarded, bind, Except.bind,
        pure, Except.pure, d1, d2, d3]
  | signedDms warn =>
    rcases warn with _ | _ <;> cases hp : a.preference with
    | none =>
      simp [AngleObj.access, AngleObj.check, hp, ed, expectedAccess, expectedAccess.guarded, bind, Except.bind,
        pure, Except.pure, d1, d2, d3, expectedAccess.fourTuple]
    | some p =>
      cases p <;>
      simp [AngleObj.access, AngleObj.check, hp, ed, expectedAccess, expectedAccess.guarded, bind, Except.bind,
        pure, Except.pure, d1, d2, d3, expectedAccess.fourTuple]
  | dstr places warn =>
    rcases warn with _ | _ <;> cases hs : a.signed <;> cases hp : a.preference with
    | none =>
      simp [AngleObj.access, AngleObj.check, hp, hs, ed, expectedAccess, expectedAccess.guarded, bind,
        Except.bind, pure, Except.pure, d1, d2, d3]
    | some p =>
      cases p <;>
      simp [AngleObj.access, AngleObj.check, hp, hs, ed, expectedAccess, expectedAccess.guarded, bind,
        Except.bind, pure, Except.pure, d1, d2, d3]

/-- **C20, C24.** An angle of `turns` turns, made in any of the documented ways, answers any sequence of
accesses as `expectedAccess` says: numbers in every unit are those of the angle, sexagesimal hours
are refused exactly if the angle does not prefer hours and `warn` is not switched off (and
degrees likewise), and no access, failed or not, changes a later answer. -/
theorem C24_any_history (a : AngleObj) (turns : ℝ) (h : AngleMade a turns) (accesses : List AngleAccess) :
    a.accessAll accesses = accesses.map (expectedAccess turns a.preference a.signed) := by
  have key : ∀ b : AngleObj, b.Holds turns → b.preference = a.preference → b.signed = a.signed →
      b.accessAll accesses = accesses.map (expectedAccess turns a.preference a.signed) := by
    induction accesses with
    | nil => intros; rfl
    | cons x xs ih =>
      intro b hb hp hs
      rcases b.access_eq turns hb x with ⟨e, h1, h2⟩ | ⟨r, b', h1, h2, h3, h4, h5⟩
      · rw [AngleObj.accessAll, h1]
        simp only [List.map_cons]
        rw [← hp, ← hs, h2, hp, hs, ih b hb hp hs]
      · rw [AngleObj.accessAll, h1]
        simp only [List.map_cons]
        rw [ih b' h3 (h4.trans hp) (h5.trans hs), ← hp, ← hs, h2]
  exact key a h.holds rfl rfl

/-- **C24.** Asking for sexagesimal hours (degrees) of an angle that prefers degrees (hours) raises the
wrong-unit error, unless `warn=False`; with it, or with the right preference, it succeeds. -/
theorem C24_refused (a : AngleObj) (turns : ℝ) (h : AngleMade a turns) (p : Preference)
    (hp : a.preference = some p) (warn : Bool) (places : ℕ) :
    ((∃ r, a.access (.hms warn) = .ok r) ↔ warn = false ∨ p = .hours) ∧
    ((∃ r, a.access (.signedHms warn) = .ok r) ↔ warn = false ∨ p = .hours) ∧
    ((∃ r, a.access (.hstr places warn) = .ok r) ↔ warn = false ∨ p = .hours) ∧
    ((∃ r, a.access (.dms warn) = .ok r) ↔ warn = false ∨ p = .degrees) ∧
    ((∃ r, a.access (.signedDms warn) = .ok r) ↔ warn = false ∨ p = .degrees) ∧
    (a.access (.hms warn) = .error .wrongUnit ↔ warn = true ∧ p = .degrees) ∧
    (a.access (.dms warn) = .error .wrongUnit ↔ warn = true ∧ p = .hours) := by
  obtain ⟨ah, eh, -⟩ := a.getHours_eq h.holds
  obtain ⟨ad, ed, -⟩ := a.getDegrees_eq h.holds
  cases warn <;> cases p <;>
    simp [AngleObj.access, AngleObj.check, hp, eh, ed, bind, Except.bind, pure, Except.pure]

/-- **C20.** Degrees and hours that an angle was made from are kept and handed back as they were given, without going
through radians (so without rounding). -/
theorem C20_kept (x : ℝ) (pref : Option Preference) (s : Bool) :
    (angleInit none none none (some x) pref s).hours = some x ∧ (angleInit none none (some x) none pref s).degrees = some x ∧
    (angleInit none (some x) none none pref s).radians = some x ∧ (angleFromDegrees x s).degrees = some x ∧
    (angleFromRadians x).radians = some x := ⟨rfl, rfl, rfl, rfl, rfl⟩

/-- **C24.** What an angle prefers: what the caller said; if the caller said nothing, hours when it was made from hours
and degrees when it was made from degrees, radians or another angle (even one that prefers hours). -/
theorem C24_preference (x : ℝ) (a : AngleObj) (p : Preference) (pref : Option Preference) (s : Bool) :
    (∀ angle r d h, (angleInit angle r d h (some p) s).preference = some p) ∧
    (angleInit none none none (some x) none s).preference = some .hours ∧
    (angleInit none none (some x) none none s).preference = some .degrees ∧
    (angleInit none (some x) none none none s).preference = some .degrees ∧
    (angleInit (some a) none none none none s).preference = some .degrees ∧
    (angleFromDegrees x s).preference = some .degrees ∧
    (∀ angle r d h, (angleInit angle r d h pref s).signed = some s) ∧ (angleFromDegrees x s).signed = some s := by
  refine ⟨?_, rfl, rfl, rfl, rfl, rfl, ?_, rfl⟩
  · rintro (_ | a) (_ | r) (_ | d) (_ | h) <;> rfl
  · rintro (_ | a) (_ | r) (_ | d) (_ | h) <;> rfl

/-- **C20.** An angle argument: an `Angle` object is taken as is, a number is degrees; with neither, an
error. -/
theorem C20_interpret_angle (a : AngleObj) (turns : ℝ) (h : AngleMade a turns) (d : Option ℝ) (x : ℝ) :
    interpretAngle (some a) d = some (turns * (2 * Real.pi)) ∧
    interpretAngle none (some x) = some (x / 360 * (2 * Real.pi)) ∧
    interpretAngle none none = none := by
  refine ⟨?_, rfl, rfl⟩
  simp [interpretAngle, h.holds.1]

/-- **C24 (finding).** An angle made by the class-level constructor `Angle.radians(x)` has no preference, so
`hms()` on it raises an `AttributeError`, not a `WrongUnitError`; `Angle()` without arguments makes an
object whose every value is missing. -/
theorem C24_bare_radians (x : ℝ) : (angleFromRadians x).access (.hms true) = .error .missingAttribute ∧
    (angleFromRadians x).access (.dms true) = .error .missingAttribute ∧
    (angleInit none none none none none false).access .radians = .error .missingAttribute := by
  refine ⟨?_, ?_, ?_⟩ <;> rfl

/-! ### C21 -/

/-- **C21.** Splitting a number into sign, units, minutes and seconds: whole non-negative units,
minutes whole and from 0 to 59, seconds from 0 up to but excluding 60, and the parts recombine to
the number. -/
theorem C21_decompose (value : SignedNum K) (hm : 0 ≤ value.mag) :
    let s := sexagesimalizeToFloat value
    (∃ u : ℕ, s.units = u) ∧ (∃ m : ℕ, s.minutes = m ∧ m < 60) ∧ 0 ≤ s.seconds ∧ s.seconds < 60 ∧
      s.sign.val * (s.units + s.minutes / 60 + s.seconds / 3600) = value.val := by
  intro s
  have hn : 0 ≤ value.mag * 3600 / 60 := by positivity
  set M : ℤ := ⌊value.mag * 3600 / 60⌋ with hM
  have hM0 : 0 ≤ M := Int.floor_nonneg.2 hn
  have e1 : s.units = ((⌊(M : K) / 60⌋ : ℤ) : K) := rfl
  have e2 : s.minutes = (M : K) - 60 * ((⌊(M : K) / 60⌋ : ℤ) : K) := rfl
  have e3 : s.seconds = value.mag * 3600 - 60 * (M : K) := rfl
  have e4 : s.sign = value.sign := rfl
  have hf : ⌊(M : K) / 60⌋ = M / 60 := by
    rw [Int.floor_eq_iff]
    have h1 : (60 : ℤ) * (M / 60) ≤ M := by omega
    have h2 : M < 60 * (M / 60) + 60 := by omega
    have h1' : (60 : K) * ((M / 60 : ℤ) : K) ≤ M := by exact_mod_cast h1
    have h2' : (M : K) < 60 * ((M / 60 : ℤ) : K) + 60 := by exact_mod_cast h2
    constructor
    · rw [le_div_iff₀ (by norm_num)]; linarith
    · rw [div_lt_iff₀ (by norm_num)]; linarith
  have hfl1 := Int.floor_le (value.mag * 3600 / 60)
  have hfl2 := Int.lt_floor_add_one (value.mag * 3600 / 60)
  rw [← hM] at hfl1 hfl2
  rw [le_div_iff₀ (by norm_num)] at hfl1
  rw [div_lt_iff₀ (by norm_num)] at hfl2
  refine ⟨⟨(M / 60).toNat, ?_⟩, ⟨(M % 60).toNat, ?_, by omega⟩, ?_, ?_, ?_⟩
  · rw [e1, hf]
    have : ((M / 60).toNat : ℤ) = M / 60 := by omega
    exact_mod_cast this.symm
  · rw [e2, hf]
    have : ((M % 60).toNat : ℤ) = M - 60 * (M / 60) := by omega
    have : (((M % 60).toNat : ℤ) : K) = ((M - 60 * (M / 60) : ℤ) : K) := by rw [this]
    push_cast at this
    rw [← this]
  · rw [e3]; linarith
  · rw [e3]; linarith
  · rw [e1, e2, e3, e4]
    unfold SignedNum.sign SignedNum.val
    by_cases h0 : value.mag = 0
    · simp [h0]
    · rw [if_neg h0]
      cases value.neg <;> simp <;> ring

/-- **C21.** The sign is -1 exactly for negative numbers and +1 exactly for positive ones. -/
theorem C21_sign (x : K) :
    ((sexagesimalizeToFloat (SignedNum.ofNum x)).sign.val = -1 ↔ x < 0) ∧
    ((sexagesimalizeToFloat (SignedNum.ofNum x)).sign.val = 1 ↔ 0 < x) := by
  have e : (sexagesimalizeToFloat (SignedNum.ofNum x)).sign = (SignedNum.ofNum x).sign := rfl
  rw [e]
  unfold SignedNum.ofNum SignedNum.sign SignedNum.val
  rcases lt_trichotomy x 0 with h | rfl | h
  · have : |x| ≠ 0 := abs_ne_zero.2 h.ne
    simp [h, h.ne, not_lt.2 h.le, this]
    norm_num
  · simp
  · simp [h, h.ne', not_lt.2 h.le]
    norm_num

/-- **C21 (finding).** The documentation promises a sign of "either +1 or -1"; for zero it is 0. -/
theorem C21_sign_of_zero : (sexagesimalizeToFloat (SignedNum.ofNum (0 : K))).sign.val = 0 := by
  have e : (sexagesimalizeToFloat (SignedNum.ofNum (0 : K))).sign = (SignedNum.ofNum (0 : K)).sign := rfl
  rw [e]
  simp [SignedNum.ofNum, SignedNum.sign, SignedNum.val]

theorem SignedNum.val_ofNum (x : K) : (SignedNum.ofNum x).val = x := by
  unfold SignedNum.ofNum SignedNum.val
  by_cases h : x < 0
  · simp [h, abs_of_neg h]
  · simp [h, abs_of_nonneg (not_lt.1 h)]

/-! ### C22 -/

theorem sexaInt_n (value : K) (places : ℕ) :
    astypeInt (pyFloorDiv (((10 : ℤ) ^ places : ℤ) * 3600 * value + 1 / 2 : K) 1) =
      ⌊(10 : K) ^ places * 3600 * value + 1 / 2⌋ := by
  unfold pyFloorDiv astypeInt
  rw [div_one]
  push_cast
  split <;> simp

/-- **C22.** The integers printed: minutes and seconds from 0 to 59, a fraction of at most `places`
digits, and with its sign the number they spell is within half a unit of the last place of the
angle. -/
theorem C22_integers (value : K) (places : ℕ) :
    ∃ sign h m s f : ℤ, sexagesimalizeToInt value places = (sign, h, m, s, f) ∧
      0 ≤ h ∧ 0 ≤ m ∧ m < 60 ∧ 0 ≤ s ∧ s < 60 ∧ 0 ≤ f ∧ f < 10 ^ places ∧
      (sign = -1 ∨ sign = 0 ∨ sign = 1) ∧ (sign = -1 → value < 0) ∧ (sign = 1 → 0 < value) ∧
      (sign = 0 → h = 0 ∧ m = 0 ∧ s = 0 ∧ f = 0) ∧
      |(sign : K) * (h + m / 60 + (s + f / 10 ^ places) / 3600) - value| ≤ 1 / (2 * 3600 * 10 ^ places) := by
  have hP : (0 : ℤ) < 10 ^ places := by positivity
  have hPK : (0 : K) < 10 ^ places := by positivity
  set n := ⌊(10 : K) ^ places * 3600 * value + 1 / 2⌋ with hn
  have hdef : sexagesimalizeToInt value places = (Int.sign n, |n| / 10 ^ places / 60 / 60,
      |n| / 10 ^ places / 60 % 60, |n| / 10 ^ places % 60, |n| % 10 ^ places) := by
    unfold sexagesimalizeToInt
    simp only [sexaInt_n]
    rw [← hn]
  have hfl1 := Int.floor_le ((10 : K) ^ places * 3600 * value + 1 / 2)
  have hfl2 := Int.lt_floor_add_one ((10 : K) ^ places * 3600 * value + 1 / 2)
  rw [← hn] at hfl1 hfl2
  have ha : 0 ≤ |n| := abs_nonneg n
  generalize hq : |n| / 10 ^ places = q at *
  generalize hr : |n| % 10 ^ places = r at *
  have hqr : 10 ^ places * q + r = |n| := by rw [← hq, ← hr]; exact Int.mul_ediv_add_emod _ _
  have hq0 : 0 ≤ q := by rw [← hq]; exact Int.ediv_nonneg ha hP.le
  have hr0 : 0 ≤ r := by rw [← hr]; exact Int.emod_nonneg _ hP.ne'
  have hr1 : r < 10 ^ places := by rw [← hr]; exact Int.emod_lt_of_pos _ hP
  refine ⟨_, _, _, _, _, hdef, by omega, by omega, by omega, by omega, by omega, hr0, hr1, ?_, ?_, ?_, ?_, ?_⟩
  · rcases lt_trichotomy n 0 with h | h | h
    · left; exact Int.sign_eq_neg_one_of_neg h
    · right; left; rw [h]; rfl
    · right; right; exact Int.sign_eq_one_of_pos h
  · intro h
    have h1 : n ≤ -1 := by have := Int.neg_of_sign_eq_neg_one h; omega
    have h2 : (n : K) ≤ -1 := by exact_mod_cast h1
    by_contra hv
    have : 0 ≤ (10 : K) ^ places * 3600 * value := by
      have := not_lt.1 hv; positivity
    linarith
  · intro h
    have h1 : 1 ≤ n := by have := Int.pos_of_sign_eq_one h; omega
    have h2 : (1 : K) ≤ n := by exact_mod_cast h1
    by_contra hv
    have : (10 : K) ^ places * 3600 * value ≤ 0 := mul_nonpos_of_nonneg_of_nonpos (by positivity) (not_lt.1 hv)
    linarith
  · intro h
    have h0 : n = 0 := Int.sign_eq_zero_iff_zero.1 h
    rw [h0, abs_zero] at hqr
    have : 0 ≤ 10 ^ places * q := mul_nonneg hP.le hq0
    have hr' : r = 0 := by omega
    have hq' : q = 0 := by
      have h5 : 10 ^ places * q = 0 := by omega
      rcases mul_eq_zero.1 h5 with h6 | h6
      · exact absurd h6 hP.ne'
      · exact h6
    subst hr'; subst hq'
    simp
  · have e1 : (q : ℤ) = 3600 * (q / 60 / 60) + 60 * (q / 60 % 60) + q % 60 := by omega
    have e1K : (q : K) = 3600 * ((q / 60 / 60 : ℤ) : K) + 60 * ((q / 60 % 60 : ℤ) : K) + ((q % 60 : ℤ) : K) := by
      exact_mod_cast e1
    have e2K : (10 : K) ^ places * q + r = |n| := by exact_mod_cast hqr
    have e3 : ((Int.sign n : ℤ) : K) * ((|n| : ℤ) : K) = n := by
      have : Int.sign n * |n| = n := Int.sign_mul_abs n
      exact_mod_cast this
    have e4 : ((q / 60 / 60 : ℤ) : K) + ((q / 60 % 60 : ℤ) : K) / 60 +
        (((q % 60 : ℤ) : K) + (r : K) / 10 ^ places) / 3600 = ((|n| : ℤ) : K) / (3600 * 10 ^ places) := by
      rw [eq_div_iff (by positivity)]
      rw [← e2K, e1K]
      field_simp
      ring
    rw [e4, ← mul_div_assoc, e3, div_sub' (by positivity), abs_div, abs_of_pos (show (0 : K) < 3600 * 10 ^ places by positivity),
      div_le_div_iff₀ (by positivity) (by positivity)]
    have h9 : |(n : K) - 3600 * 10 ^ places * value| ≤ 1 / 2 := by
      rw [abs_le]; constructor <;> linarith
    have := mul_le_mul_of_nonneg_right h9 (show (0 : K) ≤ 2 * 3600 * 10 ^ places by positivity)
    linarith

/-- Reading decimal digits. -/
theorem ofDigitChars_replicate_zero (k : ℕ) (l : List Char) :
    Nat.ofDigitChars 10 (List.replicate k '0' ++ l) 0 = Nat.ofDigitChars 10 l 0 := by
  induction k with
  | zero => rfl
  | succ k ih =>
    rw [List.replicate_succ, List.cons_append]
    unfold Nat.ofDigitChars at *
    rw [List.foldl_cons]
    exact ih

theorem zeroPad_spec (w : ℕ) (n : ℤ) (h0 : 0 ≤ n) :
    (Nat.ofDigitChars 10 (zeroPad w n) 0 : ℤ) = n ∧ (∀ c ∈ zeroPad w n, c.isDigit) ∧
      (0 < w → n < 10 ^ w → (zeroPad w n).length = w) := by
  unfold zeroPad
  refine ⟨?_, ?_, ?_⟩
  · simp only [ofDigitChars_replicate_zero, Nat.ofDigitChars_ten_toDigits]
    omega
  · intro c hc
    rw [List.mem_append] at hc
    rcases hc with hc | hc
    · rw [List.mem_replicate] at hc
      rw [hc.2]; decide
    · exact Nat.isDigit_of_mem_toDigits (by norm_num) (by norm_num) hc
  · intro hw hn
    have : (Nat.toDigits 10 n.toNat).length ≤ w := by
      rw [Nat.length_toDigits_le_iff (by norm_num) hw]
      have : ((10 ^ w : ℕ) : ℤ) = 10 ^ w := by push_cast; rfl
      omega
    simp only [List.length_append, List.length_replicate]
    omega

/-- **C22.** The text printed for an angle: an optional sign, the units, two digits of minutes, two
digits of seconds and `places` digits of fraction, separated by the format's marks; minutes and seconds
are below 60; and the number so spelled is within half a unit of the last decimal place of the angle.
The sign is `-` only for negative angles and missing (or `+` in the signed format) only if the number
spelled is not negative. -/
theorem C22_text (fmt : SexaFormat) (value : K) (places : ℕ) (hp : 0 < places) :
    ∃ (negative : Bool) (hh mm ss ff : List Char),
      sfmt fmt value places = fmt.sign negative ++ hh ++ fmt.marks.1 ++ mm ++ fmt.marks.2.1 ++ ss ++ ['.'] ++
        ff ++ fmt.marks.2.2 ∧
      (∀ c ∈ hh ++ mm ++ ss ++ ff, c.isDigit) ∧ 2 ≤ hh.length ∧ mm.length = 2 ∧ ss.length = 2 ∧
      ff.length = places ∧ Nat.ofDigitChars 10 mm 0 < 60 ∧ Nat.ofDigitChars 10 ss 0 < 60 ∧
      (negative → value < 0) ∧
      |(if negative then -1 else 1) * ((Nat.ofDigitChars 10 hh 0 : K) + (Nat.ofDigitChars 10 mm 0 : K) / 60 +
        ((Nat.ofDigitChars 10 ss 0 : K) + (Nat.ofDigitChars 10 ff 0 : K) / 10 ^ places) / 3600) - value|
        ≤ 1 / (2 * 3600 * 10 ^ places) := by
  obtain ⟨sign, h, m, s, f, e, h0, m0, m1, s0, s1, f0, f1, sc, sn, sp, sz, herr⟩ := C22_integers value places
  obtain ⟨ah, bh, -⟩ := zeroPad_spec 2 h h0
  obtain ⟨am, bm, cm⟩ := zeroPad_spec 2 m m0
  obtain ⟨as, bs, cs⟩ := zeroPad_spec 2 s s0
  obtain ⟨af, bf, cf⟩ := zeroPad_spec places f f0
  have tK : ∀ (x : ℕ) (z : ℤ), (x : ℤ) = z → (x : K) = (z : K) := by
    intro x z hx; rw [← hx]; simp
  refine ⟨decide (sign < 0), zeroPad 2 h, zeroPad 2 m, zeroPad 2 s, zeroPad places f, ?_, ?_, ?_,
    cm (by norm_num) (by omega), cs (by norm_num) (by omega), cf hp f1, ?_, ?_, ?_, ?_⟩
  · unfold sfmt; rw [e]
  · intro c hc
    simp only [List.mem_append] at hc
    rcases hc with ((hc | hc) | hc) | hc
    · exact bh c hc
    · exact bm c hc
    · exact bs c hc
    · exact bf c hc
  · unfold zeroPad
    simp only [List.length_append, List.length_replicate]
    have := @Nat.length_toDigits_pos 10 h.toNat
    omega
  · omega
  · omega
  · intro hneg
    simp only [decide_eq_true_eq] at hneg
    exact sn (by omega)
  · rw [tK _ _ ah, tK _ _ am, tK _ _ as, tK _ _ af]
    rcases sc with rfl | rfl | rfl
    · simpa using herr
    · obtain ⟨rfl, rfl, rfl, rfl⟩ := sz rfl
      simpa using herr
    · simpa using herr

/-- **C22.** With zero decimal places the fraction printed is the single digit 0, so the text still ends
in `.0` and spells the angle rounded to a whole second. -/
theorem C22_text_no_places (fmt : SexaFormat) (value : K) :
    ∃ sign h m s : ℤ, sexagesimalizeToInt value 0 = (sign, h, m, s, 0) ∧
      sfmt fmt value 0 = fmt.sign (sign < 0) ++ zeroPad 2 h ++ fmt.marks.1 ++ zeroPad 2 m ++ fmt.marks.2.1 ++
        zeroPad 2 s ++ ['.', '0'] ++ fmt.marks.2.2 ∧
      |(sign : K) * (h + m / 60 + s / 3600) - value| ≤ 1 / 7200 := by
  obtain ⟨sign, h, m, s, f, e, h0, m0, m1, s0, s1, f0, f1, -, -, -, -, herr⟩ := C22_integers value 0
  have hf : f = 0 := by simp at f1; omega
  subst hf
  refine ⟨sign, h, m, s, e, ?_, ?_⟩
  · unfold sfmt; rw [e]
    have : zeroPad 0 0 = ['0'] := by decide
    simp [this]
  · norm_num at herr ⊢
    exact herr

/-! ### C23 -/

theorem SignedNum.add_same {a b : SignedNum K} (h : a.neg = b.neg) : a.add b = ⟨a.neg, a.mag + b.mag⟩ := by
  unfold SignedNum.add; rw [if_pos h]

theorem unsexGo_spec (cs : List (SignedNum K)) (v : SignedNum K) (factor : K) :
    (unsexagesimalizeGo v factor cs).neg = v.neg ∧
    (unsexagesimalizeGo v factor cs).mag =
      v.mag + (cs.zipIdx.map fun p => p.1.mag / (factor * 60 ^ (p.2 + 1))).sum := by
  induction cs generalizing v factor with
  | nil => simp [unsexagesimalizeGo]
  | cons c cs ih =>
    unfold unsexagesimalizeGo
    simp only
    obtain ⟨h1, h2⟩ := ih (v.add ((copysign c v).divPos (factor * 60))) (factor * 60)
    have e : v.add ((copysign c v).divPos (factor * 60)) = ⟨v.neg, v.mag + c.mag / (factor * 60)⟩ :=
      SignedNum.add_same rfl
    rw [e] at h1 h2 ⊢
    refine ⟨h1, ?_⟩
    rw [h2, List.zipIdx_cons, List.map_cons, List.sum_cons]
    simp only [zero_add, pow_one]
    rw [add_assoc]
    congr 2
    rw [List.zipIdx_succ, List.map_map]
    congr 1
    apply List.map_congr_left
    intro p _
    simp only [Function.comp]
    rw [pow_succ' 60 (p.2 + 1), ← mul_assoc]

/-- **C23.** A tuple is read as a number whose sign is that of the leading value (its sign bit, so a
leading `-0.0` counts) and whose magnitude is the sum of the magnitudes divided by 1, 60, 3600, ...;
the signs of the other entries do not matter. -/
theorem C23_tuple (v : SignedNum K) (cs : List (SignedNum K)) :
    ∃ r, unsexagesimalize (v :: cs) = some r ∧ r.neg = v.neg ∧
      r.mag = v.mag + (cs.zipIdx.map fun p => p.1.mag / 60 ^ (p.2 + 1)).sum := by
  obtain ⟨h1, h2⟩ := unsexGo_spec cs v 1
  refine ⟨_, rfl, h1, ?_⟩
  rw [h2]; simp

/-- **C23.** The same for `wms(whole, minutes, seconds)`. -/
theorem C23_wms (w m s : SignedNum K) :
    unsexagesimalize [w, m, s] = some (wms w m s) ∧ (wms w m s).neg = w.neg ∧
      (wms w m s).mag = w.mag + m.mag / 60 + s.mag / 3600 := by
  have e : wms w m s = ⟨w.neg, w.mag + m.mag / 60 + s.mag / 3600⟩ := by
    unfold wms
    rw [SignedNum.add_same (a := w) (by rfl), SignedNum.add_same (by rfl)]
    rfl
  obtain ⟨r, h1, h2, h3⟩ := C23_tuple w [m, s]
  rw [e]
  refine ⟨?_, rfl, rfl⟩
  rw [h1]
  congr 1
  cases r
  simp only at h2 h3
  rw [h2, h3]
  congr 1
  simp [List.zipIdx]
  ring

/-- **C23.** Decomposing an angle with `dms()` or `hms()` and reading the tuple gives the angle back,
also when the leading part is zero. -/
theorem C23_round_trip (x : K) :
    ∃ r, unsexagesimalize (signedTuple (sexagesimalizeToFloat (SignedNum.ofNum x))) = some r ∧ r.val = x := by
  have hm : 0 ≤ (SignedNum.ofNum x).mag := abs_nonneg x
  obtain ⟨-, -, -, -, h5⟩ := C21_decompose (SignedNum.ofNum x) hm
  rw [SignedNum.val_ofNum] at h5
  generalize hs : sexagesimalizeToFloat (SignedNum.ofNum x) = s at *
  obtain ⟨e, -, -⟩ := C23_wms (s.sign.mul ⟨false, s.units⟩) (s.sign.mul ⟨false, s.minutes⟩)
    (s.sign.mul ⟨false, s.seconds⟩)
  obtain ⟨-, e2, e3⟩ := C23_wms (s.sign.mul ⟨false, s.units⟩) (s.sign.mul ⟨false, s.minutes⟩)
    (s.sign.mul ⟨false, s.seconds⟩)
  refine ⟨_, e, ?_⟩
  unfold SignedNum.val
  rw [e2, e3]
  rw [← h5]
  simp only [SignedNum.mul, SignedNum.val, Bool.xor_false]
  cases s.sign.neg <;> simp <;> ring

/-- **C23 (finding).** Python integers have no minus zero: a tuple written `(-0, 30, 0)` with integers is
plus half a degree, whereas `(-0.0, 30, 0)` is minus half a degree. -/
theorem C23_integer_minus_zero :
    unsexagesimalize [SignedNum.ofInt (-0), SignedNum.ofInt 30, SignedNum.ofInt 0] =
      some (⟨false, (1 / 2 : ℚ)⟩ : SignedNum ℚ) ∧
    unsexagesimalize [⟨true, 0⟩, SignedNum.ofInt 30, SignedNum.ofInt 0] =
      some (⟨true, (1 / 2 : ℚ)⟩ : SignedNum ℚ) := by
  constructor
  · simp [unsexagesimalize, unsexagesimalizeGo, SignedNum.ofInt, SignedNum.add, copysign, SignedNum.divPos]
    norm_num
  · simp [unsexagesimalize, unsexagesimalizeGo, SignedNum.ofInt, SignedNum.add, copysign, SignedNum.divPos]
    norm_num

/-! ### Examples -/

example : distanceClass.readAll (distanceClass.construct .km (1495978707 : ℚ)) [.au, .m, .km, .au] =
    some [10, 1495978707000, 1495978707, 10] := by
  rw [C20_distance]; simp [DistanceUnit.metres]; norm_num
example : sexagesimalizeToInt (11999999 / 1000000 : ℚ) 2 = (1, 12, 0, 0, 0) := by decide +kernel
example : sexagesimalizeToInt (-1205125 / 100000 : ℚ) 1 = (-1, 12, 3, 4, 5) := by decide +kernel
example : sfmt .dsgn (1205125 / 100000 : ℚ) 1 = "+12deg 03' 04.5\"".toList := by decide +kernel
example : sfmt .hfmt (-1205125 / 100000 : ℚ) 3 = "-12h 03m 04.500s".toList := by decide +kernel
example : AngleMade (angleInit none none none (some 12) none false) (12 / 24) := AngleMade.hours 12 none false

end Skyfield
