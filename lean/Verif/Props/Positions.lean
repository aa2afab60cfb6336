import Verif.Model.Positions
import Verif.Lemmas.Linear
import Mathlib.Tactic.Abel
import Mathlib.Tactic.NormNum

/-
C72: position objects are displacements between the bodies they name.
-/
namespace Skyfield

section
variable {V T L O : Type*} [DecidableEq O] [AddCommGroup V]

/-- The position tells truthfully where its target is as seen from its center, if `P` and `W` are the places and the
velocities of all bodies: its ends are known, and its vectors are the differences. -/
def Position.Tells (p : Position V T L O) (P W : Body O → V) : Prop :=
  ∃ c t, p.core.center = some c ∧ p.core.target = some t ∧ p.core.xyz = P t - P c ∧
    p.core.velocity = some (W t - W c)

/-- The class of a position is what its center says. -/
def Position.Honest (p : Position V T L O) : Prop :=
  (p.core.kind = .barycentric → p.core.center = some (.code 0)) ∧
  (p.core.kind = .geocentric → p.core.center = some (.code 399))

theorem build_core (xyz : V) (velocity : Option V) (t : Option T) (center target : Option (Body O)) :
    (buildPosition xyz velocity t center target : Position V T L O).core.xyz = xyz ∧
    (buildPosition xyz velocity t center target : Position V T L O).core.velocity = velocity ∧
    (buildPosition xyz velocity t center target : Position V T L O).core.t = t ∧
    (buildPosition xyz velocity t center target : Position V T L O).core.center = center ∧
    (buildPosition xyz velocity t center target : Position V T L O).core.target = target := by
  unfold buildPosition
  split_ifs with h1 h2
  · subst h1; exact ⟨rfl, rfl, rfl, rfl, rfl⟩
  · subst h2; exact ⟨rfl, rfl, rfl, rfl, rfl⟩
  · refine ⟨rfl, rfl, rfl, ?_, rfl⟩
    simp only [Position.new]
    split_ifs with h
    · rw [h]; rfl
    · rfl

/-- The class is the one for the center; a position measured from the barycenter is its own barycentric observer. -/
theorem build_kind (xyz : V) (velocity : Option V) (t : Option T) (center target : Option (Body O)) :
    ((buildPosition xyz velocity t center target : Position V T L O).core.kind = .barycentric ↔
      center = some (.code 0)) ∧
    ((buildPosition xyz velocity t center target : Position V T L O).core.kind = .geocentric ↔
      center = some (.code 399)) := by
  unfold buildPosition
  split_ifs with h1 h2
  · subst h1; simp [Position.new]
  · subst h2; simp [Position.new]
  · simp [Position.new, h1, h2]

/-- **C72.** Two positions can be subtracted exactly if they are measured from the same center; the difference goes from the
second's target to the first's, at the first's time. -/
theorem C72_difference (a b : Position V T L O) :
    (a.core.center ≠ b.core.center → a.sub b = .error .valueError) ∧
    (a.core.center = b.core.center → ∃ d, a.sub b = .ok d ∧ d.core.xyz = a.core.xyz - b.core.xyz ∧
      d.core.center = b.core.target ∧ d.core.target = a.core.target ∧ d.core.t = a.core.t ∧
      (∀ v w, a.core.velocity = some v → b.core.velocity = some w → d.core.velocity = some (v - w)) ∧
      (a.core.velocity = none ∨ b.core.velocity = none → d.core.velocity = none)) := by
  unfold Position.sub
  refine ⟨fun h => by rw [if_pos h], fun h => ?_⟩
  rw [if_neg (not_not.2 h)]
  refine ⟨_, rfl, ?_⟩
  obtain ⟨h1, h2, h3, h4, h5⟩ := build_core (L := L) (a.core.xyz - b.core.xyz)
    (velocityDifference a.core.velocity b.core.velocity) a.core.t b.core.target a.core.target
  refine ⟨h1, h4, h5, h3, fun v w hv hw => ?_, fun hn => ?_⟩
  · rw [h2, hv, hw]; rfl
  · rw [h2]
    rcases hn with hn | hn
    · rw [hn]; rfl
    · rw [hn]; cases a.core.velocity <;> rfl

/-- **C72.** Truth is kept: from truthful positions, a difference and a negation are truthful. -/
theorem C72_displacement (P W : Body O → V) (a b : Position V T L O) (ha : a.Tells P W) (hb : b.Tells P W) :
    (∀ d, a.sub b = .ok d → d.Tells P W) ∧ a.neg.Tells P W := by
  obtain ⟨c, t, h1, h2, h3, h4⟩ := ha
  obtain ⟨c', t', h1', h2', h3', h4'⟩ := hb
  constructor
  · intro d hd
    by_cases hc : a.core.center = b.core.center
    · obtain ⟨d', hd', hx, hce, hta, -, hv, -⟩ := (C72_difference a b).2 hc
      rw [hd] at hd'
      injection hd' with hd'; subst hd'
      have : c = c' := by rw [h1, h1'] at hc; exact Option.some.inj hc
      subst this
      refine ⟨t', t, hce.trans h2', hta.trans h2, ?_, ?_⟩
      · rw [hx, h3, h3']; abel
      · rw [hv _ _ h4 h4']; congr 1; abel
    · rw [(C72_difference a b).1 hc] at hd; cases hd
  · refine ⟨t, c, ?_, ?_, ?_, ?_⟩
    · simp [Position.neg, Position.new, h2]
    · simp [Position.neg, Position.new, h1]
    · simp [Position.neg, Position.new, h3]
    · simp [Position.neg, Position.new, h4]

/-- **C72.** What `at()` returns is truthful if the vector function is, names its two ends, and its class says where it is
measured from. -/
theorem C72_at (P W : Body O → V) (center target : Body O) (gcrs : Option V) (eph : Bool) (t : T) :
    (positionAt center target (P target - P center) (W target - W center) gcrs eph t : Position V T L O).Tells P W ∧
    ((positionAt center target (P target - P center) (W target - W center) gcrs eph t :
      Position V T L O).core.kind = .barycentric ↔ center = .code 0) ∧
    ((positionAt center target (P target - P center) (W target - W center) gcrs eph t :
      Position V T L O).core.kind = .geocentric ↔ center = .code 399) ∧
    (positionAt center target (P target - P center) (W target - W center) gcrs eph t :
      Position V T L O).core.t = some t := by
  obtain ⟨h1, h2, h3, h4, h5⟩ := build_core (L := L) (P target - P center) (some (W target - W center)) (some t) (some center)
    (some target)
  obtain ⟨h6, h7⟩ := build_kind (L := L) (P target - P center) (some (W target - W center)) (some t) (some center)
    (some target)
  refine ⟨⟨center, target, h4, h5, h1, h2⟩, ?_, ?_, h3⟩
  · simpa [positionAt] using h6
  · simpa [positionAt] using h7

/-- **C72.** The common center drops out: (a − c) − (b − c) is a − b, in every attribute. -/
theorem C72_cancel (a b c d e f : Position V T L O) (hd : a.sub c = .ok d) (he : b.sub c = .ok e) (hf : a.sub b = .ok f)
    (hv : c.core.velocity ≠ none) : d.sub e = .ok f := by
  have hac : a.core.center = c.core.center := by
    by_contra h; rw [(C72_difference a c).1 h] at hd; cases hd
  have hbc : b.core.center = c.core.center := by
    by_contra h; rw [(C72_difference b c).1 h] at he; cases he
  have hab : a.core.center = b.core.center := hac.trans hbc.symm
  unfold Position.sub at hd he hf
  rw [if_neg (not_not.2 hac)] at hd
  rw [if_neg (not_not.2 hbc)] at he
  rw [if_neg (not_not.2 hab)] at hf
  injection hd with hd
  injection he with he
  injection hf with hf
  subst hd he hf
  unfold Position.sub
  simp only [(build_core (L := L) _ _ _ _ _).1, (build_core (L := L) _ _ _ _ _).2.1,
    (build_core (L := L) _ _ _ _ _).2.2.1, (build_core (L := L) _ _ _ _ _).2.2.2.1,
    (build_core (L := L) _ _ _ _ _).2.2.2.2]
  rw [if_neg (not_not.2 rfl)]
  have h1 : a.core.xyz - c.core.xyz - (b.core.xyz - c.core.xyz) = a.core.xyz - b.core.xyz := by abel
  rw [h1]
  cases hcv : c.core.velocity with
  | none => exact absurd hcv hv
  | some w =>
    cases a.core.velocity with
    | none => simp [velocityDifference]
    | some u =>
      cases b.core.velocity with
      | none => simp [velocityDifference]
      | some v =>
        have h2 : u - w - (v - w) = u - v := by abel
        simp [h2, velocityDifference]

/-- **C72.** Exchanging the two positions of a difference reverses it. -/
theorem C72_antisymmetric (a b d e : Position V T L O) (hd : a.sub b = .ok d) (he : b.sub a = .ok e) :
    e.core.xyz = -d.core.xyz ∧ e.core.velocity = d.core.velocity.map (-·) ∧ e.core.center = d.core.target ∧
    e.core.target = d.core.center := by
  have hab : a.core.center = b.core.center := by
    by_contra h; rw [(C72_difference a b).1 h] at hd; cases hd
  obtain ⟨d', h1, h2, h3, h4, -, h6, h7⟩ := (C72_difference a b).2 hab
  obtain ⟨e', g1, g2, g3, g4, -, g6, g7⟩ := (C72_difference b a).2 hab.symm
  rw [hd] at h1; injection h1 with h1; subst h1
  rw [he] at g1; injection g1 with g1; subst g1
  refine ⟨by rw [g2, h2]; abel, ?_, by rw [g3, h4], by rw [g4, h3]⟩
  cases ha : a.core.velocity with
  | none => rw [g7 (.inr ha), h7 (.inl ha)]; rfl
  | some v =>
    cases hb : b.core.velocity with
    | none => rw [g7 (.inl hb), h7 (.inr hb)]; rfl
    | some w => rw [g6 w v hb ha, h6 v w ha hb]; simp

/-- **C72.** Negating twice restores the vectors, the ends, the time and the class, if both ends are known. -/
theorem C72_neg_neg (p : Position V T L O) (hc : p.core.center ≠ none) (ht : p.core.target ≠ none) :
    p.neg.neg.core.xyz = p.core.xyz ∧ p.neg.neg.core.velocity = p.core.velocity ∧
    p.neg.neg.core.center = p.core.center ∧ p.neg.neg.core.target = p.core.target ∧
    p.neg.neg.core.t = p.core.t ∧ p.neg.neg.core.kind = p.core.kind := by
  cases hv : p.core.velocity <;> simp [Position.neg, Position.new, hc, ht, hv]

/-- **C72.** Of a difference, the class says where it is measured from. -/
theorem C72_kind (a b d : Position V T L O) (h : a.sub b = .ok d) :
    (d.core.kind = .barycentric ↔ b.core.target = some (.code 0)) ∧
    (d.core.kind = .geocentric ↔ b.core.target = some (.code 399)) := by
  by_cases hab : a.core.center = b.core.center
  · unfold Position.sub at h
    rw [if_neg (not_not.2 hab)] at h
    injection h with h
    subst h
    exact build_kind _ _ _ _ _
  · rw [(C72_difference a b).1 hab] at h; cases h

/-- **C72 (negative).** Negation keeps the class although it exchanges the ends: the reverse of the position of a body as seen
from the Solar System barycenter is still called barycentric, and still lets itself be used as an observer. -/
theorem C72_negated_kind (target : Body O) (h : target ≠ .code 0) (xyz velocity : V) (gcrs : Option V) (eph : Bool) (t : T)
    (body : Body O) (p v : V) (t' : T) (lt : L) :
    let q : Position V T L O := (positionAt (.code 0) target xyz velocity gcrs eph t).neg
    q.core.kind = .barycentric ∧ q.core.center = some target ∧ ¬ q.Honest ∧
    ∃ r, q.observe body (.ok (p, v, t', lt)) = .ok r ∧ r.core.center = some (.code 0) := by
  have hk : ((positionAt (.code 0) target xyz velocity gcrs eph t : Position V T L O).neg).core.kind = .barycentric := by
    simp [positionAt, buildPosition, Position.new, Position.neg]
  have hc : ((positionAt (.code 0) target xyz velocity gcrs eph t : Position V T L O).neg).core.center = some target := by
    simp [positionAt, buildPosition, Position.new, Position.neg]
  refine ⟨hk, hc, fun hh => h ?_, ?_⟩
  · have := hh.1 hk
    rw [hc] at this
    exact Option.some.inj this
  · unfold Position.observe
    rw [if_neg (by rw [hk]; simp)]
    refine ⟨_, rfl, ?_⟩
    simp [positionAt, buildPosition, Position.new, Position.neg]

/-- **C72 (negative).** If the target is not known, the reverse of a geocentric position claims to be measured from the Earth
again. -/
theorem C72_negated_unknown (xyz : V) (velocity : Option V) (t : Option T) :
    ((Position.new .geocentric xyz velocity t none none : Position V T L O).neg).core.center = some (.code 399) ∧
    ((Position.new .geocentric xyz velocity t none none : Position V T L O).neg).core.target = some (.code 399) ∧
    ((Position.new .geocentric xyz velocity t none none : Position V T L O).neg).core.xyz = -xyz := by
  simp [Position.new, Position.neg, PositionKind.defaultCenter]

/-! ### Arrays -/

variable {n : ℕ} {I : Type*}

/-- **C72.** An element of an array of positions has the vectors and the time of that element, between the same ends and of the
same class. -/
theorem C72_index (a : Position (Fin n → V) (Fin n → I) (Fin n → L) O) (t : Fin n → I) (ht : a.core.t = some t) (i : Fin n)
    (hc : a.core.center ≠ none) :
    ∃ q, a.getItem i = .ok q ∧ q.core.xyz = a.core.xyz i ∧ q.core.velocity = a.core.velocity.map (· i) ∧
      q.core.t = some (t i) ∧ q.core.center = a.core.center ∧ q.core.target = a.core.target ∧
      q.core.kind = a.core.kind := by
  unfold Position.getItem
  rw [ht]
  refine ⟨_, rfl, rfl, rfl, rfl, ?_, rfl, rfl⟩
  simp [Position.new, hc]

/-- **C72.** Taking an element of a difference of arrays is taking the difference of the elements. -/
theorem C72_index_difference (a b d : Position (Fin n → V) (Fin n → I) (Fin n → L) O) (hd : a.sub b = .ok d) (i : Fin n)
    (p q : Position V I L O) (hp : a.getItem i = .ok p) (hq : b.getItem i = .ok q)
    (hc : a.core.center ≠ none) : p.sub q = d.getItem i := by
  have hab : a.core.center = b.core.center := by
    by_contra h; rw [(C72_difference a b).1 h] at hd; cases hd
  unfold Position.sub at hd
  rw [if_neg (not_not.2 hab)] at hd
  injection hd with hd
  subst hd
  unfold Position.getItem at hp hq ⊢
  rw [(build_core _ _ _ _ _).2.2.1]
  cases hta : a.core.t with
  | none => rw [hta] at hp; cases hp
  | some t =>
    cases htb : b.core.t with
    | none => rw [htb] at hq; cases hq
    | some s =>
      rw [hta] at hp
      rw [htb] at hq
      injection hp with hp
      injection hq with hq
      subst hp hq
      have hbc : b.core.center ≠ none := hab ▸ hc
      simp only [Position.sub]
      rw [if_neg (by simp [Position.new, hc, hbc, hab])]
      congr 1
      simp only [(build_core _ _ _ _ _).1, (build_core _ _ _ _ _).2.1, (build_core _ _ _ _ _).2.2.2.1,
        (build_core _ _ _ _ _).2.2.2.2]
      unfold buildPosition
      by_cases h0 : b.core.target = some (.code 0)
      · simp only [h0, if_true, Position.new]
        cases a.core.velocity <;> cases b.core.velocity <;> simp [velocityDifference]
      · by_cases h9 : b.core.target = some (.code 399)
        · simp only [h9, if_true, Position.new]
          cases a.core.velocity <;> cases b.core.velocity <;> simp [velocityDifference]
        · simp only [h0, h9, if_false, Position.new]
          cases hn : b.core.target <;> cases a.core.velocity <;> cases b.core.velocity <;>
            simp_all [velocityDifference]

/-! ### Observing -/

/-- **C72.** A position can be used as an observer if it is called barycentric.  What is seen is measured from its target, to the
body's target, and remembers the observer and the light time. -/
theorem C72_observe (a : Position V T L O) (body : Body O) (p v : V) (t : T) (lt : L) :
    (a.core.kind ≠ .barycentric → ∀ seen, a.observe body seen = .error .attributeError) ∧
    (a.core.kind = .barycentric → ∃ q, a.observe body (.ok (p, v, t, lt)) = .ok q ∧ q.core.kind = .astrometric ∧
      q.core.xyz = p ∧ q.core.velocity = some v ∧ q.core.t = some t ∧ q.core.center = a.core.target ∧
      q.core.target = some body ∧ q.centerBarycentric = some a.core ∧ q.lightTime = some lt) := by
  unfold Position.observe
  refine ⟨fun h seen => by rw [if_pos h], fun h => ?_⟩
  rw [if_neg (not_not.2 h)]
  refine ⟨_, rfl, rfl, rfl, rfl, rfl, ?_, rfl, rfl, rfl⟩
  simp only [Position.new]
  split_ifs with hn
  · rw [hn]; rfl
  · rfl

/-- **C72.** The apparent place differs from the astrometric one in its position vector only: it keeps the velocity, the time, the
two ends and the observer. -/
theorem C72_apparent (a q : Position V T L O) (own : L) (shifted : PositionCore V T O → V → L → Except PositionError V)
    (h : a.apparent own shifted = .ok q) :
    a.core.kind = .astrometric ∧ q.core.kind = .apparent ∧ q.core.velocity = a.core.velocity ∧ q.core.t = a.core.t ∧
    q.core.center = a.core.center ∧ q.core.target = a.core.target ∧ q.centerBarycentric = a.centerBarycentric ∧
    ∃ cb, a.centerBarycentric = some cb ∧ shifted cb a.core.xyz (a.lightTime.getD own) = .ok q.core.xyz ∧
      q.core.observerGcrs = cb.observerGcrs := by
  unfold Position.apparent at h
  by_cases hk : a.core.kind = .astrometric
  · rw [if_neg (not_not.2 hk)] at h
    cases hcb : a.centerBarycentric with
    | none => rw [hcb] at h; cases h
    | some cb =>
      rw [hcb] at h
      simp only at h
      cases hs : shifted cb a.core.xyz (a.lightTime.getD own) with
      | error e => rw [hs] at h; cases h
      | ok xyz =>
        rw [hs] at h
        injection h with h
        subst h
        refine ⟨hk, rfl, rfl, rfl, ?_, rfl, rfl, cb, rfl, hs, rfl⟩
        simp only [Position.new]
        split_ifs with hn
        · rw [hn]; rfl
        · rfl
  · rw [if_pos hk] at h; cases h

/-- **C72 (negative).** An element of an array of astrometric places no longer knows its observer, so its apparent place cannot
be computed (unless the observer was at the Solar System barycenter itself). -/
theorem C72_index_forgets_observer (a : Position (Fin n → V) (Fin n → I) (Fin n → L) O)
    (hc : a.core.center ≠ some (.code 0)) (i : Fin n)
    (q : Position V I L O) (hq : a.getItem i = .ok q) (own : L)
    (shifted : PositionCore V I O → V → L → Except PositionError V) :
    q.centerBarycentric = none ∧ q.apparent own shifted = .error .attributeError := by
  unfold Position.getItem at hq
  cases ht : a.core.t with
  | none => rw [ht] at hq; cases hq
  | some t =>
    rw [ht] at hq
    injection hq with hq
    subst hq
    have h1 : (Position.new a.core.kind (a.core.xyz i) (a.core.velocity.map (· i)) (some (t i)) a.core.center a.core.target :
      Position V I L O).centerBarycentric = none := by simp [Position.new, hc]
    refine ⟨h1, ?_⟩
    unfold Position.apparent
    split_ifs
    · rfl
    · rw [h1]

/-- **C72.** Altitude and azimuth of an apparent place are measured with the orientation of the place from which it was
observed, at the time of the observation. -/
theorem C72_altaz_observed {R : Type*} (rotationAt : O → Option (T → R)) (rot : T → R) (o : O) (ho : rotationAt o = some rot)
    (xyz velocity : V) (gcrs : Option V) (eph : Bool) (t : T) (body : Body O) (p v : V) (t' : T) (lt own : L)
    (shifted : PositionCore V T O → V → L → Except PositionError V) (a q : Position V T L O)
    (ha : (positionAt (.code 0) (.object o) xyz velocity gcrs eph t : Position V T L O).observe body
      (.ok (p, v, t', lt)) = .ok a)
    (hq : a.apparent own shifted = .ok q) :
    q.altazRotation rotationAt = .ok (rot t) ∧ a.altazRotation rotationAt = .error .valueError := by
  obtain ⟨hk, hk', -, -, -, -, hcb, -⟩ := C72_apparent a q own shifted hq
  have h0 : (positionAt (.code 0) (.object o) xyz velocity gcrs eph t : Position V T L O).core.kind = .barycentric := by
    simp [positionAt, buildPosition, Position.new]
  obtain ⟨a', g1, -, -, -, -, -, -, g2, -⟩ :=
    (C72_observe (positionAt (.code 0) (.object o) xyz velocity gcrs eph t : Position V T L O) body p v t' lt).2 h0
  rw [ha] at g1
  injection g1 with g1
  subst g1
  constructor
  · unfold Position.altazRotation
    rw [if_neg (by rw [hk']; simp), hcb, g2]
    simp [positionAt, buildPosition, Position.new, ho]
  · unfold Position.altazRotation
    rw [if_pos hk]

/-- **C72.** An apparent place is computed for the observer that it was observed from: deflection and aberration are given the
observer's barycentric position and velocity and, for the deflection by the Earth, the observer's place relative to the Earth's
center, as `at()` had them; and the apparent place keeps the latter. -/
theorem C72_observer_kept (target : Body O) (xyz velocity : V) (gcrs : Option V) (eph : Bool) (t : T) (body : Body O) (p v : V) (t' : T)
    (lt own : L) (shifted : PositionCore V T O → V → L → Except PositionError V) (a q : Position V T L O)
    (ha : (positionAt (.code 0) target xyz velocity gcrs eph t : Position V T L O).observe body (.ok (p, v, t', lt)) = .ok a)
    (hq : a.apparent own shifted = .ok q) :
    a.core.hasEphemeris = eph ∧ q.core.observerGcrs = gcrs ∧
    ∃ observer, shifted observer p lt = .ok q.core.xyz ∧ observer.xyz = xyz ∧ observer.velocity = some velocity ∧
      observer.t = some t ∧ observer.target = some target ∧ observer.observerGcrs = gcrs := by
  have e : (positionAt (.code 0) target xyz velocity gcrs eph t : Position V T L O).core =
      ⟨.barycentric, xyz, some velocity, some t, some (.code 0), some target, gcrs, eph⟩ := by
    simp [positionAt, buildPosition, Position.new]
  simp only [Position.observe, e, ne_eq, not_true_eq_false, if_false] at ha
  injection ha with ha
  subst ha
  simp only [Position.apparent, Position.new, ne_eq, not_true_eq_false, if_false, Option.getD_some] at hq
  cases hs : shifted ⟨.barycentric, xyz, some velocity, some t, some (.code 0), some target, gcrs, eph⟩ p lt with
  | error x => rw [hs] at hq; cases hq
  | ok w =>
    rw [hs] at hq
    injection hq with hq
    subst hq
    exact ⟨rfl, rfl, _, hs, rfl, rfl, rfl, rfl, rfl⟩

/-- **C72.** The same holds for the position of a satellite relative to a place, `(satellite - place).at(t)`, and for the elements
of an array of apparent places: they use the orientation of their center at their own time. -/
theorem C72_altaz_relative {R : Type*} (rotationAt : O → Option (T → R)) (rot : T → R) (o : O) (ho : rotationAt o = some rot)
    (p : Position V T L O) (hk : p.core.kind ≠ .astrometric) (hcb : p.centerBarycentric = none) (t : T)
    (ht : p.core.t = some t) (hc : p.core.center = some (.object o)) : p.altazRotation rotationAt = .ok (rot t) := by
  unfold Position.altazRotation
  rw [if_neg hk, hcb]
  simp [hc, ht, ho]

/-- **C72 (negative).** For a position measured from a body that is only a code, and without observer, the explanation of
what is needed is never shown: looking up the orientation raises first. -/
theorem C72_altaz_code {R : Type*} (rotationAt : O → Option (T → R)) (p : Position V T L O) (hk : p.core.kind ≠ .astrometric)
    (hcb : p.centerBarycentric = none) (c : ℤ) (hc : p.core.center = some (.code c)) :
    p.altazRotation rotationAt = .error .attributeError := by
  unfold Position.altazRotation
  rw [if_neg hk, hcb]
  simp [hc]

end

/-! ### Lengths -/

section
variable {T L O : Type*} [DecidableEq O]

/-- **C72.** Distances of positions are distances between places: never negative, zero exactly between equal places, the same both
ways, and subject to the triangle inequality. -/
theorem C72_distance (a b c : Position Vec3 T L O) (ab ba ac cb : Position Vec3 T L O) (h1 : a.sub b = .ok ab)
    (h2 : b.sub a = .ok ba) (h3 : a.sub c = .ok ac) (h4 : c.sub b = .ok cb) :
    0 ≤ ab.distance ∧ (ab.distance = 0 ↔ a.core.xyz = b.core.xyz) ∧ ab.distance = ba.distance ∧
    ab.distance ≤ ac.distance + cb.distance := by
  have key : ∀ x y d : Position Vec3 T L O, x.sub y = .ok d → d.core.xyz = x.core.xyz - y.core.xyz := by
    intro x y d h
    by_cases hc : x.core.center = y.core.center
    · obtain ⟨d', g1, g2, -⟩ := (C72_difference x y).2 hc
      rw [h] at g1; injection g1 with g1; subst g1; exact g2
    · rw [(C72_difference x y).1 hc] at h; cases h
  unfold Position.distance
  rw [key _ _ _ h1, key _ _ _ h2, key _ _ _ h3, key _ _ _ h4]
  refine ⟨Vec3.length_nonneg _, ?_, Vec3.length_sub_comm _ _, ?_⟩
  · rw [Vec3.length_eq_zero, sub_eq_zero]
  · have : a.core.xyz - b.core.xyz = (a.core.xyz - c.core.xyz) + (c.core.xyz - b.core.xyz) := by abel
    rw [this]
    exact Vec3.length_add_le _ _

/-- **C72.** In its light time, light covers the distance: 299 792 458 metres every second. -/
theorem C72_light_time (p : Position Vec3 T L O) :
    (p.ownLightTime * 86400) * 299792458 = p.distance * 149597870700 := by
  unfold Position.ownLightTime auM lightSpeed daySeconds
  field_simp

/-- **C72.** Negation keeps distance, speed and light time. -/
theorem C72_negated_lengths (p : Position Vec3 T L O) :
    p.neg.distance = p.distance ∧ p.neg.speed = p.speed ∧ p.neg.ownLightTime = p.ownLightTime := by
  have h1 : p.neg.distance = p.distance := by
    simp only [Position.distance, Position.neg, Position.new]; exact Vec3.length_neg _
  refine ⟨h1, ?_, by unfold Position.ownLightTime; rw [h1]⟩
  cases hv : p.core.velocity with
  | none => simp [Position.speed, Position.neg, Position.new, hv]
  | some v => simp [Position.speed, Position.neg, Position.new, hv, Vec3.length_neg]

/-- **C72.** The Solar System barycenter is at the origin, at rest; but unlike the position of any other body from the barycenter
it has no barycentric observer set, so that for instance phase angles cannot be computed from it. -/
theorem C72_barycenter (t : T) (target : Body O) (xyz velocity : Vec3) (gcrs : Option Vec3) (eph : Bool) :
    (ssbAt t : Position Vec3 T L O).core.xyz = 0 ∧ (ssbAt t : Position Vec3 T L O).core.velocity = some 0 ∧
    (ssbAt t : Position Vec3 T L O).core.center = some (.code 0) ∧
    (ssbAt t : Position Vec3 T L O).centerBarycentric = none ∧
    (positionAt (.code 0) target xyz velocity gcrs eph t : Position Vec3 T L O).centerBarycentric =
      some (positionAt (.code 0) target xyz velocity gcrs eph t : Position Vec3 T L O).core := by
  simp [ssbAt, Position.new, PositionKind.defaultCenter, positionAt, buildPosition]

end

/-! ### Non-vacuity -/

/-- Mars and the Earth seen from the barycenter, and their difference, which is geocentric. -/
example :
    let mars : Position ℤ ℕ ℕ Unit := positionAt (.code 0) (.code 499) 7 1 none true 3
    let earth : Position ℤ ℕ ℕ Unit := positionAt (.code 0) (.code 399) 4 2 none true 3
    ∃ d, mars.sub earth = .ok d ∧ d.core.kind = .geocentric ∧ d.core.xyz = 3 ∧ d.core.velocity = some (-1) := by
  refine ⟨_, rfl, ?_, rfl, rfl⟩
  decide

example : (positionAt (.code 0) (.code 499) 7 1 none true 3 : Position ℤ ℕ ℕ Unit).Tells
    (fun b => if b = .code 499 then 7 else 0) (fun b => if b = .code 499 then 1 else 0) :=
  ⟨.code 0, .code 499, rfl, rfl, by decide, by decide⟩

/-- Two elements of an array. -/
example :
    let mars : Position (Fin 2 → ℤ) (Fin 2 → ℕ) (Fin 2 → ℕ) Unit :=
      positionAt (.code 0) (.code 499) (fun i => 7 + i) (fun _ => 1) none true (fun i => i)
    ∃ p, mars.getItem 1 = .ok p ∧ p.core.xyz = 8 ∧ p.core.t = some 1 := ⟨_, rfl, rfl, rfl⟩

/-- A place that observes Mars. -/
example : ∃ a q, (positionAt (.code 0) (.object ()) 4 2 none true 3 : Position ℤ ℕ ℕ Unit).observe (.code 499)
      (.ok (3, -1, 3, 5)) = .ok a ∧ a.apparent 0 (fun _ x _ => .ok (x + 1)) = .ok q ∧
    q.altazRotation (fun _ => some fun t => t * 10) = .ok 30 := ⟨_, _, rfl, rfl, rfl⟩

end Skyfield
