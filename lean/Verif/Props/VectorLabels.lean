import Verif.Model.VectorLabels

/-
C108: the ephemeris and the error message that a vector carries along.
-/
namespace Skyfield

variable {T V E M : Type*}

/-! ### The specification -/

mutual
/-- The vector functions a vector is made of, whichever way they are passed. -/
def VectorFunction.madeOf : VectorFunction T V → List (VectorFunction T V)
  | .leaf c t f => [.leaf c t f]
  | .reversed f => f.madeOf
  | .sum _ _ fs => allMadeOf fs
def allMadeOf : List (VectorFunction T V) → List (VectorFunction T V)
  | [] => []
  | f :: fs => f.madeOf ++ allMadeOf fs
end

/-! ### Lemmas -/

theorem lastMessage_append (own : VectorFunction T V → T → Option M) (fs gs : List (VectorFunction T V)) (hg : gs ≠ []) (time : T) :
    lastMessage own (fs ++ gs) time = lastMessage own gs time := by
  induction fs with
  | nil => rfl
  | cons f fs ih =>
    rw [← ih]
    cases h : fs ++ gs with
    | nil => rw [List.append_eq_nil_iff] at h; exact absurd h.2 hg
    | cons x xs => rw [List.cons_append, h]; rfl

theorem label_parts_ne_nil (f : VectorFunction T V) : f.parts ≠ [] := by
  unfold VectorFunction.parts
  split <;> simp

theorem lastMessage_parts (own : VectorFunction T V → T → Option M) (f : VectorFunction T V) (time : T) :
    lastMessage own f.parts time = f.message own time := by
  unfold VectorFunction.parts
  split
  · rw [VectorFunction.message]
  · rw [lastMessage]

theorem firstEphemeris_append (own : VectorFunction T V → Option E) (fs gs : List (VectorFunction T V)) :
    firstEphemeris own (fs ++ gs) = (firstEphemeris own fs).or (firstEphemeris own gs) := by
  induction fs with
  | nil => simp [firstEphemeris]
  | cons f fs ih =>
    rw [List.cons_append, firstEphemeris, firstEphemeris, ih]
    cases f.ephemeris own <;> simp

theorem firstEphemeris_parts (own : VectorFunction T V → Option E) (f : VectorFunction T V) :
    firstEphemeris own f.parts = f.ephemeris own := by
  unfold VectorFunction.parts
  split
  · rw [VectorFunction.ephemeris]
  · rw [firstEphemeris, firstEphemeris]
    cases f.ephemeris own <;> rfl

mutual
theorem ephemeris_own (own : VectorFunction T V → Option E) (e : E) : ∀ f : VectorFunction T V, f.ephemeris own = some e → ∃ g ∈ f.madeOf, own g = some e
  | .leaf c t f, h => by
    rw [VectorFunction.ephemeris] at h
    exact ⟨_, by rw [VectorFunction.madeOf]; exact List.mem_singleton_self _, h⟩
  | .reversed f, h => by rw [VectorFunction.ephemeris] at h; cases h
  | .sum _ _ fs, h => by
    rw [VectorFunction.ephemeris] at h
    rw [VectorFunction.madeOf]
    exact firstEphemeris_own own e fs h
theorem firstEphemeris_own (own : VectorFunction T V → Option E) (e : E) :
    ∀ fs : List (VectorFunction T V), firstEphemeris own fs = some e → ∃ g ∈ allMadeOf fs, own g = some e
  | [], h => by rw [firstEphemeris] at h; cases h
  | f :: fs, h => by
    rw [firstEphemeris] at h
    rw [allMadeOf]
    cases hf : f.ephemeris own with
    | some e' =>
      rw [hf] at h
      cases h
      obtain ⟨g, hg, hge⟩ := ephemeris_own own e f hf
      exact ⟨g, List.mem_append_left _ hg, hge⟩
    | none =>
      rw [hf] at h
      obtain ⟨g, hg, hge⟩ := firstEphemeris_own own e fs h
      exact ⟨g, List.mem_append_right _ hg, hge⟩
end

theorem allMadeOf_append (fs gs : List (VectorFunction T V)) : allMadeOf (fs ++ gs) = allMadeOf fs ++ allMadeOf gs := by
  induction fs with
  | nil => simp [allMadeOf]
  | cons f fs ih => rw [List.cons_append, allMadeOf, allMadeOf, ih, List.append_assoc]

theorem madeOf_neg (f : VectorFunction T V) : f.neg.madeOf = f.madeOf := by
  unfold VectorFunction.neg
  split <;> rw [VectorFunction.madeOf]

theorem allMadeOf_parts (f : VectorFunction T V) : allMadeOf f.parts = f.madeOf := by
  unfold VectorFunction.parts
  split
  · rw [VectorFunction.madeOf]
  · rw [allMadeOf, allMadeOf, List.append_nil]

theorem mem_allMadeOf (g : VectorFunction T V) (fs : List (VectorFunction T V)) : g ∈ allMadeOf fs ↔ ∃ f ∈ fs, g ∈ f.madeOf := by
  induction fs with
  | nil => simp [allMadeOf]
  | cons f fs ih => rw [allMadeOf, List.mem_append, ih]; simp

/-! ### Messages -/

/-- **C108.** `a - b` says about its positions what `a` says, whatever `b` is: a satellite seen from a place explains why it has no
position. -/
theorem C108_difference_message (own : VectorFunction T V → T → Option M) (a b d : VectorFunction T V) (h : a.sub b = some d) (t : T) :
    d.message own t = a.message own t := by
  unfold VectorFunction.sub at h
  split at h
  · cases h
  · cases h
    rw [VectorFunction.message, lastMessage_append own _ _ (label_parts_ne_nil a), lastMessage_parts]

/-- **C108.** `a + b` says what the one says where the sum ends. -/
theorem C108_sum_message (own : VectorFunction T V → T → Option M) (a b s : VectorFunction T V) (h : a.add b = some s) (t : T) :
    (a.target = b.center → s.target = b.target ∧ s.message own t = b.message own t) ∧
    (a.target ≠ b.center → s.target = a.target ∧ s.message own t = a.message own t) := by
  unfold VectorFunction.add at h
  constructor
  · intro e
    rw [if_neg (not_not.2 e)] at h
    cases h
    exact ⟨by rw [VectorFunction.target], by rw [VectorFunction.message, lastMessage_append own _ _ (label_parts_ne_nil b), lastMessage_parts]⟩
  · intro e
    rw [if_pos e] at h
    split at h
    · cases h
      exact ⟨by rw [VectorFunction.target], by rw [VectorFunction.message, lastMessage_append own _ _ (label_parts_ne_nil a), lastMessage_parts]⟩
    · cases h

/-- **C108.** `-a` says what `a` says. -/
theorem C108_negated_message (own : VectorFunction T V → T → Option M) (a : VectorFunction T V) (t : T) :
    a.neg.message own t = a.message own t := by
  unfold VectorFunction.neg
  split
  · rw [VectorFunction.message]
  · rw [VectorFunction.message]

/-- **C108 (limitation).** A place seen from a satellite: if the place has nothing to say then neither has the difference, although its
positions are `nan` because of the satellite. -/
theorem C108_message_lost (own : VectorFunction T V → T → Option M) (sat place d : VectorFunction T V) (h : place.sub sat = some d) (t : T)
    (hp : place.message own t = none) : d.message own t = none := by
  rw [C108_difference_message own _ _ _ h, hp]

/-! ### The ephemeris -/

/-- **C108.** The ephemeris of a vector is that of one of the vectors it is made of: never another. -/
theorem C108_ephemeris_own (own : VectorFunction T V → Option E) (f : VectorFunction T V) (e : E) (h : f.ephemeris own = some e) :
    ∃ g ∈ f.madeOf, own g = some e := ephemeris_own own e f h

/-- **C108.** A sum has the ephemeris of the vector that comes first, and if that has none, of the other. -/
theorem C108_sum_ephemeris (own : VectorFunction T V → Option E) (a b s : VectorFunction T V) (h : a.add b = some s) :
    s.ephemeris own = if a.target = b.center then (a.ephemeris own).or (b.ephemeris own) else (b.ephemeris own).or (a.ephemeris own) := by
  unfold VectorFunction.add at h
  by_cases e : a.target = b.center
  · rw [if_neg (not_not.2 e)] at h
    cases h
    rw [if_pos e, VectorFunction.ephemeris, firstEphemeris_append, firstEphemeris_parts, firstEphemeris_parts]
  · rw [if_pos e] at h
    split at h
    · cases h
      rw [if_neg e, VectorFunction.ephemeris, firstEphemeris_append, firstEphemeris_parts, firstEphemeris_parts]
    · cases h

/-- **C108.** So a place on a body of an ephemeris, or anything else built on one, remembers that ephemeris, and `apparent()` finds the
deflectors there. -/
theorem C108_place_keeps_ephemeris (own : VectorFunction T V → Option E) (body place s : VectorFunction T V) (h : body.add place = some s)
    (e : E) (hb : body.ephemeris own = some e) (hp : place.ephemeris own = none) : s.ephemeris own = some e := by
  rw [C108_sum_ephemeris own body place s h, hb, hp]
  split <;> rfl

/-- **C108.** A difference of vectors from the same ephemeris has that ephemeris. -/
theorem C108_difference_ephemeris (own : VectorFunction T V → Option E) (a b d : VectorFunction T V) (h : a.sub b = some d) (e : E)
    (ha : a.ephemeris own = some e) (hb : ∀ g ∈ b.madeOf, own g = none ∨ own g = some e) : d.ephemeris own = some e := by
  unfold VectorFunction.sub at h
  split at h
  · cases h
  · cases h
    rw [VectorFunction.ephemeris, firstEphemeris_append, firstEphemeris_parts, ha]
    cases hx : firstEphemeris own (b.parts.map VectorFunction.neg).reverse with
    | none => rfl
    | some e' =>
      obtain ⟨g, hg, hge⟩ := firstEphemeris_own own e' _ hx
      rw [mem_allMadeOf] at hg
      obtain ⟨f, hf, hgf⟩ := hg
      rw [List.mem_reverse, List.mem_map] at hf
      obtain ⟨f', hf', rfl⟩ := hf
      rw [madeOf_neg] at hgf
      have hgb : g ∈ b.madeOf := by
        rw [← allMadeOf_parts, mem_allMadeOf]
        exact ⟨f', hf', hgf⟩
      rcases hb g hgb with h0 | h0
      · rw [h0] at hge; cases hge
      · rw [h0] at hge
        cases hge
        rfl

/-- **C108 (limitation).** A negated vector that is not itself a negation has no ephemeris, whatever it is made of. -/
theorem C108_negated_ephemeris (own : VectorFunction T V → Option E) (a : VectorFunction T V) (h : ∀ g, a ≠ .reversed g) :
    a.neg.ephemeris own = none := by
  unfold VectorFunction.neg
  split
  · rename_i g
    exact absurd rfl (h g)
  · rw [VectorFunction.ephemeris]

/-- The Earth, a place on it and a satellite that has decayed: the sums exist, the satellite explains itself in three of the four, and the
place keeps the Earth's ephemeris. -/
example : ∃ s d d' : VectorFunction Unit ℤ,
    let earth : VectorFunction Unit ℤ := .leaf 0 399 fun _ => some ⟨5, 0, none⟩
    let place : VectorFunction Unit ℤ := .leaf 399 7 fun _ => some ⟨1, 0, none⟩
    let sat : VectorFunction Unit ℤ := .leaf 399 (-125544) fun _ => some ⟨0, 0, none⟩
    let own : VectorFunction Unit ℤ → Unit → Option String := fun f _ => if f.target = -125544 then some "satellite decayed" else none
    let eph : VectorFunction Unit ℤ → Option String := fun f => if f.center = 0 then some "de421.bsp" else none
    earth.add sat = some s ∧ sat.sub place = some d ∧ place.sub sat = some d' ∧
      s.message own () = some "satellite decayed" ∧ d.message own () = some "satellite decayed" ∧ d'.message own () = none ∧
      s.ephemeris eph = some "de421.bsp" ∧ sat.ephemeris eph = none := by
  refine ⟨_, _, _, rfl, rfl, rfl, ?_, ?_, ?_, ?_, ?_⟩ <;> decide

end Skyfield
