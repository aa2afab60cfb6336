import Verif.Model.AngleText
import Verif.Props.Units
import Mathlib.Tactic

/-
C93: how angles that hold arrays print themselves, and the advice of their exceptions.
-/
namespace Skyfield

/-- The text that `hstr()` or `dstr()` gives for one value with the default places: hours with two, degrees with one. -/
noncomputable def oneText (preference : Preference) (signed : Bool) (x : ℝ) : List Char :=
  match preference with
  | .hours => sfmt .hfmt x 2
  | .degrees => sfmt (if signed then .dsgn else .dfmt) x 1

/-- That it is what `hstr()` and `dstr()` give by default. -/
theorem oneText_is_default (x : ℝ) (signed : Bool) :
    (∃ a, (angleInit none none none (some x) none signed).access (.hstr 2 true) = .ok (.text (oneText .hours signed x), a)) ∧
    (∃ a, (angleInit none none (some x) none none signed).access (.dstr 1 true) = .ok (.text (oneText .degrees signed x), a)) := by
  constructor
  · exact ⟨_, rfl⟩
  · exact ⟨_, rfl⟩

private theorem fmt_one (p : Preference) (signed : Bool) (x : ℝ) :
    sfmtArray (strFormat p signed).1 (strFormat p signed).2 [x] = some (oneText p signed x) := by
  cases p <;> rfl

private theorem row_of_list (l : List ℝ) (n i : ℕ) (h : i < l.length) : AngleValues.row ⟨[n], l⟩ i = [l[i]] := by
  simp only [AngleValues.row, AngleValues.rowSize, List.tail_cons, List.prod_nil, mul_one]
  rw [List.drop_eq_getElem_cons h]
  rfl

/-- **C93**: an angle that holds a list of two or more values prints how many there are, the first and the last. -/
theorem C93_many (p : Preference) (signed : Bool) (x y : ℝ) (between : List ℝ) :
    angleStr p signed ⟨[between.length + 2], x :: between ++ [y]⟩ =
      some (Nat.toDigits 10 (between.length + 2) ++ " values from ".toList ++ oneText p signed x ++ " to ".toList ++ oneText p signed y) := by
  have hl : (x :: between ++ [y]).length = between.length + 2 := by simp
  have r0 := row_of_list (x :: between ++ [y]) (between.length + 2) 0 (by simp)
  have r1 := row_of_list (x :: between ++ [y]) (between.length + 2) (between.length + 1) (by simp)
  have e1 : (x :: between ++ [y])[between.length + 1]'(by simp) = y := by simp
  rw [e1] at r1
  rw [angleStr, if_neg (by simp)]
  simp only
  rw [if_pos (by rw [hl]; omega)]
  simp only [List.headD_cons, Nat.add_sub_cancel_right]
  rw [show between.length + 2 - 1 = between.length + 1 by omega, r0, r1]
  have e0 : (x :: between ++ [y])[0]'(by simp) = x := by simp
  rw [e0, fmt_one, fmt_one]
  rfl

/-- **C93**: an angle with one value prints like that value, whatever the shape. -/
theorem C93_one (p : Preference) (signed : Bool) (shape : List ℕ) (x : ℝ) : angleStr p signed ⟨shape, [x]⟩ = some (oneText p signed x) := by
  rw [angleStr, if_neg (by simp)]
  simp only
  rw [if_neg (by simp), fmt_one]

/-- **C93**: an angle without values prints `Angle []`. -/
theorem C93_empty (p : Preference) (signed : Bool) (shape : List ℕ) : angleStr p signed ⟨shape, []⟩ = some "Angle []".toList := by
  simp [angleStr]

private theorem row_length (v : AngleValues) (n : ℕ) (rest : List ℕ) (hs : v.shape = n :: rest) (hv : v.values.length = v.shape.prod) (i : ℕ)
    (hi : i < n) : (v.row i).length = rest.prod := by
  simp only [AngleValues.row, AngleValues.rowSize, hs, List.tail_cons, List.length_take, List.length_drop, hv, List.prod_cons]
  have : i * rest.prod + rest.prod ≤ n * rest.prod := by
    have := Nat.mul_le_mul_right rest.prod hi
    rw [Nat.succ_mul] at this
    exact this
  omega

/-- **C93** (finding): an angle whose array has a second axis with several values cannot be printed: `ValueError`. -/
theorem C93_matrix (p : Preference) (signed : Bool) (v : AngleValues) (n : ℕ) (rest : List ℕ) (hs : v.shape = n :: rest)
    (hv : v.values.length = v.shape.prod) (hn : 1 ≤ n) (hr : 2 ≤ rest.prod) (f : SexaFormat) (places : ℕ) :
    angleStr p signed v = none ∧ angleStrings f places v = none := by
  have none_of : ∀ g k (l : List ℝ), 2 ≤ l.length → sfmtArray g k l = none := by
    rintro g k (_ | ⟨a, _ | ⟨b, l⟩⟩) h
    · simp at h
    · simp at h
    · rfl
  have h0 := row_length v n rest hs hv 0 (by omega)
  have hl : 2 ≤ v.values.length := by
    rw [hv, hs, List.prod_cons]
    nlinarith
  constructor
  · rw [angleStr, if_neg (by omega)]
    simp only
    rw [if_pos hl, none_of _ _ _ (by omega)]
    rfl
  · rw [angleStrings, hs]
    simp only
    obtain ⟨m, rfl⟩ : ∃ m, n = m + 1 := ⟨n - 1, by omega⟩
    rw [List.range_succ_eq_map, List.mapM_cons, none_of _ _ _ (by omega)]
    rfl

/-- **C93**: `hstr()` and `dstr()` of a list of values are the texts of the values, in order. -/
theorem C93_strings (f : SexaFormat) (places : ℕ) (l : List ℝ) :
    angleStrings f places ⟨[l.length], l⟩ = some (l.map fun x => sfmt f x places) := by
  rw [angleStrings]
  simp only
  have key : ∀ k ≤ l.length, (List.range k).mapM (fun i => sfmtArray f places (AngleValues.row ⟨[l.length], l⟩ i)) =
      some ((l.take k).map fun x => sfmt f x places) := by
    intro k
    induction k with
    | zero => intro _; rfl
    | succ k ih =>
      intro hk
      rw [List.range_succ, List.mapM_append, ih (by omega), List.take_succ_eq_append_getElem (by omega)]
      rw [List.mapM_cons, List.mapM_nil, row_of_list l _ k (by omega)]
      rw [List.map_append]
      rfl
  have := key l.length le_rfl
  rwa [List.take_length] at this

/-- **C93**: when a method refuses because of the unit, the message names the angle's own unit as the usual one and the method that was called, and
calling that method with `warn=False`, as the message says, gives a value. -/
theorem C93_advice (a : AngleObj) (turns : ℝ) (h : AngleMade a turns) (m : UnitMethod) (places : ℕ)
    (he : a.access (m.access places true) = .error .wrongUnit) :
    a.preference = some (wrongUnitAdvice m.name).usual ∧ (wrongUnitAdvice m.name).unit ≠ (wrongUnitAdvice m.name).usual ∧
    (wrongUnitAdvice m.name).useAttribute = false ∧ (wrongUnitAdvice m.name).call = m.name ∧
    ∃ r, a.access (m.access places false) = .ok r := by
  obtain ⟨ah, eh, -⟩ := a.getHours_eq h.holds
  obtain ⟨ad, ed, -⟩ := a.getDegrees_eq h.holds
  have hsigned : a.preference.isSome → ∃ s, a.signed = some s := by
    cases h with
    | radians x p s => intro _; exact ⟨s, rfl⟩
    | degrees x p s => intro _; exact ⟨s, rfl⟩
    | hours x p s => intro _; exact ⟨s, rfl⟩
    | fromDegrees x s => intro _; exact ⟨s, rfl⟩
    | fromRadians x => intro h; simp [angleFromRadians] at h
    | copy a _ p s _ => intro _; exact ⟨s, rfl⟩
  cases hp : a.preference with
  | none => cases m <;> simp [UnitMethod.access, AngleObj.access, AngleObj.check, hp, bind, Except.bind] at he
  | some p =>
    obtain ⟨s, hs⟩ := hsigned (by rw [hp]; rfl)
    have c1 : ∀ w, a.check true w = if p ≠ w then .error .wrongUnit else .ok () := fun w => by simp [AngleObj.check, hp]
    have c2 : ∀ w, a.check false w = .ok () := fun w => rfl
    cases m <;> cases p <;>
      simp [UnitMethod.access, AngleObj.access, c1, c2, eh, ed, hs, bind, Except.bind, pure, Except.pure] at he ⊢ <;>
      decide

/-! ### Concrete cases -/

example : angleStr .hours false ⟨[3], [1 / 2, 5, -13]⟩ =
    some (Nat.toDigits 10 3 ++ " values from ".toList ++ sfmt .hfmt (1 / 2 : ℝ) 2 ++ " to ".toList ++ sfmt .hfmt (-13 : ℝ) 2) :=
  C93_many .hours false (1 / 2) (-13) [5]

example : angleStr .degrees true ⟨[2, 2], [1, 2, 3, 4]⟩ = none :=
  (C93_matrix .degrees true ⟨[2, 2], [1, 2, 3, 4]⟩ 2 [2] rfl rfl (by norm_num) (by norm_num) .dfmt 1).1

example : ∃ r, (angleInit none none none (some 3) none false).access (.dms false) = .ok r :=
  (C93_advice _ _ (.hours 3 none false) .dms 1 rfl).2.2.2.2

end Skyfield
