import Verif.Model.MinorPlanets
import Verif.Spec.Packed
import Verif.Spec.Calendar
import Verif.Props.Calendar

/-
C77: packed dates and designations of the Minor Planet Center.
-/
namespace Skyfield
open Spec

theorem mpcDigit_value (n : ℕ) (h : n < 36) : packedDigit (mpcDigit n) = n := by
  revert h; revert n; decide

theorem mpcDigit_isDigit (n : ℕ) (h : n < 10) : (mpcDigit n).isDigit = true := by
  revert h; revert n; decide

theorem mpcDigit_letter (n : ℕ) (h : n < 36) (h' : 10 ≤ n) : (mpcDigit n).isDigit = false := by
  revert h h'; revert n; decide

theorem mpcDigit_toNat (n : ℕ) (h : n < 10) : ((mpcDigit n).toNat : ℤ) - 48 = n := by
  revert h; revert n; decide

theorem mpcDigit_slash (n : ℕ) (h : n < 36) : mpcDigit n ≠ '/' := by
  revert h; revert n; decide

theorem mpcDigit_digitChar (n : ℕ) (h : n < 10) : mpcDigit n = Nat.digitChar n := by
  revert h; revert n; decide

theorem intOfPair_digits (a b : ℕ) (ha : a < 10) (hb : b < 10) :
    intOfPair (mpcDigit a) (mpcDigit b) = some (10 * a + b : ℤ) := by
  unfold intOfPair
  rw [mpcDigit_isDigit a ha, mpcDigit_isDigit b hb, mpcDigit_toNat a ha, mpcDigit_toNat b hb]
  rfl

/-- **C77.** A packed epoch is read back as the start (0h) of the date that was packed: for every valid date of the years 0
to 3599, the Julian date half a day before the day's number in the Gregorian calendar. -/
theorem C77_epoch (D : ℤ → ℤ → ℤ → ℤ) (hD : IsGregorianDayNumber D) (y m d : ℕ) (hy : y < 3600)
    (hv : ValidDate gregorianLeap y m d) (rest : List Char) :
    packedEpoch (packDate y m d ++ rest) = some ((D y m d : ℝ) - 1 / 2) := by
  have hm : m < 36 := by have := hv.2.1; omega
  have hd : d < 36 := by
    have h4 := hv.2.2.2
    have : monthLength gregorianLeap y m ≤ 31 := by unfold monthLength; split_ifs <;> omega
    omega
  simp only [packDate, List.cons_append, List.nil_append, packedEpoch]
  rw [intOfPair_digits _ _ (by omega) (by omega), mpcDigit_value _ (by omega), mpcDigit_value _ hm, mpcDigit_value _ hd]
  have hyear : (100 * ((y / 100 : ℕ) : ℤ) + (10 * ((y / 10 % 10 : ℕ) : ℤ) + ((y % 10 : ℕ) : ℤ))) = (y : ℤ) := by omega
  simp only [Option.map_some, hyear]
  rw [C02_agrees_with_every_gregorian_count D hD y m d hv]
  norm_num

/-- Non-vacuity: the published example, `K107N` for 2010 July 23. -/
example : packDate 2010 7 23 = "K107N".toList ∧ (2010 : ℕ) < 3600 ∧ ValidDate gregorianLeap (2010 : ℕ) (7 : ℕ) (23 : ℕ) := by
  decide

/-- **C77.** Different dates are never read as the same epoch. -/
theorem C77_epoch_injective (y m d y' m' d' : ℕ) (hy : y < 3600) (hy' : y' < 3600)
    (hv : ValidDate gregorianLeap y m d) (hv' : ValidDate gregorianLeap y' m' d')
    (h : packedEpoch (packDate y m d) = packedEpoch (packDate y' m' d')) : y = y' ∧ m = m' ∧ d = d' := by
  have e := C77_epoch _ C02_is_gregorian_day_number y m d hy hv []
  have e' := C77_epoch _ C02_is_gregorian_day_number y' m' d' hy' hv' []
  rw [List.append_nil] at e e'
  rw [e, e', Option.some_inj] at h
  have h2 : julianDay y m d none = julianDay y' m' d' none := by
    have : ((julianDay y m d none : ℤ) : ℝ) = (julianDay y' m' d' none : ℤ) := by linarith
    exact_mod_cast this
  have r := C01_date_roundtrip y m d hv
  have r' := C01_date_roundtrip y' m' d' hv'
  rw [h2, r'] at r
  injection r with a b c
  omega

theorem toString_nat (n : ℕ) : (toString n).toList = Nat.toDigits 10 n := by
  rw [Nat.toString_eq_ofList_toDigits, String.toList_ofList]

theorem toString_int (n : ℕ) : toString (n : ℤ) = toString n := rfl

/-- **C77.** A packed provisional designation is read back as the comet's designation, for every kind of orbit, every year
1000–3599, every half month and every number up to 99 within it. -/
theorem C77_designation (kind half : Char) (year order : ℕ) (hy : 1000 ≤ year) (hy' : year < 3600) (ho : order < 100)
    (rest : List Char) :
    unpackDesignation (packComet kind year half order ++ rest) = some (cometName kind year half order) := by
  have hslash := mpcDigit_slash (year / 100) (by omega)
  simp only [packComet, List.cons_append, List.nil_append, unpackDesignation]
  rw [if_neg hslash, intOfPair_digits _ _ (by omega) (by omega), mpcDigit_value _ (by omega)]
  have ho' : 10 * ((order / 10 : ℕ) : ℤ) + ((order % 10 : ℕ) : ℤ) = (order : ℕ) := by omega
  have hyr : Nat.toDigits 10 (year / 100) ++ [mpcDigit (year / 10 % 10), mpcDigit (year % 10)] = Nat.toDigits 10 year := by
    rw [mpcDigit_digitChar _ (by omega), mpcDigit_digitChar _ (by omega), Nat.toDigits_of_base_le (by norm_num) (show 10 ≤ year by omega),
      Nat.toDigits_of_base_le (by norm_num) (show 10 ≤ year / 10 by omega), Nat.div_div_eq_div_mul]
    simp
  simp only [Option.map_some, ho', toString_int, toString_nat, cometName, stripZero, if_true, ← hyr]
  simp

/-- Non-vacuity: `CK17K020` is C/2017 K2. -/
example : packComet 'C' 2017 'K' 2 = "CK17K020".toList ∧ cometName 'C' 2017 'K' 2 = "C/2017 K2".toList := by decide

/-- **C77 (limitation).** From the hundredth comet of a half month on, when the tens digit is packed as a letter, the
designation is refused: `int()` of two characters raises `ValueError`. -/
theorem C77_designation_hundred (kind half : Char) (year order : ℕ) (hy' : year < 3600) (ho : 100 ≤ order)
    (ho' : order < 360) : unpackDesignation (packComet kind year half order) = none := by
  simp only [packComet, unpackDesignation]
  rw [if_neg (mpcDigit_slash (year / 100) (by omega))]
  unfold intOfPair
  rw [mpcDigit_letter _ (by omega) (by omega)]
  rfl

/-- Non-vacuity. -/
example : packComet 'C' 2017 'K' 123 = "CK17KC30".toList ∧ (2017 : ℕ) < 3600 ∧ 100 ≤ 123 ∧ 123 < 360 := by decide

/-- **C77.** A designation that is already written out is returned as it is. -/
theorem C77_already_unpacked (kind : Char) (rest : List Char) :
    unpackDesignation (kind :: '/' :: rest) = some (kind :: '/' :: rest) := by
  simp [unpackDesignation]

/-- **C77.** Unpacking twice changes nothing more. -/
theorem C77_idempotent (s u : List Char) (h : unpackDesignation s = some u) : unpackDesignation u = some u := by
  unfold unpackDesignation at h
  split at h
  · split at h
    · rename_i hs
      rw [Option.some_inj] at h
      rw [← h, hs]
      exact C77_already_unpacked _ _
    · split at h
      · rw [Option.map_eq_some_iff] at h
        obtain ⟨k, -, rfl⟩ := h
        exact C77_already_unpacked _ _
      · cases h
  · cases h

end Skyfield
