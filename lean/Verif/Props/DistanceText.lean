import Verif.Model.DistanceText
import Verif.Spec.Numerals
import Verif.Props.Units
import Mathlib.Tactic.Linarith
import Mathlib.Tactic.FieldSimp
import Mathlib.Tactic.Positivity
import Mathlib.Tactic.IntervalCases

/-
C101: a printed distance or velocity is the nearest number of six significant digits.
-/
namespace Skyfield
open Spec

/-! ### Rounding -/

theorem roundEven_near (x : ℚ) (hx : 0 ≤ x) : |(roundEven x : ℚ) - x| ≤ 1 / 2 := by
  have h0 : 0 ≤ ⌊x⌋ := Int.floor_nonneg.2 hx
  have hf : ((⌊x⌋.toNat : ℕ) : ℚ) = (⌊x⌋ : ℚ) := by
    have : ((⌊x⌋.toNat : ℕ) : ℤ) = ⌊x⌋ := Int.toNat_of_nonneg h0
    exact_mod_cast congrArg (Int.cast : ℤ → ℚ) this
  have h1 := Int.floor_le x
  have h2 := Int.lt_floor_add_one x
  unfold roundEven
  simp only
  rw [abs_le]
  split_ifs with a b c <;> push_cast <;> rw [hf] at * <;> constructor <;> linarith

/-- No integer is nearer. -/
theorem roundEven_nearest (x : ℚ) (hx : 0 ≤ x) (m : ℤ) : |(roundEven x : ℚ) - x| ≤ |(m : ℚ) - x| := by
  have h := roundEven_near x hx
  by_cases hm : m = roundEven x
  · rw [hm]; simp
  · have h1 : (1 : ℚ) ≤ |(m : ℚ) - roundEven x| := by
      have : 1 ≤ |m - (roundEven x : ℤ)| := Int.one_le_abs (sub_ne_zero.2 hm)
      have h2 : ((1 : ℤ) : ℚ) ≤ ((|m - (roundEven x : ℤ)| : ℤ) : ℚ) := by exact_mod_cast this
      simpa using h2
    have h2 : |(m : ℚ) - roundEven x| ≤ |(m : ℚ) - x| + |(roundEven x : ℚ) - x| := by
      have := abs_sub_le (m : ℚ) x (roundEven x : ℚ)
      rw [abs_sub_comm x] at this
      exact this
    linarith

/-- The value of six digits and a point. -/
def sixValue (p : ℕ × ℤ) : ℚ := p.1 * 10 ^ (p.2 - 6)

theorem sixDigits_spec (x : ℚ) (hx : 0 < x) :
    100000 ≤ (sixDigits x).1 ∧ (sixDigits x).1 < 1000000 ∧
    sixValue (sixDigits x) = roundEven (x / 10 ^ (Int.log 10 x - 5)) * 10 ^ (Int.log 10 x - 5) := by
  have he1 : (10:ℚ) ^ Int.log 10 x ≤ x := by
    have := Int.zpow_log_le_self (b := 10) (by norm_num) hx
    simpa using this
  have he2 : x < 10 ^ (Int.log 10 x + 1) := by
    have := Int.lt_zpow_succ_log_self (b := 10) (by norm_num) x
    simpa using this
  set e := Int.log 10 x with he
  have hp : (0:ℚ) < 10 ^ (e - 5) := by positivity
  have e1 : (10:ℚ) ^ e = 100000 * 10 ^ (e - 5) := by
    rw [show (100000:ℚ) = 10 ^ (5:ℤ) by norm_num, ← zpow_add₀ (by norm_num)]; congr 1; ring
  have e2 : (10:ℚ) ^ (e + 1) = 1000000 * 10 ^ (e - 5) := by
    rw [show (1000000:ℚ) = 10 ^ (6:ℤ) by norm_num, ← zpow_add₀ (by norm_num)]; congr 1; ring
  have l1 : 100000 ≤ x / 10 ^ (e - 5) := by rw [le_div_iff₀ hp, ← e1]; exact he1
  have l2 : x / 10 ^ (e - 5) < 1000000 := by rw [div_lt_iff₀ hp, ← e2]; exact he2
  have h0 : 0 ≤ x / 10 ^ (e - 5) := by linarith
  have hn := roundEven_near _ h0
  rw [abs_le] at hn
  have n1 : 100000 ≤ roundEven (x / 10 ^ (e - 5)) := by
    have := roundEven_nearest _ h0 100000
    by_contra hlt
    have h3 : ((roundEven (x / 10 ^ (e - 5)) : ℕ) : ℚ) ≤ 99999 := by exact_mod_cast (by omega : roundEven (x / 10 ^ (e - 5)) ≤ 99999)
    linarith
  have n2 : roundEven (x / 10 ^ (e - 5)) ≤ 1000000 := by
    by_contra hlt
    have h3 : (1000001 : ℚ) ≤ roundEven (x / 10 ^ (e - 5)) := by exact_mod_cast (by omega : 1000001 ≤ roundEven (x / 10 ^ (e - 5)))
    linarith
  unfold sixDigits sixValue
  simp only [← he]
  split_ifs with h
  · refine ⟨le_rfl, by norm_num, ?_⟩
    rw [h]
    push_cast
    rw [show e + 2 - 6 = (e - 5) + 1 by ring, zpow_add₀ (by norm_num)]
    norm_num
    ring
  · refine ⟨n1, by omega, ?_⟩
    simp only
    rw [show e + 1 - 6 = e - 5 by ring]

theorem sixDigits_nearest (x : ℚ) (hx : 0 < x) : NearestSixDigits x (sixValue (sixDigits x)) := by
  obtain ⟨h1, h2, h3⟩ := sixDigits_spec x hx
  refine ⟨⟨(sixDigits x).1, (sixDigits x).2 - 6, ?_, by unfold sixValue; push_cast; rfl⟩, ?_⟩
  · rw [abs_of_nonneg (by positivity)]
    exact_mod_cast h2
  · rw [h3]
    have he1 : (10:ℚ) ^ Int.log 10 x ≤ x := by
      have := Int.zpow_log_le_self (b := 10) (by norm_num) hx
      simpa using this
    set e := Int.log 10 x with he
    have hp : (0:ℚ) < 10 ^ (e - 5) := by positivity
    have e1 : (10:ℚ) ^ e = 100000 * 10 ^ (e - 5) := by
      rw [show (100000:ℚ) = 10 ^ (5:ℤ) by norm_num, ← zpow_add₀ (by norm_num)]; congr 1; ring
    have h0 : 0 ≤ x / 10 ^ (e - 5) := by positivity
    -- no whole multiple of the sixth place is nearer
    have key : ∀ m : ℤ, |(roundEven (x / 10 ^ (e - 5)) : ℚ) * 10 ^ (e - 5) - x| ≤ |(m : ℚ) * 10 ^ (e - 5) - x| := by
      intro m
      have := roundEven_nearest _ h0 m
      have hmul := mul_le_mul_of_nonneg_right this hp.le
      rw [← abs_of_pos hp, ← abs_mul, ← abs_mul, abs_of_pos hp, sub_mul, sub_mul, div_mul_cancel₀ _ hp.ne'] at hmul
      exact hmul
    rintro z ⟨m, k, hm, rfl⟩
    by_cases hk : e - 5 ≤ k
    · obtain ⟨j, rfl⟩ : ∃ j : ℕ, k = e - 5 + j := ⟨(k - (e - 5)).toNat, by omega⟩
      have := key (m * 10 ^ j)
      rw [zpow_add₀ (by norm_num : (10:ℚ) ≠ 0), zpow_natCast]
      push_cast at this
      rw [show (m : ℚ) * (10 ^ (e - 5) * 10 ^ j) = m * 10 ^ j * 10 ^ (e - 5) by ring]
      exact this
    · refine (key 100000).trans ?_
      have hz : (m : ℚ) * 10 ^ k ≤ 100000 * 10 ^ (e - 5) := by
        have h6 : (m : ℚ) ≤ 10 ^ 6 := by
          have : m ≤ 10 ^ 6 := (le_abs_self m).trans hm.le
          exact_mod_cast this
        have h7 : (10:ℚ) ^ k ≤ 10 ^ (e - 6) := zpow_le_zpow_right₀ (by norm_num) (by omega)
        have h8 : (0:ℚ) < 10 ^ k := by positivity
        have h9 : (10:ℚ) ^ (e - 5) = 10 * 10 ^ (e - 6) := by
          rw [show e - 5 = 1 + (e - 6) by ring, zpow_add₀ (by norm_num)]; norm_num
        rw [h9]
        nlinarith
      rw [← e1] at hz
      push_cast
      rw [← e1, abs_of_nonpos (by linarith), abs_of_nonpos (by linarith)]
      linarith

/-! ### The layout -/

private theorem digit_ne {c : Char} (h : c.isDigit = true) : c ≠ '-' ∧ c ≠ '.' ∧ c ≠ 'e' := by
  refine ⟨?_, ?_, ?_⟩ <;> rintro rfl <;> exact absurd h (by decide)

private theorem takeWhile_digits (ds rest : List Char) (h : ∀ c ∈ ds, c.isDigit = true)
    (hr : ∀ c, rest.head? = some c → c.isDigit = false) :
    (ds ++ rest).takeWhile Char.isDigit = ds ∧ (ds ++ rest).dropWhile Char.isDigit = rest := by
  induction ds with
  | nil =>
    cases rest with
    | nil => exact ⟨rfl, rfl⟩
    | cons c rest =>
      have := hr c rfl
      simp [this]
  | cons d ds ih =>
    have hd := h d (by simp)
    obtain ⟨h1, h2⟩ := ih fun c hc => h c (by simp [hc])
    simp [hd, h1, h2]

/-- Reading past a minus sign. -/
theorem readDecimal_neg (t : List Char) (ht : t.head? ≠ some '-') (v : ℚ) (h : readDecimal t = some v) :
    readDecimal ('-' :: t) = some (-v) := by
  unfold readDecimal at h ⊢
  simp only [ht, if_false] at h
  simp only [List.head?_cons, if_true, List.tail_cons]
  revert h
  generalize (Nat.ofDigitChars 10 _ 0 : ℚ) / _ = w
  split
  · split_ifs <;> simp +contextual
  · split_ifs
    · simp
    · intro h; simp only [Option.some.injEq] at h ⊢; rw [← h]; ring
    · intro h; simp only [Option.some.injEq] at h ⊢; rw [← h]; ring
    · simp
  · simp

private theorem head_digit {a : List Char} (ha : a ≠ []) (had : ∀ c ∈ a, c.isDigit = true) (t : List Char) :
    (a ++ t).head? ≠ some '-' := by
  cases a with
  | nil => exact absurd rfl ha
  | cons c a => simpa using (digit_ne (had c (by simp))).1

/-- Reading a numeral without exponent. -/
theorem readDecimal_fixed (a b : List Char) (ha : a ≠ []) (had : ∀ c ∈ a, c.isDigit = true) (hbd : ∀ c ∈ b, c.isDigit = true) :
    readDecimal (a ++ '.' :: b) = some ((Nat.ofDigitChars 10 (a ++ b) 0 : ℚ) / 10 ^ b.length) := by
  have hb := takeWhile_digits b [] hbd (by simp)
  rw [List.append_nil] at hb
  have hat := takeWhile_digits a ('.' :: b) had (by intro c hc; simp at hc; subst hc; decide)
  have hh := head_digit ha had ('.' :: b)
  unfold readDecimal
  simp only [hh, if_false, hat.1, hat.2, List.head?_cons, if_true, List.tail_cons, hb.1, hb.2, ha]

/-- Reading a numeral with exponent, with and without a fraction. -/
theorem readDecimal_exponent (a b ds : List Char) (neg : Bool) (ha : a ≠ []) (had : ∀ c ∈ a, c.isDigit = true)
    (hbd : ∀ c ∈ b, c.isDigit = true) (hd : ds ≠ []) (hdd : ∀ c ∈ ds, c.isDigit = true) :
    readDecimal (a ++ '.' :: (b ++ 'e' :: (if neg then '-' else '+') :: ds)) =
      some ((Nat.ofDigitChars 10 (a ++ b) 0 : ℚ) / 10 ^ b.length * tenTo neg (Nat.ofDigitChars 10 ds 0)) ∧
    readDecimal (a ++ 'e' :: (if neg then '-' else '+') :: ds) =
      some ((Nat.ofDigitChars 10 a 0 : ℚ) * tenTo neg (Nat.ofDigitChars 10 ds 0)) := by
  have hall : ds.all Char.isDigit = true := by simpa [List.all_eq_true] using hdd
  constructor
  · have hb := takeWhile_digits b ('e' :: (if neg then '-' else '+') :: ds) hbd (by intro c hc; simp at hc; subst hc; decide)
    have hat := takeWhile_digits a ('.' :: (b ++ 'e' :: (if neg then '-' else '+') :: ds)) had (by intro c hc; simp at hc; subst hc; decide)
    have hh := head_digit ha had ('.' :: (b ++ 'e' :: (if neg then '-' else '+') :: ds))
    unfold readDecimal
    simp only [hh, if_false, hat.1, hat.2, List.head?_cons, if_true, List.tail_cons, hb.1, hb.2, ha]
    cases neg <;> simp [hd, hall]
  · have hat := takeWhile_digits a ('e' :: (if neg then '-' else '+') :: ds) had (by intro c hc; simp at hc; subst hc; decide)
    have hh := head_digit ha had ('e' :: (if neg then '-' else '+') :: ds)
    unfold readDecimal
    simp only [hh, if_false, hat.1, hat.2, List.head?_cons, ha]
    cases neg <;> simp [hd, hall]

/-- What remains of the digits when the zeros at the end are removed. -/
theorem stripZeros_spec (l : List Char) : ∃ k, l = stripZeros l ++ List.replicate k '0' ∧ (stripZeros l).getLast? ≠ some '0' := by
  refine ⟨(l.reverse.takeWhile (· = '0')).length, ?_, ?_⟩
  · have h1 : l.reverse.takeWhile (· = '0') = List.replicate (l.reverse.takeWhile (· = '0')).length '0' := by
      rw [List.eq_replicate_iff]
      refine ⟨rfl, fun c hc => ?_⟩
      have := List.all_takeWhile (p := fun c : Char => decide (c = '0')) (l := l.reverse)
      rw [List.all_eq_true] at this
      simpa using this c hc
    have h2 := List.takeWhile_append_dropWhile (p := fun c : Char => decide (c = '0')) (l := l.reverse)
    have h3 := congrArg List.reverse h2
    rw [List.reverse_append, List.reverse_reverse] at h3
    unfold stripZeros
    conv_lhs => rw [← h3]
    congr 1
    conv_lhs => rw [h1]
    simp
  · unfold stripZeros
    rw [List.getLast?_reverse]
    intro h
    have := List.head?_dropWhile_not (p := fun c : Char => decide (c = '0')) l.reverse
    rw [h] at this
    simp at this

theorem ofDigitChars_zeros (k n : ℕ) : Nat.ofDigitChars 10 (List.replicate k '0') n = n * 10 ^ k := by
  induction k generalizing n with
  | zero => simp
  | succ k ih =>
    rw [List.replicate_succ, Nat.ofDigitChars_cons, ih]
    have : '0'.toNat - '0'.toNat = 0 := by decide
    simp only [this]
    ring

/-- The number that digits and the place of the point stand for. -/
def placedDigits (digits : List Char) (point : ℤ) : ℚ := (Nat.ofDigitChars 10 digits 0 : ℚ) * 10 ^ (point - digits.length)

theorem layoutFixed_read (D : List Char) (point : ℤ) (hD : D ≠ []) (hd : ∀ c ∈ D, c.isDigit = true) :
    readDecimal (layoutFixed D point) = some (placedDigits D point) := by
  unfold layoutFixed
  have hz : ∀ k, ∀ c ∈ List.replicate k '0', c.isDigit = true := by
    intro k c hc
    rw [List.eq_of_mem_replicate hc]; decide
  by_cases h1 : point ≤ 0
  · rw [if_pos h1]
    have := readDecimal_fixed ['0'] (List.replicate (-point).toNat '0' ++ D) (by simp) (by simp) (by
      intro c hc
      rcases List.mem_append.1 hc with hc | hc
      · exact hz _ c hc
      · exact hd c hc)
    simp only [List.cons_append, List.nil_append] at this
    rw [this]
    congr 1
    have e : '0' :: (List.replicate (-point).toNat '0' ++ D) = List.replicate ((-point).toNat + 1) '0' ++ D := by
      rw [List.replicate_succ]; rfl
    rw [e, ofDigitChars_replicate_zero]
    unfold placedDigits
    rw [List.length_append, List.length_replicate, div_eq_mul_inv, ← zpow_natCast, ← zpow_neg]
    congr 2
    push_cast
    rw [Int.toNat_of_nonneg (by omega)]
    ring
  · rw [if_neg h1]
    by_cases h2 : (D.length : ℤ) ≤ point
    · rw [if_pos h2]
      have := readDecimal_fixed (D ++ List.replicate (point.toNat - D.length) '0') ['0'] (by simp [hD]) (by
        intro c hc
        rcases List.mem_append.1 hc with hc | hc
        · exact hd c hc
        · exact hz _ c hc) (by simp)
      rw [this]
      congr 1
      have e : D ++ List.replicate (point.toNat - D.length) '0' ++ ['0'] = D ++ List.replicate (point.toNat - D.length + 1) '0' := by
        rw [List.append_assoc, List.replicate_succ']
      rw [e, Nat.ofDigitChars_append, ofDigitChars_zeros]
      unfold placedDigits
      push_cast
      rw [pow_succ]
      obtain ⟨j, hj⟩ : ∃ j : ℕ, point = D.length + j := ⟨(point - D.length).toNat, by omega⟩
      have e2 : point.toNat - D.length = j := by omega
      rw [e2, hj]
      have e3 : (D.length : ℤ) + j - D.length = (j : ℤ) := by ring
      rw [e3, zpow_natCast]
      simp
      field_simp
    · rw [if_neg h2]
      push Not at h1 h2
      have := readDecimal_fixed (D.take point.toNat) (D.drop point.toNat) (by
          intro h
          rcases List.take_eq_nil_iff.1 h with h | h
          · omega
          · exact hD h)
        (fun c hc => hd c (List.mem_of_mem_take hc)) (fun c hc => hd c (List.mem_of_mem_drop hc))
      rw [this, List.take_append_drop]
      congr 1
      unfold placedDigits
      rw [List.length_drop, div_eq_mul_inv, ← zpow_natCast, ← zpow_neg]
      congr 2
      omega

theorem layoutExponent_read (D : List Char) (point : ℤ) (hD : D ≠ []) (hd : ∀ c ∈ D, c.isDigit = true) :
    readDecimal (layoutExponent D point) = some (placedDigits D point) := by
  obtain ⟨z1, z2, z3⟩ := zeroPad_spec 2 |point - 1| (abs_nonneg _)
  have zne : zeroPad 2 |point - 1| ≠ [] := by
    intro h
    rw [h] at z1 z3
    simp at z1 z3
    omega
  have ht : ∀ neg : Bool, neg = decide (point - 1 < 0) → tenTo neg (Nat.ofDigitChars 10 (zeroPad 2 |point - 1|) 0) = (10:ℚ) ^ (point - 1) := by
    rintro _ rfl
    unfold tenTo
    by_cases hneg : point - 1 < 0
    · rw [abs_of_neg hneg] at z1 ⊢
      rw [if_pos (by simpa using hneg), one_div, ← zpow_natCast, ← zpow_neg, z1]
      congr 1; ring
    · rw [abs_of_nonneg (by omega)] at z1 ⊢
      rw [if_neg (by simpa using hneg), ← zpow_natCast, z1]
  have e : (if point - 1 < 0 then '-' else '+') = if decide (point - 1 < 0) = true then '-' else '+' := by simp
  unfold layoutExponent
  match D, hD, hd with
  | [d], _, hd =>
    have := (readDecimal_exponent [d] [] (zeroPad 2 |point - 1|) (decide (point - 1 < 0)) (by simp) hd (by simp) zne z2).2
    simp only
    rw [e, this, ht _ rfl]
    unfold placedDigits
    simp
  | d :: d2 :: ds, _, hd =>
    have := (readDecimal_exponent [d] (d2 :: ds) (zeroPad 2 |point - 1|) (decide (point - 1 < 0)) (by simp)
      (fun c hc => hd c (by simp at hc; simp [hc])) (fun c hc => hd c (List.mem_cons_of_mem _ hc)) zne z2).1
    simp only [List.cons_append, List.nil_append] at this ⊢
    rw [e, this, ht _ rfl]
    unfold placedDigits
    congr 1
    rw [div_eq_mul_inv, mul_assoc, ← zpow_natCast, ← zpow_neg, ← zpow_add₀ (by norm_num)]
    congr 2
    simp only [List.length_cons]
    push_cast
    ring

/-! ### The digits printed -/

theorem toDigits_head (n : ℕ) (hn : 0 < n) : ∃ c cs, Nat.toDigits 10 n = c :: cs ∧ c ≠ '0' := by
  induction n using Nat.strongRecOn with
  | ind n ih =>
    by_cases h : n < 10
    · rw [Nat.toDigits_of_lt_base h]
      refine ⟨_, [], rfl, ?_⟩
      interval_cases n <;> decide
    · obtain ⟨c, cs, h1, h2⟩ := ih (n / 10) (by omega) (by omega)
      rw [Nat.toDigits_of_base_le (by norm_num) (by omega), h1]
      exact ⟨c, cs ++ [(n % 10).digitChar], rfl, h2⟩

/-- The digits printed for a positive number: up to six, without zeros at either end, worth the rounded number. -/
theorem printed_digits (x : ℚ) (hx : 0 < x) :
    let D := stripZeros (Nat.toDigits 10 (sixDigits x).1)
    (∀ c ∈ D, c.isDigit = true) ∧ (∃ c cs, D = c :: cs ∧ c ≠ '0') ∧ D.getLast? ≠ some '0' ∧ D.length ≤ 6 ∧
    placedDigits D (sixDigits x).2 = sixValue (sixDigits x) := by
  obtain ⟨h1, h2, -⟩ := sixDigits_spec x hx
  intro D
  obtain ⟨k, hk, hl⟩ := stripZeros_spec (Nat.toDigits 10 (sixDigits x).1)
  have hdig : ∀ c ∈ Nat.toDigits 10 (sixDigits x).1, c.isDigit = true := fun c hc =>
    Nat.isDigit_of_mem_toDigits (by norm_num) (by norm_num) hc
  have hlen : (Nat.toDigits 10 (sixDigits x).1).length = 6 := by
    have a := (Nat.length_toDigits_le_iff (b := 10) (n := (sixDigits x).1) (k := 6) (by norm_num) (by norm_num)).2 (by omega)
    have b : ¬ (Nat.toDigits 10 (sixDigits x).1).length ≤ 5 := fun h =>
      absurd ((Nat.length_toDigits_le_iff (b := 10) (n := (sixDigits x).1) (k := 5) (by norm_num) (by norm_num)).1 h) (by omega)
    omega
  have hDk : D.length + k = 6 := by
    have := congrArg List.length hk
    rw [hlen, List.length_append, List.length_replicate] at this
    exact this.symm
  refine ⟨fun c hc => hdig c (by rw [hk]; exact List.mem_append_left _ hc), ?_, hl, by omega, ?_⟩
  · obtain ⟨c, cs, hc, hc0⟩ := toDigits_head (sixDigits x).1 (by omega)
    have hk : c :: cs = D ++ List.replicate k '0' := hc.symm.trans hk
    match hDe : D with
    | [] =>
      exfalso
      rw [List.nil_append] at hk
      have : c ∈ List.replicate k '0' := by rw [← hk]; simp
      exact hc0 (List.eq_of_mem_replicate this)
    | d :: ds =>
      rw [List.cons_append] at hk
      injection hk with a b
      exact ⟨d, ds, rfl, a ▸ hc0⟩
  · have hv : (sixDigits x).1 = Nat.ofDigitChars 10 D 0 * 10 ^ k := by
      have := congrArg (fun l => Nat.ofDigitChars 10 l 0) hk
      simp only [Nat.ofDigitChars_ten_toDigits] at this
      rw [Nat.ofDigitChars_append, ofDigitChars_zeros] at this
      exact this
    unfold placedDigits sixValue
    rw [hv]
    push_cast
    rw [mul_assoc, ← zpow_natCast, ← zpow_add₀ (by norm_num)]
    congr 2
    omega

theorem SixDigitNumber_neg {z : ℚ} (h : SixDigitNumber z) : SixDigitNumber (-z) := by
  obtain ⟨m, k, h1, h2⟩ := h
  exact ⟨-m, k, by rwa [abs_neg], by rw [h2]; push_cast; ring⟩

theorem NearestSixDigits_neg {x y : ℚ} (h : NearestSixDigits x y) : NearestSixDigits (-x) (-y) := by
  refine ⟨SixDigitNumber_neg h.1, fun z hz => ?_⟩
  have := h.2 _ (SixDigitNumber_neg hz)
  rw [show -y - -x = -(y - x) by ring, abs_neg, show z - -x = -(-z - x) by ring, abs_neg]
  exact this

/-- What is printed without the sign, for a positive number. -/
def unsignedText (x : ℚ) : List Char :=
  let D := stripZeros (Nat.toDigits 10 (sixDigits x).1)
  if (sixDigits x).2 ≤ -4 ∨ 5 < (sixDigits x).2 then layoutExponent D (sixDigits x).2 else layoutFixed D (sixDigits x).2

theorem formatSix_pos (x : SignedNum ℚ) (hx : 0 < x.mag) : formatSix x = (if x.neg then ['-'] else []) ++ unsignedText x.mag := by
  unfold formatSix unsignedText
  rw [if_neg hx.ne']

theorem formatSix_zero (x : SignedNum ℚ) (hx : x.mag = 0) : formatSix x = (if x.neg then ['-'] else []) ++ ['0', '.', '0'] := by
  unfold formatSix
  rw [if_pos hx]
  rfl

theorem unsignedText_read (x : ℚ) (hx : 0 < x) : readDecimal (unsignedText x) = some (sixValue (sixDigits x)) ∧ (unsignedText x).head? ≠ some '-' := by
  obtain ⟨h1, ⟨c, cs, h2, -⟩, -, -, h5⟩ := printed_digits x hx
  have hne : stripZeros (Nat.toDigits 10 (sixDigits x).1) ≠ [] := by rw [h2]; simp
  unfold unsignedText
  simp only
  split_ifs
  · refine ⟨by rw [layoutExponent_read _ _ hne h1, h5], ?_⟩
    have hc := (digit_ne (h1 c (by rw [h2]; simp))).1
    rw [h2]
    unfold layoutExponent
    match cs with
    | [] => simpa using hc
    | d :: ds => simpa using hc
  · refine ⟨by rw [layoutFixed_read _ _ hne h1, h5], ?_⟩
    have hc := (digit_ne (h1 c (by rw [h2]; simp))).1
    rw [h2]
    unfold layoutFixed
    split_ifs with a b
    · simp
    · simpa using hc
    · obtain ⟨j, hj⟩ : ∃ j : ℕ, (sixDigits x).2.toNat = j + 1 := ⟨(sixDigits x).2.toNat - 1, by omega⟩
      rw [hj]
      simpa using hc

/-- The number printed. -/
def printedNumber (x : SignedNum ℚ) : ℚ :=
  if x.mag = 0 then 0 else if x.neg then -sixValue (sixDigits x.mag) else sixValue (sixDigits x.mag)

theorem formatSix_read (x : SignedNum ℚ) (h0 : 0 ≤ x.mag) :
    readDecimal (formatSix x) = some (printedNumber x) ∧ NearestSixDigits x.val (printedNumber x) ∧
    ((formatSix x).head? = some '-' ↔ x.neg = true) := by
  obtain ⟨neg, m⟩ := x
  simp only at h0
  unfold printedNumber SignedNum.val
  rcases h0.eq_or_lt with h | h
  · rw [formatSix_zero _ h.symm]
    subst h
    have hn : NearestSixDigits 0 0 := ⟨⟨0, 0, by norm_num, by norm_num⟩, fun z _ => by simp⟩
    have hr : readDecimal ['0', '.', '0'] = some 0 := by
      have := readDecimal_fixed ['0'] ['0'] (by simp) (by simp) (by simp)
      have e : Nat.ofDigitChars 10 ['0', '0'] 0 = 0 := by decide
      simpa [e] using this
    cases neg with
    | true =>
      have := readDecimal_neg ['0', '.', '0'] (by decide) 0 hr
      simp [this, hn]
    | false => simp [hr, hn]
  · rw [formatSix_pos _ h, if_neg h.ne']
    obtain ⟨h1, h2⟩ := unsignedText_read m h
    have h3 := sixDigits_nearest m h
    cases neg with
    | true =>
      have := readDecimal_neg _ h2 _ h1
      simp [this, NearestSixDigits_neg h3]
    | false => simp [h1, h2, h3]

/-! ### C101 -/

/-- What is printed for a distance or a velocity is a numeral and the unit.  The numeral reads as a number of at most six significant
digits to which no other such number is nearer, and has a minus sign exactly if the float has one. -/
theorem C101_nearest (x : SignedNum ℚ) (h0 : 0 ≤ x.mag) :
    ∃ text y, distanceStr x = text ++ " au".toList ∧ velocityStr x = text ++ " au/day".toList ∧
      distanceRepr x = "<Distance ".toList ++ text ++ " au>".toList ∧
      velocityRepr x = "<Velocity ".toList ++ text ++ " au/day>".toList ∧
      readDecimal text = some y ∧ NearestSixDigits x.val y ∧ (text.head? = some '-' ↔ x.neg = true) := by
  obtain ⟨h1, h2, h3⟩ := formatSix_read x h0
  refine ⟨formatSix x, printedNumber x, rfl, rfl, ?_, ?_, h1, h2, h3⟩
  · unfold distanceRepr distanceStr
    simp
  · unfold velocityRepr velocityStr
    simp

private theorem shown_of_read {x : SignedNum ℚ} (h0 : 0 ≤ x.mag) {text : List Char} {y : ℚ}
    (ht : distanceStr x = text ++ " au".toList ∨ velocityStr x = text ++ " au/day".toList) (hy : readDecimal text = some y) :
    y = printedNumber x := by
  have e : text = formatSix x := by
    rcases ht with h | h <;> exact (List.append_cancel_right h).symm
  rw [e, (formatSix_read x h0).1] at hy
  exact (Option.some.inj hy).symm

/-- A number of at most six significant digits is printed exactly. -/
theorem C101_exact (x : SignedNum ℚ) (h0 : 0 ≤ x.mag) (hx : SixDigitNumber x.val) (text : List Char) (y : ℚ)
    (ht : distanceStr x = text ++ " au".toList ∨ velocityStr x = text ++ " au/day".toList) (hy : readDecimal text = some y) :
    y = x.val := by
  rw [shown_of_read h0 ht hy]
  have := (formatSix_read x h0).2.1.2 _ hx
  rw [sub_self, abs_zero] at this
  exact sub_eq_zero.1 (abs_nonpos_iff.1 this)

/-- What is printed is off by at most five parts in a million. -/
theorem C101_error (x : SignedNum ℚ) (h0 : 0 ≤ x.mag) (text : List Char) (y : ℚ)
    (ht : distanceStr x = text ++ " au".toList ∨ velocityStr x = text ++ " au/day".toList) (hy : readDecimal text = some y) :
    |y - x.val| ≤ 5 / 1000000 * |x.val| := by
  rw [shown_of_read h0 ht hy]
  obtain ⟨neg, m⟩ := x
  simp only at h0
  unfold printedNumber SignedNum.val
  rcases h0.eq_or_lt with h | h
  · subst h; cases neg <;> simp
  · rw [if_neg h.ne']
    have key : |sixValue (sixDigits m) - m| ≤ 5 / 1000000 * |m| := by
      obtain ⟨-, -, h3⟩ := sixDigits_spec m h
      have he1 : (10:ℚ) ^ Int.log 10 m ≤ m := by
        have := Int.zpow_log_le_self (b := 10) (by norm_num) h
        simpa using this
      rw [h3]
      set e := Int.log 10 m
      have hp : (0:ℚ) < 10 ^ (e - 5) := by positivity
      have e1 : (10:ℚ) ^ e = 100000 * 10 ^ (e - 5) := by
        rw [show (100000:ℚ) = 10 ^ (5:ℤ) by norm_num, ← zpow_add₀ (by norm_num)]; congr 1; ring
      have hn := roundEven_near (m / 10 ^ (e - 5)) (by positivity)
      have hmul := mul_le_mul_of_nonneg_right hn hp.le
      rw [← abs_of_pos hp, ← abs_mul, abs_of_pos hp, sub_mul, div_mul_cancel₀ _ hp.ne'] at hmul
      rw [abs_of_pos h]
      linarith
    cases neg with
    | true =>
      simp only [if_true]
      rw [show -sixValue (sixDigits m) - -m = -(sixValue (sixDigits m) - m) by ring, abs_neg, abs_neg]
      exact key
    | false => simpa using key

private theorem shown_eq {x x' : SignedNum ℚ} (h0 : 0 ≤ x.mag) (h0' : 0 ≤ x'.mag) (h : x.val = x'.val) : printedNumber x = printedNumber x' := by
  obtain ⟨neg, m⟩ := x
  obtain ⟨neg', m'⟩ := x'
  simp only [SignedNum.val] at h h0 h0'
  have hm : m = m' := by cases neg <;> cases neg' <;> simp at h <;> linarith
  subst hm
  unfold printedNumber
  by_cases hz : m = 0
  · simp [hz]
  · have : 0 < m := lt_of_le_of_ne h0 (Ne.symm hz)
    cases neg <;> cases neg' <;> simp at h ⊢ <;> exfalso <;> linarith

/-- The larger of two distances never prints as the smaller number. -/
theorem C101_order (x x' : SignedNum ℚ) (h0 : 0 ≤ x.mag) (h0' : 0 ≤ x'.mag) (hx : x.val ≤ x'.val) (text text' : List Char) (y y' : ℚ)
    (ht : distanceStr x = text ++ " au".toList ∨ velocityStr x = text ++ " au/day".toList) (hy : readDecimal text = some y)
    (ht' : distanceStr x' = text' ++ " au".toList ∨ velocityStr x' = text' ++ " au/day".toList) (hy' : readDecimal text' = some y') :
    y ≤ y' := by
  have e := shown_of_read h0 ht hy
  have e' := shown_of_read h0' ht' hy'
  have hn := (formatSix_read x h0).2.1
  have hn' := (formatSix_read x' h0').2.1
  rw [← e] at hn
  rw [← e'] at hn'
  by_contra hlt
  push Not at hlt
  have a := hn.2 _ hn'.1
  have b := hn'.2 _ hn.1
  have a2 := sq_le_sq.2 a
  have b2 := sq_le_sq.2 b
  have a3 : y + y' ≤ 2 * x.val := by nlinarith
  have b3 : 2 * x'.val ≤ y + y' := by nlinarith
  have : x.val = x'.val := by linarith
  rw [e, e', shown_eq h0 h0' this] at hlt
  exact lt_irrefl _ hlt

private theorem roundEven_tie (f : ℕ) : roundEven ((f : ℚ) + 1 / 2) = if f % 2 = 0 then f else f + 1 := by
  have hf : ⌊(f : ℚ) + 1 / 2⌋ = (f : ℤ) := by
    rw [Int.floor_eq_iff]; constructor <;> push_cast <;> linarith
  unfold roundEven
  simp only [hf, Int.toNat_natCast]
  rw [if_neg (by linarith), if_neg (by linarith)]

/-- A number half way between two neighbouring numbers of six digits, `n` and `n + 1` times a power of ten, prints as the one whose
last digit is even. -/
theorem C101_tie (x : SignedNum ℚ) (n : ℕ) (k : ℤ) (hn : 100000 ≤ n) (hn' : n < 1000000) (hx : x.mag = ((n : ℚ) + 1 / 2) * 10 ^ k)
    (text : List Char) (y : ℚ)
    (ht : distanceStr x = text ++ " au".toList ∨ velocityStr x = text ++ " au/day".toList) (hy : readDecimal text = some y) :
    ∃ m : ℕ, (m = n ∨ m = n + 1) ∧ Even m ∧ |y| = m * 10 ^ k := by
  have hp : (0:ℚ) < 10 ^ k := by positivity
  have hn1 : (100000:ℚ) ≤ n := by exact_mod_cast hn
  have hn2 : (n:ℚ) + 1 ≤ 1000000 := by exact_mod_cast hn'
  have hpos : 0 < x.mag := by rw [hx]; positivity
  have hlog : Int.log 10 x.mag = k + 5 := by
    apply le_antisymm
    · refine Int.lt_add_one_iff.1 ((Int.lt_zpow_iff_log_lt (b := 10) (by norm_num) hpos).1 ?_)
      push_cast
      rw [hx, show k + 5 + 1 = 6 + k by ring, zpow_add₀ (by norm_num)]
      have : (10:ℚ) ^ (6:ℤ) = 1000000 := by norm_num
      rw [this]
      exact mul_lt_mul_of_pos_right (by linarith) hp
    · refine (Int.zpow_le_iff_le_log (b := 10) (by norm_num) hpos).1 ?_
      push_cast
      rw [hx, show k + 5 = 5 + k by ring, zpow_add₀ (by norm_num)]
      have : (10:ℚ) ^ (5:ℤ) = 100000 := by norm_num
      rw [this]
      exact mul_le_mul_of_nonneg_right (by linarith) hp.le
  have hs := (sixDigits_spec x.mag hpos).2.2
  rw [hlog, show k + 5 - 5 = k by ring, hx, mul_div_assoc, div_self hp.ne', mul_one, roundEven_tie, ← hx] at hs
  have hy' : |y| = sixValue (sixDigits x.mag) := by
    have h0 : 0 ≤ sixValue (sixDigits x.mag) := by unfold sixValue; positivity
    rw [shown_of_read hpos.le ht hy]
    unfold printedNumber
    rw [if_neg hpos.ne']
    split_ifs
    · rw [abs_neg, abs_of_nonneg h0]
    · rw [abs_of_nonneg h0]
  refine ⟨if n % 2 = 0 then n else n + 1, ?_, ?_, by rw [hy', hs]⟩
  · split_ifs <;> simp
  · split_ifs with h
    · exact Nat.even_iff.2 h
    · exact Nat.even_iff.2 (by omega)

/-- Zero prints as `0.0`, with its sign. -/
theorem C101_zero : distanceStr ⟨false, 0⟩ = "0.0 au".toList ∧ distanceStr ⟨true, 0⟩ = "-0.0 au".toList ∧
    velocityStr ⟨false, 0⟩ = "0.0 au/day".toList ∧ velocityStr ⟨true, 0⟩ = "-0.0 au/day".toList := by
  have h := formatSix_zero ⟨false, 0⟩ rfl
  have h' := formatSix_zero ⟨true, 0⟩ rfl
  unfold distanceStr velocityStr
  rw [h, h']
  exact ⟨rfl, rfl, rfl, rfl⟩

/-- A number from 0.0001 up to 100000 prints without exponent, with digits on both sides of the point, no needless zero before, and
none after.  Any other prints with one digit that is not zero before the point, if there is one, no zero at the end after it, and an
exponent with sign and at least two digits. -/
theorem C101_layout (x : SignedNum ℚ) (hx : 0 < x.mag) (text : List Char) (y : ℚ)
    (ht : distanceStr x = text ++ " au".toList ∨ velocityStr x = text ++ " au/day".toList) (hy : readDecimal text = some y) :
    if 1 / 10000 ≤ |y| ∧ |y| < 100000 then
      ∃ a b, text = (if x.neg then ['-'] else []) ++ (a ++ '.' :: b) ∧ (∀ c ∈ a ++ b, c.isDigit = true) ∧
        (a = ['0'] ∨ ∃ c cs, a = c :: cs ∧ c ≠ '0') ∧ b ≠ [] ∧ (b = ['0'] ∨ b.getLast? ≠ some '0')
    else
      ∃ c b e, text = (if x.neg then ['-'] else []) ++ c :: (if b = [] then [] else '.' :: b) ++ 'e' :: e ∧
        c ≠ '0' ∧ (∀ d ∈ c :: b, d.isDigit = true) ∧ b.getLast? ≠ some '0' ∧
        ∃ sign digits, e = sign :: digits ∧ (sign = '+' ∨ sign = '-') ∧ 2 ≤ digits.length ∧ ∀ d ∈ digits, d.isDigit = true := by
  have hys := shown_of_read hx.le ht hy
  have e : text = (if x.neg then ['-'] else []) ++ unsignedText x.mag := by
    rw [← formatSix_pos x hx]
    rcases ht with h | h <;> exact (List.append_cancel_right h).symm
  obtain ⟨n1, n2, -⟩ := sixDigits_spec x.mag hx
  have ha : |y| = sixValue (sixDigits x.mag) := by
    have hp : 0 ≤ sixValue (sixDigits x.mag) := by unfold sixValue; positivity
    rw [hys]
    unfold printedNumber
    rw [if_neg hx.ne']
    split_ifs
    · rw [abs_neg, abs_of_nonneg hp]
    · rw [abs_of_nonneg hp]
  obtain ⟨h1, ⟨c, cs, h2, hc0⟩, h3, -, -⟩ := printed_digits x.mag hx
  rw [e, ha]
  unfold unsignedText sixValue
  revert h1 h2 h3
  generalize stripZeros (Nat.toDigits 10 (sixDigits x.mag).1) = D
  generalize (sixDigits x.mag).1 = n at *
  generalize (sixDigits x.mag).2 = p
  intro h1 h2 h3
  dsimp only
  have l1 : (10:ℚ) ^ (p - 1) ≤ n * 10 ^ (p - 6) := by
    have : (100000:ℚ) ≤ n := by exact_mod_cast n1
    have e1 : (10:ℚ) ^ (p - 1) = 100000 * 10 ^ (p - 6) := by
      rw [show (100000:ℚ) = 10 ^ (5:ℤ) by norm_num, ← zpow_add₀ (by norm_num)]; congr 1; ring
    rw [e1]
    exact mul_le_mul_of_nonneg_right this (by positivity)
  have l2 : (n:ℚ) * 10 ^ (p - 6) < 10 ^ p := by
    have : (n:ℚ) < 1000000 := by exact_mod_cast n2
    have e1 : (10:ℚ) ^ p = 1000000 * 10 ^ (p - 6) := by
      rw [show (1000000:ℚ) = 10 ^ (6:ℤ) by norm_num, ← zpow_add₀ (by norm_num)]; congr 1; ring
    rw [e1]
    exact mul_lt_mul_of_pos_right this (by positivity)
  have mono : ∀ {i j : ℤ}, i ≤ j → (10:ℚ) ^ i ≤ 10 ^ j := fun h => zpow_le_zpow_right₀ (by norm_num) h
  have t4 : (10:ℚ) ^ (-4 : ℤ) = 1 / 10000 := by norm_num
  have t5 : (10:ℚ) ^ (5 : ℤ) = 100000 := by norm_num
  by_cases hp : p ≤ -4 ∨ 5 < p
  · rw [if_neg, if_pos hp]
    · obtain ⟨z1, z2, z3⟩ := zeroPad_spec 2 |p - 1| (abs_nonneg _)
      have zl : 2 ≤ (zeroPad 2 |p - 1|).length := by
        unfold zeroPad
        rw [List.length_append, List.length_replicate]
        omega
      refine ⟨c, cs, (if p - 1 < 0 then '-' else '+') :: zeroPad 2 |p - 1|, ?_, hc0, by rw [← h2]; exact h1, ?_, _, _, rfl, ?_, zl, z2⟩
      · rw [h2]
        unfold layoutExponent
        cases cs <;> simp
      · intro hl
        apply h3
        rw [h2, List.getLast?_cons, hl]
        rfl
      · split_ifs <;> simp
    · rintro ⟨g1, g2⟩
      rcases hp with hp | hp
      · have := mono hp
        rw [t4] at this
        linarith
      · have := mono (show 5 ≤ p - 1 by omega)
        rw [t5] at this
        linarith
  · push Not at hp
    rw [if_pos, if_neg (show ¬ (p ≤ -4 ∨ 5 < p) by omega)]
    · have hDne : D ≠ [] := by rw [h2]; simp
      have hz : ∀ k, ∀ c ∈ List.replicate k '0', c.isDigit = true := by
        intro k c hc
        rw [List.eq_of_mem_replicate hc]; decide
      unfold layoutFixed
      by_cases q1 : p ≤ 0
      · rw [if_pos q1]
        refine ⟨['0'], List.replicate (-p).toNat '0' ++ D, rfl, ?_, Or.inl rfl, by simp [hDne], Or.inr ?_⟩
        · intro d hd
          rcases List.mem_append.1 hd with hd | hd
          · simp at hd; subst hd; decide
          · rcases List.mem_append.1 hd with hd | hd
            · exact hz _ _ hd
            · exact h1 _ hd
        · rw [List.getLast?_append]
          cases hg : D.getLast? with
          | none => exact absurd (List.getLast?_eq_none_iff.1 hg) hDne
          | some d => rw [hg] at h3; simpa using h3
      · rw [if_neg q1]
        by_cases q2 : (D.length : ℤ) ≤ p
        · rw [if_pos q2]
          refine ⟨D ++ List.replicate (p.toNat - D.length) '0', ['0'], by simp, ?_, Or.inr ⟨c, cs ++ List.replicate (p.toNat - D.length) '0', by rw [h2]; rfl, hc0⟩, by simp, Or.inl rfl⟩
          intro d hd
          rcases List.mem_append.1 hd with hd | hd
          · rcases List.mem_append.1 hd with hd | hd
            · exact h1 _ hd
            · exact hz _ _ hd
          · simp at hd; subst hd; decide
        · rw [if_neg q2]
          push Not at q1 q2
          obtain ⟨j, hj⟩ : ∃ j : ℕ, p.toNat = j + 1 := ⟨p.toNat - 1, by omega⟩
          have hdr : D.drop p.toNat ≠ [] := by
            intro h
            have := List.drop_eq_nil_iff.1 h
            omega
          refine ⟨D.take p.toNat, D.drop p.toNat, rfl, by rw [List.take_append_drop]; exact h1,
            Or.inr ⟨c, cs.take j, by rw [h2, hj]; rfl, hc0⟩, hdr, Or.inr ?_⟩
          have := h3
          rw [← List.take_append_drop p.toNat D, List.getLast?_append] at this
          cases hg : (D.drop p.toNat).getLast? with
          | none => exact absurd (List.getLast?_eq_none_iff.1 hg) hdr
          | some d => rw [hg] at this; simpa using this
    · constructor
      · have := mono (show -4 ≤ p - 1 by omega)
        rw [t4] at this
        linarith
      · have := mono (show p ≤ 5 by omega)
        rw [t5] at this
        linarith

/-! ### Examples -/

private theorem log_of (x : ℚ) (e : ℤ) (h1 : (10:ℚ) ^ e ≤ x) (h2 : x < 10 ^ (e + 1)) : Int.log 10 x = e := by
  have hx : 0 < x := lt_of_lt_of_le (by positivity) h1
  apply le_antisymm
  · have := (Int.lt_zpow_iff_log_lt (b := 10) (by norm_num) hx (x := e + 1)).1 (by simpa using h2)
    omega
  · exact (Int.zpow_le_iff_le_log (b := 10) (by norm_num) hx).1 (by simpa using h1)

example : distanceStr ⟨true, 12345678 / 10000000⟩ = "-1.23457 au".toList := by
  have h : Int.log 10 (12345678 / 10000000 : ℚ) = 0 := log_of _ _ (by norm_num) (by norm_num)
  have hf : ⌊(12345678 / 10000000 : ℚ) / 10 ^ (-5 : ℤ)⌋ = 123456 := by
    rw [Int.floor_eq_iff]; norm_num
  have hr : roundEven ((12345678 / 10000000 : ℚ) / 10 ^ (-5 : ℤ)) = 123457 := by
    unfold roundEven
    rw [hf, show Int.toNat 123456 = 123456 from rfl]
    norm_num
  have hs : sixDigits (12345678 / 10000000 : ℚ) = (123457, 1) := by
    unfold sixDigits
    simp only [h]
    rw [show (0:ℤ) - 5 = -5 by norm_num, hr]
    norm_num
  unfold distanceStr
  rw [formatSix_pos _ (by norm_num)]
  unfold unsignedText
  rw [hs]
  decide +kernel

example : SixDigitNumber (SignedNum.val (⟨true, 299792 / 1000⟩ : SignedNum ℚ)) :=
  ⟨-299792, -3, by norm_num, by norm_num [SignedNum.val]⟩

example : ¬ SixDigitNumber (1234567 : ℚ) := by
  rintro ⟨m, k, hm, h⟩
  rcases le_or_gt k 0 with hk | hk
  · have h1 : (10:ℚ) ^ k ≤ 1 := zpow_le_one_of_nonpos₀ (by norm_num) hk
    have h2 : (m:ℚ) < 10 ^ 6 := by
      have := (le_abs_self m).trans_lt hm
      exact_mod_cast this
    have h3 : (0:ℚ) < 10 ^ k := by positivity
    nlinarith
  · obtain ⟨j, rfl⟩ : ∃ j : ℕ, k = j + 1 := ⟨(k - 1).toNat, by omega⟩
    rw [zpow_add₀ (by norm_num), zpow_natCast] at h
    have h2 : (1234567 : ℤ) = m * (10 ^ j * 10) := by
      have : ((1234567 : ℤ) : ℚ) = ((m * (10 ^ j * 10) : ℤ) : ℚ) := by push_cast; rw [h]; norm_num
      exact_mod_cast this
    have h4 : (1234567 : ℤ) % 10 = (m * (10 ^ j * 10)) % 10 := by rw [h2]
    rw [show m * (10 ^ j * 10) = (m * 10 ^ j) * 10 by ring, Int.mul_emod_left] at h4
    norm_num at h4

/-- Non-vacuity of `C101_tie`: 1.000005 and 1.000015. -/
example : (1.000005 : ℚ) = ((100000 : ℕ) + 1 / 2) * 10 ^ (-5 : ℤ) ∧ (1.000015 : ℚ) = ((100001 : ℕ) + 1 / 2) * 10 ^ (-5 : ℤ) := by
  norm_num

end Skyfield
