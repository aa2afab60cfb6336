import Verif.Model.FloatAngles
import Verif.Lemmas.Floats
import Verif.Props.Units
import Mathlib.Analysis.Real.Pi.Bounds

/-
C84: angles keep their value when typed, split, converted and printed, in floating point too.
-/
namespace Skyfield
open Spec

/-! ### Relative errors -/

/-- `y` is `x` up to a relative error of `δ`. -/
def Rel (δ y x : ℚ) : Prop := |y - x| ≤ δ * |x|

namespace Rel
variable {fl : ℚ → ℚ}

theorem refl (x : ℚ) : Rel 0 x x := by simp [Rel]

theorem mono {δ ε y x : ℚ} (h : Rel δ y x) (hle : δ ≤ ε) : Rel ε y x :=
  le_trans h (mul_le_mul_of_nonneg_right hle (abs_nonneg x))

theorem rounded (hf : RoundsToNearest fl) {δ y x : ℚ} (h : Rel δ y x) : Rel (δ + (1 + δ) / 2 ^ 53) (fl y) x := by
  unfold Rel at *
  have h1 := fl_rel hf y
  have h2 : |y| ≤ (1 + δ) * |x| := by
    have := abs_sub_abs_le_abs_sub y x; linarith
  have h3 := abs_sub_le (fl y) y x
  have h4 : |y| / 2 ^ 53 ≤ (1 + δ) * |x| / 2 ^ 53 := by gcongr
  calc |fl y - x| ≤ (1 + δ) * |x| / 2 ^ 53 + δ * |x| := by linarith
    _ = (δ + (1 + δ) / 2 ^ 53) * |x| := by ring

theorem mul_const {δ y x : ℚ} (h : Rel δ y x) (c : ℚ) : Rel δ (y * c) (x * c) := by
  unfold Rel at *
  rw [← sub_mul, abs_mul, abs_mul, ← mul_assoc]
  exact mul_le_mul_of_nonneg_right h (abs_nonneg c)

theorem div_const {δ y x : ℚ} (h : Rel δ y x) (c : ℚ) : Rel δ (y / c) (x / c) := by
  rw [div_eq_mul_inv, div_eq_mul_inv]; exact h.mul_const _

theorem mul {δ ε y x z w : ℚ} (h : Rel δ y x) (h' : Rel ε z w) (hδ : 0 ≤ δ) : Rel (δ + ε + δ * ε) (y * z) (x * w) := by
  unfold Rel at *
  have e : y * z - x * w = (y - x) * w + x * (z - w) + (y - x) * (z - w) := by ring
  rw [e]
  refine (abs_add_le _ _).trans ((add_le_add (abs_add_le _ _) le_rfl).trans ?_)
  rw [abs_mul, abs_mul, abs_mul, abs_mul]
  have h1 := mul_le_mul_of_nonneg_right h (abs_nonneg w)
  have h2 := mul_le_mul_of_nonneg_left h' (abs_nonneg x)
  have h3 := mul_le_mul h h' (abs_nonneg _) (mul_nonneg hδ (abs_nonneg x))
  nlinarith

/-- Adding numbers of one sign. -/
theorem add {δ y x z w : ℚ} (h : Rel δ y x) (h' : Rel δ z w) (hs : 0 ≤ x * w) : Rel δ (y + z) (x + w) := by
  unfold Rel at *
  have e : y + z - (x + w) = (y - x) + (z - w) := by ring
  have e2 : |x + w| = |x| + |w| := by
    rcases le_total 0 x with h1 | h1 <;> rcases le_total 0 w with h2 | h2
    · rw [abs_of_nonneg h1, abs_of_nonneg h2, abs_of_nonneg (by linarith)]
    · rcases h1.eq_or_lt with h3 | h3
      · rw [← h3]; simp
      · have : w = 0 := by nlinarith
        rw [this]; simp
    · rcases h2.eq_or_lt with h3 | h3
      · rw [← h3]; simp
      · have : x = 0 := by nlinarith
        rw [this]; simp
    · rw [abs_of_nonpos h1, abs_of_nonpos h2, abs_of_nonpos (by linarith)]; ring
  rw [e, e2, mul_add]
  exact (abs_add_le _ _).trans (add_le_add h h')

end Rel

variable {fl : ℚ → ℚ}

/-! ### Printing -/

theorem printedUnitsF_near (hf : RoundsToNearest fl) (value : ℚ) (places : ℕ) :
    |fl (fl (fl (10 ^ places * 3600) * value) + 1 / 2) - (10 ^ places * 3600 * value + 1 / 2)| ≤
      (4 * (10 ^ places * 3600 * |value|) + 1) / 2 ^ 53 := by
  have h1 := ((Rel.refl (10 ^ places * 3600 : ℚ)).rounded hf).mul_const value |>.rounded hf
  unfold Rel at h1
  set b := fl (fl (10 ^ places * 3600) * value) with hb
  have hA : (0 : ℚ) < 10 ^ places * 3600 := by positivity
  rw [abs_mul, abs_of_pos hA] at h1
  set N := 10 ^ places * 3600 * |value| with hN
  have hN0 : 0 ≤ N := by positivity
  have h2 := fl_rel hf (b + 1 / 2)
  have h3 : |b + 1 / 2| ≤ (N + (0 + (1 + 0) / 2 ^ 53 + (1 + (0 + (1 + 0) / 2 ^ 53)) / 2 ^ 53) * N) + 1 / 2 := by
    refine (abs_add_le _ _).trans ?_
    have h4 := abs_sub_abs_le_abs_sub b (10 ^ places * 3600 * value)
    rw [abs_mul, abs_of_pos hA, ← hN] at h4
    rw [abs_of_pos (by norm_num : (0 : ℚ) < 1 / 2)]
    linarith
  have h5 := abs_sub_le (fl (b + 1 / 2)) (b + 1 / 2) (10 ^ places * 3600 * value + 1 / 2)
  have e : b + 1 / 2 - (10 ^ places * 3600 * value + 1 / 2) = b - 10 ^ places * 3600 * value := by ring
  rw [e] at h5
  have h6 : |b + 1 / 2| / 2 ^ 53 ≤
      ((N + (0 + (1 + 0) / 2 ^ 53 + (1 + (0 + (1 + 0) / 2 ^ 53)) / 2 ^ 53) * N) + 1 / 2) / 2 ^ 53 := by gcongr
  refine h5.trans ?_
  norm_num at h1 h2 h6 ⊢
  linarith

/-- What the integers of a decomposition spell. -/
theorem sexaInt_spells (n : ℤ) (places : ℕ) :
    (Int.sign n : ℚ) * (((|n| / 10 ^ places / 60 / 60 : ℤ) : ℚ) + ((|n| / 10 ^ places / 60 % 60 : ℤ) : ℚ) / 60 +
      (((|n| / 10 ^ places % 60 : ℤ) : ℚ) + ((|n| % 10 ^ places : ℤ) : ℚ) / 10 ^ places) / 3600) = n / (10 ^ places * 3600) := by
  have hP : (0 : ℚ) < 10 ^ places := by positivity
  have h1 := Int.mul_ediv_add_emod |n| (10 ^ places)
  have h2 := Int.mul_ediv_add_emod (|n| / 10 ^ places) 60
  have h3 := Int.mul_ediv_add_emod (|n| / 10 ^ places / 60) 60
  have h4 : (Int.sign n : ℤ) * |n| = n := Int.sign_mul_abs n
  generalize |n| % 10 ^ places = f at *
  generalize |n| / 10 ^ places % 60 = s at *
  generalize |n| / 10 ^ places / 60 % 60 = m at *
  generalize |n| / 10 ^ places / 60 / 60 = h at *
  rw [← h3] at h2
  rw [← h2] at h1
  rw [← h1] at h4
  have h5 : (Int.sign n : ℚ) * (10 ^ places * (60 * (60 * h + m) + s) + f) = n := by exact_mod_cast h4
  rw [eq_div_iff (by positivity), ← h5]
  field_simp
  ring

theorem printedUnitsF_sign (hf : RoundsToNearest fl) (value : ℚ) (places : ℕ) :
    (printedUnitsF fl value places < 0 → value < 0) ∧ (0 < printedUnitsF fl value places → 0 < value) := by
  have hA : (0 : ℚ) < fl (10 ^ places * 3600) := fl_pos hf (by positivity)
  have hhalf : fl (1 / 2) = 1 / 2 := fl_exact hf ⟨1, -1, by norm_num, by norm_num⟩
  constructor
  · intro h
    by_contra hc
    push Not at hc
    have h1 : 0 ≤ fl (fl (fl (10 ^ places * 3600) * value) + 1 / 2) := by
      apply fl_nonneg hf
      have := fl_nonneg hf (mul_nonneg hA.le hc)
      linarith
    have : (0 : ℤ) ≤ printedUnitsF fl value places := Int.floor_nonneg.2 h1
    omega
  · intro h
    by_contra hc
    push Not at hc
    have h1 : fl (fl (fl (10 ^ places * 3600) * value) + 1 / 2) ≤ 1 / 2 := by
      rw [← hhalf]
      apply fl_mono hf
      have h2 : fl (fl (10 ^ places * 3600) * value) ≤ 0 := by
        have := fl_mono hf (mul_nonpos_of_nonneg_of_nonpos hA.le hc)
        rwa [fl_zero hf] at this
      rw [hhalf]
      linarith
    have : printedUnitsF fl value places < 1 := by
      unfold printedUnitsF
      rw [Int.floor_lt]
      push_cast
      linarith
    omega

/-- **C84.** The integers that are printed for a float: minutes and seconds from 0 to 59, a fraction of at most `places` digits, the sign of the
value (or zero), and together they spell the value to within half a unit of the last place, plus a relative 4·2⁻⁵³ and 2⁻⁵³ of that unit. -/
theorem C84_integers (hf : RoundsToNearest fl) (value : ℚ) (places : ℕ) :
    ∃ sign h m s f : ℤ, sexagesimalizeToIntF fl value places = (sign, h, m, s, f) ∧
      0 ≤ h ∧ 0 ≤ m ∧ m < 60 ∧ 0 ≤ s ∧ s < 60 ∧ 0 ≤ f ∧ f < 10 ^ places ∧
      (sign = -1 ∨ sign = 0 ∨ sign = 1) ∧ (sign = -1 → value < 0) ∧ (sign = 1 → 0 < value) ∧
      (sign = 0 → h = 0 ∧ m = 0 ∧ s = 0 ∧ f = 0) ∧
      |(sign : ℚ) * (h + m / 60 + (s + f / 10 ^ places) / 3600) - value| ≤
        (1 / 2 + 1 / 2 ^ 53) / (3600 * 10 ^ places) + |value| / 2 ^ 51 := by
  have hP : (0 : ℤ) < 10 ^ places := by positivity
  have hPQ : (0 : ℚ) < 10 ^ places := by positivity
  set n := printedUnitsF fl value places with hn
  have hsg := printedUnitsF_sign hf value places
  rw [← hn] at hsg
  refine ⟨Int.sign n, |n| / 10 ^ places / 60 / 60, |n| / 10 ^ places / 60 % 60, |n| / 10 ^ places % 60, |n| % 10 ^ places, rfl,
    ?_, Int.emod_nonneg _ (by norm_num), Int.emod_lt_of_pos _ (by norm_num), Int.emod_nonneg _ (by norm_num),
    Int.emod_lt_of_pos _ (by norm_num), Int.emod_nonneg _ hP.ne', Int.emod_lt_of_pos _ hP, ?_, ?_, ?_, ?_, ?_⟩
  · have := abs_nonneg n
    positivity
  · rcases lt_trichotomy n 0 with h | h | h
    · left; exact Int.sign_eq_neg_one_of_neg h
    · right; left; rw [h]; rfl
    · right; right; exact Int.sign_eq_one_of_pos h
  · intro h
    exact hsg.1 (Int.sign_eq_neg_one_iff_neg.1 h)
  · intro h
    exact hsg.2 (Int.sign_eq_one_iff_pos.1 h)
  · intro h
    have : n = 0 := Int.sign_eq_zero_iff_zero.1 h
    rw [this]; simp
  · rw [sexaInt_spells]
    have h1 := printedUnitsF_near hf value places
    have h2 := Int.floor_le (fl (fl (fl (10 ^ places * 3600) * value) + 1 / 2))
    have h3 := Int.lt_floor_add_one (fl (fl (fl (10 ^ places * 3600) * value) + 1 / 2))
    have e : ⌊fl (fl (fl (10 ^ places * 3600) * value) + 1 / 2)⌋ = n := rfl
    rw [e] at h2 h3
    have h4 : |(n : ℚ) - 10 ^ places * 3600 * value| ≤ 1 / 2 + (4 * (10 ^ places * 3600 * |value|) + 1) / 2 ^ 53 := by
      rw [abs_le] at h1 ⊢
      constructor <;> linarith [h1.1, h1.2]
    have e2 : (n : ℚ) / (10 ^ places * 3600) - value = (n - 10 ^ places * 3600 * value) / (10 ^ places * 3600) := by
      field_simp
    rw [e2, abs_div, abs_of_pos (by positivity : (0 : ℚ) < 10 ^ places * 3600), div_le_iff₀ (by positivity)]
    refine h4.trans (le_of_eq ?_)
    field_simp
    ring

/-- **C84.** Printing keeps the order: of two floats, the smaller one never spells a larger number of units of the last place. -/
theorem C84_print_order (hf : RoundsToNearest fl) (places : ℕ) {value value' : ℚ} (h : value ≤ value') :
    printedUnitsF fl value places ≤ printedUnitsF fl value' places := by
  have hA : (0 : ℚ) ≤ fl (10 ^ places * 3600) := fl_nonneg hf (by positivity)
  exact Int.floor_le_floor (fl_mono hf (by linarith [fl_mono hf (mul_le_mul_of_nonneg_left h hA)]))

/-- **C84.** The text printed for a float: an optional sign, digits of units, two digits of minutes and seconds (below 60), `places` digits of
fraction and the format's marks; what it spells is the float up to half a unit of the last decimal place and a relative 4·2⁻⁵³. -/
theorem C84_text (hf : RoundsToNearest fl) (fmt : SexaFormat) (value : ℚ) (places : ℕ) (hp : 0 < places) :
    ∃ (negative : Bool) (hh mm ss ff : List Char),
      sfmtF fl fmt value places = fmt.sign negative ++ hh ++ fmt.marks.1 ++ mm ++ fmt.marks.2.1 ++ ss ++ ['.'] ++
        ff ++ fmt.marks.2.2 ∧
      (∀ c ∈ hh ++ mm ++ ss ++ ff, c.isDigit) ∧ 2 ≤ hh.length ∧ mm.length = 2 ∧ ss.length = 2 ∧
      ff.length = places ∧ Nat.ofDigitChars 10 mm 0 < 60 ∧ Nat.ofDigitChars 10 ss 0 < 60 ∧
      (negative → value < 0) ∧
      |(if negative then -1 else 1) * ((Nat.ofDigitChars 10 hh 0 : ℚ) + (Nat.ofDigitChars 10 mm 0 : ℚ) / 60 +
        ((Nat.ofDigitChars 10 ss 0 : ℚ) + (Nat.ofDigitChars 10 ff 0 : ℚ) / 10 ^ places) / 3600) - value|
        ≤ (1 / 2 + 1 / 2 ^ 53) / (3600 * 10 ^ places) + |value| / 2 ^ 51 := by
  obtain ⟨sign, h, m, s, f, e, h0, m0, m1, s0, s1, f0, f1, sc, sn, sp, sz, herr⟩ := C84_integers hf value places
  obtain ⟨ah, bh, -⟩ := zeroPad_spec 2 h h0
  obtain ⟨am, bm, cm⟩ := zeroPad_spec 2 m m0
  obtain ⟨as, bs, cs⟩ := zeroPad_spec 2 s s0
  obtain ⟨af, bf, cf⟩ := zeroPad_spec places f f0
  have tQ : ∀ (x : ℕ) (z : ℤ), (x : ℤ) = z → (x : ℚ) = (z : ℚ) := by
    intro x z hx; rw [← hx]; simp
  have hlen : 2 ≤ (zeroPad 2 h).length := by unfold zeroPad; simp; omega
  refine ⟨decide (sign < 0), zeroPad 2 h, zeroPad 2 m, zeroPad 2 s, zeroPad places f, ?_, ?_, hlen, cm (by norm_num) (by omega),
    cs (by norm_num) (by omega), cf hp f1, by omega, by omega, ?_, ?_⟩
  · unfold sfmtF; rw [e]
  · intro c hc
    simp only [List.mem_append] at hc
    rcases hc with ((hc | hc) | hc) | hc
    · exact bh c hc
    · exact bm c hc
    · exact bs c hc
    · exact bf c hc
  · intro hneg
    rcases sc with rfl | rfl | rfl
    · exact sn rfl
    · simp at hneg
    · simp at hneg
  · rw [tQ _ _ ah, tQ _ _ am, tQ _ _ as, tQ _ _ af]
    rcases sc with rfl | rfl | rfl
    · simpa using herr
    · obtain ⟨rfl, rfl, rfl, rfl⟩ := sz rfl
      simpa using herr
    · simpa using herr

/-! ### Splitting -/

/-- **C84.** Splitting a float into units, minutes and seconds: whole units, whole minutes from 0 to 59, seconds from 0 up to but excluding 60
(never 60, however the product is rounded); and the parts recombine exactly to the one product that is rounded, so to the value up to a relative
2⁻⁵³. -/
theorem C84_split (hf : RoundsToNearest fl) (value : SignedNum ℚ) (h0 : 0 ≤ value.mag) (hmax : value.mag ≤ 2 ^ 40) :
    let s := sexagesimalizeToFloatF fl value
    (∃ u : ℕ, s.units = u) ∧ (∃ m : ℕ, s.minutes = m ∧ m < 60) ∧ 0 ≤ s.seconds ∧ s.seconds < 60 ∧ IsFloat s.seconds ∧
      s.units * 3600 + s.minutes * 60 + s.seconds = fl (value.mag * 3600) ∧
      Rel (1 / 2 ^ 53) (s.units + s.minutes / 60 + s.seconds / 3600) value.mag := by
  intro s
  set x := fl (value.mag * 3600) with hx
  have hx0 : 0 ≤ x := fl_nonneg hf (by positivity)
  have hxm : x ≤ 2 ^ 52 := by
    have h1 : value.mag * 3600 ≤ 2 ^ 52 := by norm_num at hmax ⊢; linarith
    refine fl_le hf h1 ?_
    have := isFloat_int (n := 2 ^ 52) (by norm_num)
    exact_mod_cast this
  set M := ⌊x / 60⌋ with hM
  have hM0 : 0 ≤ M := Int.floor_nonneg.2 (by positivity)
  have hMm : M ≤ 2 ^ 52 := by
    have h1 : ((M : ℤ) : ℚ) ≤ 2 ^ 52 := (Int.floor_le _).trans (by rw [div_le_iff₀ (by norm_num)]; linarith)
    exact_mod_cast h1
  have hfm := isFloat_fmod (hf.float (value.mag * 3600)) hx0 (b := 60) (by norm_num) (by norm_num)
  have hsec : s.seconds = x - 60 * (M : ℚ) := by
    have e : s.seconds = fl (x - 60 * ((⌊x / 60⌋ : ℤ) : ℚ)) := rfl
    rw [e, fl_exact hf]
    have := hfm
    push_cast at this
    exact this
  have hfl : ((⌊(M : ℚ) / 60⌋ : ℤ)) = M / 60 := by
    have := Rat.floor_intCast_div_natCast M 60
    push_cast at this
    exact this
  have hmin : s.minutes = ((M % 60 : ℤ) : ℚ) := by
    have e : s.minutes = fl ((M : ℚ) - 60 * ((⌊(M : ℚ) / 60⌋ : ℤ) : ℚ)) := rfl
    rw [e, hfl]
    have e2 : (M : ℚ) - 60 * ((M / 60 : ℤ) : ℚ) = ((M % 60 : ℤ) : ℚ) := by
      have := Int.mul_ediv_add_emod M 60
      have h2 : (60 : ℚ) * ((M / 60 : ℤ) : ℚ) + ((M % 60 : ℤ) : ℚ) = M := by exact_mod_cast this
      linarith
    rw [e2]
    apply fl_int hf
    have h1 := Int.emod_nonneg M (by norm_num : (60 : ℤ) ≠ 0)
    have h2 := Int.emod_lt_of_pos M (by norm_num : (0 : ℤ) < 60)
    rw [abs_of_nonneg h1]
    omega
  have hun : s.units = ((M / 60 : ℤ) : ℚ) := by
    have e : s.units = ((⌊(M : ℚ) / 60⌋ : ℤ) : ℚ) := rfl
    rw [e, hfl]
  have hfl1 := Int.floor_le (x / 60)
  have hfl2 := Int.lt_floor_add_one (x / 60)
  rw [← hM] at hfl1 hfl2
  rw [le_div_iff₀ (by norm_num)] at hfl1
  rw [div_lt_iff₀ (by norm_num)] at hfl2
  have hsum : s.units * 3600 + s.minutes * 60 + s.seconds = x := by
    rw [hsec, hmin, hun]
    have := Int.mul_ediv_add_emod M 60
    have h2 : (60 : ℚ) * ((M / 60 : ℤ) : ℚ) + ((M % 60 : ℤ) : ℚ) = M := by exact_mod_cast this
    linear_combination 60 * h2
  refine ⟨⟨(M / 60).toNat, ?_⟩, ⟨(M % 60).toNat, ?_, ?_⟩, ?_, ?_, ?_, hsum, ?_⟩
  · rw [hun]
    have : ((M / 60).toNat : ℤ) = M / 60 := Int.toNat_of_nonneg (by positivity)
    exact_mod_cast this.symm
  · rw [hmin]
    have : ((M % 60).toNat : ℤ) = M % 60 := Int.toNat_of_nonneg (Int.emod_nonneg _ (by norm_num))
    exact_mod_cast this.symm
  · have := Int.emod_lt_of_pos M (by norm_num : (0 : ℤ) < 60)
    omega
  · rw [hsec]; linarith
  · rw [hsec]; linarith
  · rw [hsec]
    push_cast at hfm
    exact hfm
  · have e : s.units + s.minutes / 60 + s.seconds / 3600 = x / 3600 := by rw [← hsum]; ring
    rw [e]
    have h1 := ((Rel.refl (value.mag * 3600)).rounded hf).div_const 3600
    rw [mul_div_cancel_right₀ _ (by norm_num : (3600 : ℚ) ≠ 0)] at h1
    exact h1.mono (by norm_num)

/-! ### Reading -/

/-- +1 or -1. -/
def signOf (neg : Bool) : ℚ := if neg then -1 else 1

theorem signOf_mul_self (neg : Bool) : signOf neg * signOf neg = 1 := by cases neg <;> norm_num [signOf]

theorem SignedNum.val_eq (x : SignedNum ℚ) : x.val = signOf x.neg * x.mag := by
  unfold SignedNum.val signOf
  cases x.neg <;> simp

theorem signed_abs {neg : Bool} {w : ℚ} (h : 0 ≤ signOf neg * w) : (⟨neg, |w|⟩ : SignedNum ℚ).val = w := by
  cases neg
  · simp [signOf] at h; simp [SignedNum.val, abs_of_nonneg h]
  · simp [signOf] at h; simp [SignedNum.val, abs_of_nonpos h]

theorem fl_signed (hf : RoundsToNearest fl) {neg : Bool} {w : ℚ} (h : 0 ≤ signOf neg * w) : 0 ≤ signOf neg * fl w := by
  cases neg
  · simp only [signOf, Bool.false_eq_true, if_false, one_mul] at h ⊢; exact fl_nonneg hf h
  · simp only [signOf, if_true, neg_mul, one_mul] at h ⊢
    have := fl_mono hf (show w ≤ 0 by linarith)
    rw [fl_zero hf] at this
    linarith

/-- **C84.** A tuple of three floats is read as `wms()` computes it; the sign bit is that of the first. -/
theorem C84_tuple_is_wms (hf : RoundsToNearest fl) (w m s : SignedNum ℚ) (hw : 0 ≤ w.mag) (hm : 0 ≤ m.mag) (hs : 0 ≤ s.mag) :
    ∃ r, unsexagesimalizeF fl [w, m, s] = some r ∧ r.neg = w.neg ∧ r.val = wmsF fl w m s := by
  have h60 : fl (1 * 60) = 60 := by
    have := fl_int hf (n := 60) (by norm_num); rw [one_mul]; exact_mod_cast this
  have h3600 : fl (60 * 60) = 3600 := by
    have := fl_int hf (n := 3600) (by norm_num)
    rw [show (60 * 60 : ℚ) = 3600 by norm_num]; exact_mod_cast this
  have sg := signOf_mul_self w.neg
  have p1 : 0 ≤ signOf w.neg * fl (w.val + fl ((copysign m w).val / 60)) := by
    apply fl_signed hf
    rw [mul_add]
    have h1 : 0 ≤ signOf w.neg * w.val := by rw [SignedNum.val_eq, ← mul_assoc, sg, one_mul]; exact hw
    have h2 : 0 ≤ signOf w.neg * fl ((copysign m w).val / 60) := by
      apply fl_signed hf
      rw [SignedNum.val_eq, mul_div_assoc, ← mul_assoc]
      change 0 ≤ signOf w.neg * signOf w.neg * (m.mag / 60)
      rw [sg, one_mul]; positivity
    linarith
  have p2 : 0 ≤ signOf w.neg * fl (fl (w.val + fl ((copysign m w).val / 60)) + fl ((copysign s w).val / 3600)) := by
    apply fl_signed hf
    rw [mul_add]
    have h2 : 0 ≤ signOf w.neg * fl ((copysign s w).val / 3600) := by
      apply fl_signed hf
      rw [SignedNum.val_eq, mul_div_assoc, ← mul_assoc]
      change 0 ≤ signOf w.neg * signOf w.neg * (s.mag / 3600)
      rw [sg, one_mul]; positivity
    linarith
  refine ⟨_, rfl, ?_, ?_⟩
  · simp only [unsexagesimalizeGoF]
  · simp only [unsexagesimalizeGoF]
    rw [h60, h3600, signed_abs p1]
    have e : copysign s (⟨w.neg, |fl (w.val + fl ((copysign m w).val / 60))|⟩ : SignedNum ℚ) = copysign s w := rfl
    rw [e, signed_abs p2]
    rfl

/-- **C84.** Units, minutes and seconds, each known up to a relative 2⁻⁵³, are combined with an error of less than a relative 3.01·2⁻⁵³. -/
theorem C84_read (hf : RoundsToNearest fl) (w m s : SignedNum ℚ) (hw : 0 ≤ w.mag) (hm : 0 ≤ m.mag) {sec : ℚ} (hs : 0 ≤ sec)
    (hsec : Rel (1 / 2 ^ 53) s.mag sec) :
    Rel (3.01 / 2 ^ 53) (wmsF fl w m s) (signOf w.neg * (w.mag + m.mag / 60 + sec / 3600)) := by
  set σ := signOf w.neg with hσ
  have sg : σ * σ = 1 := signOf_mul_self w.neg
  have e1 : w.val = σ * w.mag := w.val_eq
  have e2 : (copysign m w).val = σ * m.mag := (copysign m w).val_eq
  have e3 : (copysign s w).val = σ * s.mag := (copysign s w).val_eq
  unfold wmsF
  rw [e1, e2, e3]
  have a1 := ((Rel.refl (σ * m.mag / 60))).rounded hf
  have a2 : Rel (0 + (1 + 0) / 2 ^ 53) (σ * w.mag) (σ * w.mag) := (Rel.refl _).mono (by norm_num)
  have sgn : ∀ a b : ℚ, 0 ≤ a → 0 ≤ b → 0 ≤ σ * a * (σ * b) := fun a b ha hb => by
    rw [show σ * a * (σ * b) = σ * σ * (a * b) by ring, sg, one_mul]; positivity
  have a3 := (a2.add a1 (by rw [mul_div_assoc]; exact sgn _ _ hw (by positivity))).rounded hf
  have b1 : Rel (1 / 2 ^ 53) (σ * s.mag / 3600) (σ * sec / 3600) := by
    have := (hsec.mul_const σ).div_const 3600
    rwa [mul_comm s.mag, mul_comm sec] at this
  have b2 := b1.rounded hf
  have a4 : Rel (2.001 / 2 ^ 53) (fl (σ * w.mag + fl (σ * m.mag / 60))) (σ * w.mag + σ * m.mag / 60) := a3.mono (by norm_num)
  have b3 : Rel (2.001 / 2 ^ 53) (fl (σ * s.mag / 3600)) (σ * sec / 3600) := b2.mono (by norm_num)
  have c1 := (a4.add b3 (by
    rw [show σ * w.mag + σ * m.mag / 60 = σ * (w.mag + m.mag / 60) by ring, mul_div_assoc]
    exact sgn _ _ (by positivity) (by positivity))).rounded hf
  have e4 : σ * w.mag + σ * m.mag / 60 + σ * sec / 3600 = σ * (w.mag + m.mag / 60 + sec / 3600) := by ring
  rw [e4] at c1
  exact c1.mono (by norm_num)

/-- **C84.** A float that is split into units, minutes and seconds and read again is the same up to a relative 5·2⁻⁵³. -/
theorem C84_split_and_read (hf : RoundsToNearest fl) (x : ℚ) (hx : |x| ≤ 2 ^ 40) :
    ∃ r, unsexagesimalizeF fl (signedTuple (sexagesimalizeToFloatF fl (SignedNum.ofNum x))) = some r ∧
      Rel (5 / 2 ^ 53) r.val x := by
  obtain ⟨⟨u, hu⟩, ⟨m, hm, -⟩, s0, -, -, -, hrel⟩ := C84_split hf (SignedNum.ofNum x) (abs_nonneg x) hx
  have hsign : (sexagesimalizeToFloatF fl (SignedNum.ofNum x)).sign = (SignedNum.ofNum x).sign := rfl
  have hmag : (SignedNum.ofNum x).mag = |x| := rfl
  rw [hmag] at hrel
  generalize hs : sexagesimalizeToFloatF fl (SignedNum.ofNum x) = s at *
  have hmg : 0 ≤ s.sign.mag := by
    rw [hsign]; unfold SignedNum.sign; split <;> norm_num
  obtain ⟨r, h1, -, h2⟩ := C84_tuple_is_wms hf (s.sign.mul ⟨false, s.units⟩) (s.sign.mul ⟨false, s.minutes⟩)
    (s.sign.mul ⟨false, s.seconds⟩) (mul_nonneg hmg (by simp [hu])) (mul_nonneg hmg (by simp [hm])) (mul_nonneg hmg s0)
  refine ⟨r, h1, ?_⟩
  rw [h2]
  have h3 := C84_read hf (s.sign.mul ⟨false, s.units⟩) (s.sign.mul ⟨false, s.minutes⟩)
    (s.sign.mul ⟨false, s.seconds⟩) (mul_nonneg hmg (by simp [hu])) (mul_nonneg hmg (by simp [hm])) (mul_nonneg hmg s0)
    ((Rel.refl _).mono (by norm_num))
  have e : signOf (s.sign.mul ⟨false, s.units⟩).neg * ((s.sign.mul ⟨false, s.units⟩).mag + (s.sign.mul ⟨false, s.minutes⟩).mag / 60 +
      s.sign.mag * s.seconds / 3600) = s.sign.val * (s.units + s.minutes / 60 + s.seconds / 3600) := by
    rw [SignedNum.val_eq]
    simp only [SignedNum.mul, Bool.xor_false]
    ring
  have h3 : Rel (3.01 / 2 ^ 53) (wmsF fl (s.sign.mul ⟨false, s.units⟩) (s.sign.mul ⟨false, s.minutes⟩) (s.sign.mul ⟨false, s.seconds⟩))
      (s.sign.val * (s.units + s.minutes / 60 + s.seconds / 3600)) := by rw [← e]; exact h3
  have h4 : Rel (1 / 2 ^ 53) (s.sign.val * (s.units + s.minutes / 60 + s.seconds / 3600)) x := by
    have h5 := hrel.mul_const s.sign.val
    have e2 : |x| * s.sign.val = x := by
      rw [hsign]
      unfold SignedNum.sign SignedNum.ofNum SignedNum.val
      rcases lt_trichotomy x 0 with hx | hx | hx
      · simp [hx, hx.ne, abs_of_neg hx]
      · simp [hx]
      · simp [hx.ne', not_lt.2 hx.le, abs_of_pos hx]
    rw [e2, mul_comm] at h5
    exact h5
  unfold Rel at *
  generalize s.sign.val * (s.units + s.minutes / 60 + s.seconds / 3600) = y at *
  have h5 := abs_sub_le (wmsF fl (s.sign.mul ⟨false, s.units⟩) (s.sign.mul ⟨false, s.minutes⟩) (s.sign.mul ⟨false, s.seconds⟩)) y x
  have h6 := abs_sub_abs_le_abs_sub y x
  have h7 := abs_nonneg x
  norm_num at h3 h4 ⊢
  linarith

/-! ### What was typed is what is printed -/

theorem sexa_digits (h m s f : ℕ) (places : ℕ) (hm : m < 60) (hs : s < 60) (hfr : f < 10 ^ places) :
    let N : ℤ := (((h * 60 + m) * 60 + s) * 10 ^ places + f : ℕ)
    N / 10 ^ places / 60 / 60 = h ∧ N / 10 ^ places / 60 % 60 = m ∧ N / 10 ^ places % 60 = s ∧ N % 10 ^ places = f := by
  intro N
  have hP : 0 < 10 ^ places := by positivity
  have e1 : (((h * 60 + m) * 60 + s) * 10 ^ places + f) / 10 ^ places = (h * 60 + m) * 60 + s := by
    rw [mul_comm, Nat.mul_add_div hP, Nat.div_eq_of_lt hfr, add_zero]
  have e2 : (((h * 60 + m) * 60 + s) * 10 ^ places + f) % 10 ^ places = f := by
    rw [mul_comm, Nat.mul_add_mod, Nat.mod_eq_of_lt hfr]
  have d1 : N / 10 ^ places = ((h * 60 + m) * 60 + s : ℕ) := by
    have : ((10 ^ places : ℕ) : ℤ) = 10 ^ places := by push_cast; rfl
    rw [← this, ← e1]; exact (Int.natCast_ediv _ _).symm
  have d2 : N % 10 ^ places = f := by
    have : ((10 ^ places : ℕ) : ℤ) = 10 ^ places := by push_cast; rfl
    rw [← this]
    have h3 : (((((h * 60 + m) * 60 + s) * 10 ^ places + f) % 10 ^ places : ℕ) : ℤ) = f := by rw [e2]
    rw [Int.natCast_emod] at h3
    exact h3
  rw [d1, d2]
  refine ⟨?_, ?_, ?_, rfl⟩ <;> omega

/-- **C84.** An angle that is typed as a tuple of units, minutes and seconds, the seconds with `places` decimals, is printed with exactly these
digits: for up to 2⁴⁹ units of the last decimal place (for example angles below 360° with eight decimals), whatever the sign and although neither
the decimal seconds nor the sum are floats. -/
theorem C84_typed_is_printed (hf : RoundsToNearest fl) (fmt : SexaFormat) (neg sm ss : Bool) (h m s f places : ℕ) (hm : m < 60) (hs : s < 60)
    (hfr : f < 10 ^ places) (hmax : ((h * 60 + m) * 60 + s) * 10 ^ places + f ≤ 2 ^ 49) :
    ∃ r, unsexagesimalizeF fl [⟨neg, h⟩, ⟨sm, m⟩, ⟨ss, fl (s + f / 10 ^ places)⟩] = some r ∧
      sfmtF fl fmt r.val places =
        fmt.sign (neg && decide (0 < ((h * 60 + m) * 60 + s) * 10 ^ places + f)) ++ zeroPad 2 h ++ fmt.marks.1 ++ zeroPad 2 m ++
          fmt.marks.2.1 ++ zeroPad 2 s ++ ['.'] ++ zeroPad places f ++ fmt.marks.2.2 := by
  have hP : (0 : ℚ) < 10 ^ places := by positivity
  have hsec0 : (0 : ℚ) ≤ s + f / 10 ^ places := by positivity
  obtain ⟨r, h1, -, h2⟩ := C84_tuple_is_wms hf ⟨neg, h⟩ ⟨sm, m⟩ ⟨ss, fl (s + f / 10 ^ places)⟩ (Nat.cast_nonneg h) (Nat.cast_nonneg m)
    (fl_nonneg hf hsec0)
  refine ⟨r, h1, ?_⟩
  have hread := C84_read hf ⟨neg, h⟩ ⟨sm, m⟩ ⟨ss, fl (s + f / 10 ^ places)⟩ (Nat.cast_nonneg h) (Nat.cast_nonneg m) hsec0
    (((Rel.refl _).rounded hf).mono (by norm_num))
  rw [← h2] at hread
  set N := ((h * 60 + m) * 60 + s) * 10 ^ places + f with hN
  have hNQ : (N : ℚ) = ((h * 60 + m) * 60 + s) * 10 ^ places + f := by rw [hN]; push_cast; ring
  have hV : signOf neg * ((h : ℚ) + m / 60 + (s + f / 10 ^ places) / 3600) = signOf neg * N / (10 ^ places * 3600) := by
    rw [hNQ]; field_simp; ring
  have hread : Rel (3.01 / 2 ^ 53) r.val (signOf neg * N / (10 ^ places * 3600)) := by rw [← hV]; exact hread
  have hx := hread.mul_const (10 ^ places * 3600)
  rw [div_mul_cancel₀ _ (by positivity), mul_comm r.val] at hx
  have hsabs : |signOf neg * (N : ℚ)| = N := by
    rw [abs_mul, show |signOf neg| = 1 by cases neg <;> norm_num [signOf], one_mul, abs_of_nonneg (Nat.cast_nonneg N)]
  unfold Rel at hx
  rw [hsabs] at hx
  have hNm : (N : ℚ) ≤ 2 ^ 49 := by exact_mod_cast hmax
  have hN0 : (0 : ℚ) ≤ N := Nat.cast_nonneg N
  have hnear := printedUnitsF_near hf r.val places
  have hval : 10 ^ places * 3600 * |r.val| ≤ N + 3.01 / 2 ^ 53 * N := by
    have h3 := abs_sub_abs_le_abs_sub (10 ^ places * 3600 * r.val) (signOf neg * N)
    rw [hsabs, abs_mul, abs_of_pos (by positivity : (0 : ℚ) < 10 ^ places * 3600)] at h3
    linarith
  have hn : printedUnitsF fl r.val places = if neg then -(N : ℤ) else N := by
    have e : ((if neg then -(N : ℤ) else N : ℤ) : ℚ) = signOf neg * N := by cases neg <;> simp [signOf]
    unfold printedUnitsF
    rw [Int.floor_eq_iff, e]
    have h4 : (4 * (10 ^ places * 3600 * |r.val|) + 1) / 2 ^ 53 ≤ (4 * (N + 3.01 / 2 ^ 53 * N) + 1) / 2 ^ 53 := by gcongr
    have h5 := hnear.trans h4
    rw [abs_le] at h5 hx
    obtain ⟨h6, h7⟩ := h5
    obtain ⟨h8, h9⟩ := hx
    generalize fl (fl (fl (10 ^ places * 3600) * r.val) + 1 / 2) = c at *
    generalize 10 ^ places * 3600 * r.val = X at *
    generalize signOf neg * (N : ℚ) = Y at *
    clear hNQ hN hV
    generalize (N : ℚ) = M at *
    norm_num at h6 h7 h8 h9 hNm
    constructor <;> linarith
  have habs : |(if neg then -(N : ℤ) else N : ℤ)| = N := by cases neg <;> simp
  obtain ⟨d1, d2, d3, d4⟩ := sexa_digits h m s f places hm hs hfr
  rw [← hN] at d1 d2 d3 d4
  have hdec : sexagesimalizeToIntF fl r.val places = (Int.sign (if neg then -(N : ℤ) else N), (h : ℤ), (m : ℤ), (s : ℤ), (f : ℤ)) := by
    unfold sexagesimalizeToIntF
    simp only
    rw [hn, habs, d1, d2, d3, d4]
  unfold sfmtF
  rw [hdec]
  simp only
  congr 8
  cases neg
  · have h0 : ¬ ((N : ℤ) < 0) := by omega
    simp [h0]
  · simp only [if_true, Bool.true_and]
    rcases Nat.eq_zero_or_pos N with h0 | h0
    · rw [h0]; simp
    · simp [Int.sign_neg, h0]

/-! ### Degrees, hours and radians -/

theorem tauF_pos (hf : RoundsToNearest fl) : 0 < tauF fl := fl_pos hf (by norm_num)

theorem convert_rel (hf : RoundsToNearest fl) (x a b : ℚ) (ha : 0 < a) : Rel (5 / 2 ^ 53) (fl (fl (fl (fl (x / a) * tauF fl) * b) / tauF fl)) (x / a * b) := by
  have hT := tauF_pos hf
  have h := ((((Rel.refl (x / a)).rounded hf).mul_const (tauF fl)).rounded hf |>.mul_const b |>.rounded hf |>.div_const (tauF fl)).rounded hf
  have e : x / a * tauF fl * b / tauF fl = x / a * b := by field_simp
  rw [e] at h
  exact h.mono (by norm_num)

/-- **C84.** Degrees read as hours, hours read as degrees, and both read back from an angle that keeps radians: the value is right up to a relative
5·2⁻⁵³. -/
theorem C84_convert (hf : RoundsToNearest fl) (x : ℚ) :
    Rel (5 / 2 ^ 53) (radiansToHoursF fl (degreesToRadiansF fl x)) (x / 15) ∧
    Rel (5 / 2 ^ 53) (radiansToDegreesF fl (hoursToRadiansF fl x)) (x * 15) ∧
    Rel (5 / 2 ^ 53) (radiansToDegreesF fl (degreesToRadiansF fl x)) x ∧
    Rel (5 / 2 ^ 53) (radiansToHoursF fl (hoursToRadiansF fl x)) x := by
  refine ⟨?_, ?_, ?_, ?_⟩
  · have h := convert_rel hf x 360 24 (by norm_num)
    rwa [show x / 360 * 24 = x / 15 by ring] at h
  · have h := convert_rel hf x 24 360 (by norm_num)
    rwa [show x / 24 * 360 = x * 15 by ring] at h
  · have h := convert_rel hf x 360 360 (by norm_num)
    rwa [show x / 360 * 360 = x by ring] at h
  · have h := convert_rel hf x 24 24 (by norm_num)
    rwa [show x / 24 * 24 = x by ring] at h

/-- **C84.** The radians of an angle given in degrees (or hours) are the true ones, with the true π, up to a relative 4·2⁻⁵³. -/
theorem C84_radians (hf : RoundsToNearest fl) (x : ℚ) :
    |((degreesToRadiansF fl x : ℚ) : ℝ) - x * Real.pi / 180| ≤ 4 / 2 ^ 53 * |x * Real.pi / 180| ∧
    |((hoursToRadiansF fl x : ℚ) : ℝ) - x * Real.pi / 12| ≤ 4 / 2 ^ 53 * |x * Real.pi / 12| := by
  have key : ∀ y : ℚ, |((fl (fl y * tauF fl) : ℚ) : ℝ) - y * (2 * Real.pi)| ≤ 4 / 2 ^ 53 * |y * (2 * Real.pi)| := by
    intro y
    have h1 := (((Rel.refl y).rounded hf).mul ((Rel.refl (6.283185307179586476925287 : ℚ)).rounded hf) (by norm_num)).rounded hf
    have h1 : Rel (3.001 / 2 ^ 53) (fl (fl y * tauF fl)) (y * 6.283185307179586476925287) := h1.mono (by norm_num)
    unfold Rel at h1
    have h2 : |((fl (fl y * tauF fl) : ℚ) : ℝ) - y * 6.283185307179586476925287| ≤ 3.001 / 2 ^ 53 * |(y : ℝ) * 6.283185307179586476925287| := by
      have h := (Rat.cast_le (K := ℝ)).2 h1
      push_cast at h
      norm_num at h ⊢
      exact h
    have hp1 := Real.pi_gt_d20
    have hp2 := Real.pi_lt_d20
    have hpi := Real.pi_pos
    have h3 : |(6.283185307179586476925287 : ℝ) - 2 * Real.pi| ≤ 1e-18 * (2 * Real.pi) := by
      rw [abs_le]; constructor <;> norm_num at hp1 hp2 ⊢ <;> linarith
    have h4 : |(y : ℝ) * 6.283185307179586476925287 - y * (2 * Real.pi)| ≤ 1e-18 * |(y : ℝ) * (2 * Real.pi)| := by
      rw [← mul_sub, abs_mul, abs_mul, abs_of_pos (by positivity : 0 < 2 * Real.pi)]
      have := mul_le_mul_of_nonneg_left h3 (abs_nonneg (y : ℝ))
      linarith
    have h5 := abs_sub_le ((fl (fl y * tauF fl) : ℚ) : ℝ) (y * 6.283185307179586476925287) (y * (2 * Real.pi))
    have h6 := abs_sub_abs_le_abs_sub ((y : ℝ) * 6.283185307179586476925287) (y * (2 * Real.pi))
    have h7 := abs_nonneg ((y : ℝ) * (2 * Real.pi))
    generalize |(y : ℝ) * 6.283185307179586476925287| = A at *
    generalize |(y : ℝ) * (2 * Real.pi)| = B at *
    norm_num at h2 h4 h5 h6 ⊢
    linarith
  constructor
  · have := key (x / 360)
    push_cast at this
    rw [show (x : ℝ) / 360 * (2 * Real.pi) = x * Real.pi / 180 by ring] at this
    exact this
  · have := key (x / 24)
    push_cast at this
    rw [show (x : ℝ) / 24 * (2 * Real.pi) = x * Real.pi / 12 by ring] at this
    exact this

/-! ### Examples -/

/-- -12° 03' 04.56": what is typed is what is printed. -/
example (hf : RoundsToNearest fl) : ∃ r, unsexagesimalizeF fl [⟨true, 12⟩, ⟨false, 3⟩, ⟨false, fl (4 + 56 / 10 ^ 2)⟩] = some r ∧
    sfmtF fl .dfmt r.val 2 = SexaFormat.sign .dfmt true ++ zeroPad 2 12 ++ (SexaFormat.marks .dfmt).1 ++ zeroPad 2 3 ++
      (SexaFormat.marks .dfmt).2.1 ++ zeroPad 2 4 ++ ['.'] ++ zeroPad 2 56 ++ (SexaFormat.marks .dfmt).2.2 := by
  obtain ⟨r, h1, h2⟩ := C84_typed_is_printed hf .dfmt true false false 12 3 4 56 2 (by norm_num) (by norm_num) (by norm_num) (by norm_num)
  exact ⟨r, by simpa using h1, by simpa using h2⟩

example : ∃ fl, RoundsToNearest fl := exists_rounding

example (hf : RoundsToNearest fl) : Rel (5 / 2 ^ 53) (radiansToHoursF fl (degreesToRadiansF fl 100)) (20 / 3) := by
  have := (C84_convert hf 100).1
  rwa [show (100 / 15 : ℚ) = 20 / 3 by norm_num] at this

end Skyfield
