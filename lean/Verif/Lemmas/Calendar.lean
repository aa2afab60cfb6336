import Verif.Model.Calendar
import Verif.Spec.Calendar
import Mathlib.Tactic.Linarith
import Mathlib.Algebra.Order.Group.Int

namespace Skyfield
open Spec

/-- Day number of the Julian calendar: `julian_day` with the mask off. -/
def jdJ (year month day : Int) : Int :=
  let y := (month - 1) / 12
  let month := (month - 1) % 12 + 1
  let g := year + y + 4716 - (if month ≤ 2 then 1 else 0)
  1461 * g / 4 + day - 1402 + (153 * ((month + 9) % 12) + 2) / 5

/-- The Gregorian correction of `julian_day`. -/
def corrOf (year month : Int) : Int :=
  let y := (month - 1) / 12
  let month := (month - 1) % 12 + 1
  let g := year + y + 4716 - (if month ≤ 2 then 1 else 0)
  38 - (g + 184) / 100 * 3 / 4

theorem julianDay_none (y m d : Int) : julianDay y m d none = jdJ y m d + corrOf y m := by
  simp [julianDay, jdJ, corrOf, cutoffMask]

theorem julianDay_some (y m d c : Int) :
    julianDay y m d (some c) = if c ≤ jdJ y m d then jdJ y m d + corrOf y m else jdJ y m d := by
  show jdJ y m d + corrOf y m * cutoffMask (some c) (jdJ y m d) = _
  simp only [cutoffMask, ge_iff_le]
  split <;> simp

/-- The correction in `compute_calendar_date`. -/
def dateCorr (j : Int) : Int := (4 * j + 274277) / 146097 * 3 / 4 - 38

theorem century (j c f Y : Int) (hc : (4 * j + 274277) / 146097 = c)
    (hf : f = j + 1401 + (c * 3 / 4 - 38)) (hY : (4 * f + 3) / 1461 = Y) :
    (Y + 184) / 100 * 3 / 4 = c * 3 / 4 := by
  obtain ⟨k, r, rfl, h0, h3⟩ : ∃ k r, c = 4 * k + r ∧ 0 ≤ r ∧ r ≤ 3 :=
    ⟨c/4, c%4, by omega, by omega, by omega⟩
  have hr : r = 0 ∨ r = 1 ∨ r = 2 ∨ r = 3 := by omega
  rcases hr with h|h|h|h <;> subst h
  · have h : (4 * k + 0) * 3 / 4 = 3*k := by omega
    rw [h] at hf; subst hf
    have : 400 * k ≤ Y + 184 ∧ Y + 184 ≤ 400 * k + 199 := by constructor <;> omega
    omega
  · have h : (4 * k + 1) * 3 / 4 = 3*k := by omega
    rw [h] at hf; subst hf
    have : 400 * k ≤ Y + 184 ∧ Y + 184 ≤ 400 * k + 199 := by constructor <;> omega
    omega
  · have h : (4 * k + 2) * 3 / 4 = 3*k+1 := by omega
    rw [h] at hf; subst hf
    have : 400 * k + 200 ≤ Y + 184 ∧ Y + 184 ≤ 400 * k + 299 := by constructor <;> omega
    omega
  · have h : (4 * k + 3) * 3 / 4 = 3*k+2 := by omega
    rw [h] at hf; subst hf
    have : 400 * k + 300 ≤ Y + 184 ∧ Y + 184 ≤ 400 * k + 399 := by constructor <;> omega
    omega

/-- Date with March-based year `Y` (offset 4716) and zero-based day `n` of that year. -/
def dateOf (Y n : Int) : Date :=
  let h := 5 * n + 2
  let month := (h / 153 + 2) % 12 + 1
  ⟨Y - 4716 + (12 + 2 - month) / 12, month, h % 153 / 5 + 1⟩

theorem twelve {M : Int} (h : 0 ≤ M ∧ M ≤ 11) : M = 0 ∨ M = 1 ∨ M = 2 ∨ M = 3 ∨ M = 4 ∨ M = 5 ∨
    M = 6 ∨ M = 7 ∨ M = 8 ∨ M = 9 ∨ M = 10 ∨ M = 11 := by omega

theorem dateOf_spec (Y n : Int) (hn : 0 ≤ n ∧ n ≤ 365) :
    jdJ (dateOf Y n).year (dateOf Y n).month (dateOf Y n).day = 1461 * Y / 4 + n - 1401 ∧
    corrOf (dateOf Y n).year (dateOf Y n).month = 38 - (Y + 184) / 100 * 3 / 4 := by
  obtain ⟨M, hM⟩ : ∃ M, M = (5 * n + 2) / 153 := ⟨_, rfl⟩
  have hMc := twelve (M := M) (by omega)
  have h5 : (5 * n + 2) % 153 = 5 * n + 2 - 153 * M := by omega
  simp only [dateOf, jdJ, corrOf, ← hM, h5]
  rcases hMc with h|h|h|h|h|h|h|h|h|h|h|h <;> subst h <;> simp <;> omega

/-- The intermediate year and day-of-year of `compute_calendar_date`. -/
theorem computeCalendarDate_eq (j : Int) (o : Option Int) (u : Int)
    (hu : u = cutoffMask o j) :
    computeCalendarDate j o =
      dateOf ((4 * (j + 1401 + u * dateCorr j) + 3) / 1461)
        ((4 * (j + 1401 + u * dateCorr j) + 3) % 1461 / 4) := by
  subst hu
  rfl

theorem fq (f : Int) : f = 1461 * ((4 * f + 3) / 1461) / 4 + (4 * f + 3) % 1461 / 4 := by
  omega

theorem leapday (f : Int) (h : (4 * f + 3) % 1461 / 4 = 365) : (4 * f + 3) / 1461 % 4 = 3 := by
  omega

theorem ccd_greg {j : Int} {o : Option Int}
    (ho : o = none ∨ ∃ c, o = some c ∧ c ≤ j) :
    let t := computeCalendarDate j o
    jdJ t.year t.month t.day = j + dateCorr j ∧ corrOf t.year t.month = - dateCorr j := by
  have hu : (1:Int) = cutoffMask o j := by
    rcases ho with rfl | ⟨c, rfl, h⟩ <;> simp [cutoffMask, *]
  rw [computeCalendarDate_eq j o 1 hu]
  generalize hf : j + 1401 + 1 * dateCorr j = f
  have hs := dateOf_spec ((4 * f + 3) / 1461) ((4 * f + 3) % 1461 / 4) (by omega)
  dsimp only
  rw [hs.1, hs.2]
  refine ⟨?_, ?_⟩
  · have := fq f
    omega
  · have := century j _ f _ rfl (by rw [← hf]; simp [dateCorr]) rfl
    rw [this]; simp only [dateCorr]; omega

theorem ccd_jul {j c : Int} (h : j < c) :
    let t := computeCalendarDate j (some c)
    jdJ t.year t.month t.day = j := by
  have hu : (0:Int) = cutoffMask (some c) j := by
    simp [cutoffMask, *]
  rw [computeCalendarDate_eq j (some c) 0 hu]
  generalize hf : j + 1401 + 0 * dateCorr j = f
  have hs := dateOf_spec ((4 * f + 3) / 1461) ((4 * f + 3) % 1461 / 4) (by omega)
  dsimp only
  rw [hs.1]
  have := fq f
  omega

/-! ### Validity of the dates produced -/

theorem dateOf_valid (leap : Int → Bool) (Y n : Int) (hn : 0 ≤ n ∧ n ≤ 365)
    (hl : n = 365 → leap (Y - 4715) = true) :
    ValidDate leap (dateOf Y n).year (dateOf Y n).month (dateOf Y n).day := by
  obtain ⟨M, hM⟩ : ∃ M, M = (5 * n + 2) / 153 := ⟨_, rfl⟩
  have hMc := twelve (M := M) (by omega)
  have h5 : (5 * n + 2) % 153 = 5 * n + 2 - 153 * M := by omega
  simp only [dateOf, ValidDate, monthLength, ← hM, h5]
  rcases hMc with h|h|h|h|h|h|h|h|h|h|h|h <;> subst h <;> simp
  all_goals try omega
  -- February
  have hY : Y - 4716 + 1 = Y - 4715 := by omega
  rw [hY]
  by_cases h365 : n = 365
  · simp [hl h365]; omega
  · split <;> omega

theorem ccd_valid_jul {j c : Int} (h : j < c) :
    let t := computeCalendarDate j (some c)
    ValidDate julianLeap t.year t.month t.day := by
  have hu : (0:Int) = cutoffMask (some c) j := by
    simp [cutoffMask, *]
  rw [computeCalendarDate_eq j (some c) 0 hu]
  apply dateOf_valid
  · omega
  · intro h
    simp only [julianLeap, beq_iff_eq]
    omega

theorem ccd_valid_greg {j : Int} {o : Option Int}
    (ho : o = none ∨ ∃ c, o = some c ∧ c ≤ j) :
    let t := computeCalendarDate j o
    ValidDate gregorianLeap t.year t.month t.day := by
  have hu : (1:Int) = cutoffMask o j := by
    rcases ho with rfl | ⟨c, rfl, h⟩ <;> simp [cutoffMask, *]
  rw [computeCalendarDate_eq j o 1 hu]
  apply dateOf_valid
  · omega
  · generalize hf : j + 1401 + 1 * dateCorr j = f
    generalize hY : (4 * f + 3) / 1461 = Y
    intro h
    have hc := century j _ f Y rfl (by rw [← hf]; simp [dateCorr]) hY
    have h4 : (Y - 4715) % 4 = 0 := by
      have := leapday f h
      rw [hY] at this
      clear hc
      omega
    simp only [gregorianLeap, bne_iff_ne, Bool.and_eq_true, beq_iff_eq, Bool.or_eq_true]
    refine ⟨h4, ?_⟩
    by_contra hcon
    -- a century year not divisible by 400: Y + 184 = 100 q + 99
    obtain ⟨q, hq⟩ : ∃ q, Y = 100 * q + 15 := ⟨(Y - 15) / 100, by omega⟩
    generalize hcc : (4 * j + 274277) / 146097 = c at hc
    have hq4 : q % 4 ≠ 3 := by omega
    have hcorr : dateCorr j = c * 3 / 4 - 38 := by simp [dateCorr, hcc]
    obtain ⟨k, r, rfl, h0, h3⟩ : ∃ k r, q = 4 * k + r ∧ 0 ≤ r ∧ r ≤ 3 :=
      ⟨q/4, q%4, by omega, by omega, by omega⟩
    have hf2 := fq f
    rw [hY, h] at hf2
    rw [hcorr] at hf
    have hcb : 146097 * c ≤ 4 * j + 274277 ∧ 4 * j + 274277 < 146097 * c + 146097 := by omega
    have hY2 : (Y + 184) / 100 = 4 * k + r + 1 := by omega
    rw [hY2] at hc
    have hr : r = 0 ∨ r = 1 ∨ r = 2 := by omega
    clear hY hcc hcorr hcon h hq4 hY2
    subst hq
    rcases hr with h|h|h <;> subst h
    · have : (4 * k + 0 + 1) * 3 / 4 = 3 * k := by omega
      rw [this] at hc
      omega
    · have : (4 * k + 1 + 1) * 3 / 4 = 3 * k + 1 := by omega
      rw [this] at hc
      omega
    · have : (4 * k + 2 + 1) * 3 / 4 = 3 * k + 2 := by omega
      rw [this] at hc
      omega

/-! ### Month structure -/

theorem julianDay_overflow (y m d k : Int) (o : Option Int) :
    julianDay y (m + 12 * k) d o = julianDay (y + k) m d o := by
  have h1 : (m + 12 * k - 1) / 12 = (m - 1) / 12 + k := by omega
  have h2 : (m + 12 * k - 1) % 12 = (m - 1) % 12 := by omega
  have h3 : y + ((m - 1) / 12 + k) = y + k + (m - 1) / 12 := by omega
  simp only [julianDay, h1, h2, h3]

theorem jdJ_overflow (y m d k : Int) : jdJ y (m + 12 * k) d = jdJ (y + k) m d := by
  have h1 : (m + 12 * k - 1) / 12 = (m - 1) / 12 + k := by omega
  have h2 : (m + 12 * k - 1) % 12 = (m - 1) % 12 := by omega
  have h3 : y + ((m - 1) / 12 + k) = y + k + (m - 1) / 12 := by omega
  simp only [jdJ, h1, h2, h3]

theorem twelve' {M : Int} (h : 1 ≤ M ∧ M ≤ 12) : M = 1 ∨ M = 2 ∨ M = 3 ∨ M = 4 ∨ M = 5 ∨
    M = 6 ∨ M = 7 ∨ M = 8 ∨ M = 9 ∨ M = 10 ∨ M = 11 ∨ M = 12 := by omega

/-- Length in days of the March-based year ending in February of year `y`, Julian calendar. -/
theorem year_step (y : Int) :
    1461 * (y + 4716) / 4 = 1461 * (y + 4715) / 4 + (if y % 4 = 0 then 366 else 365) := by
  obtain ⟨q, v, rfl, h0, h3⟩ : ∃ q v, y = 4 * q + v ∧ 0 ≤ v ∧ v ≤ 3 :=
    ⟨y/4, y%4, by omega, by omega, by omega⟩
  have hv : v = 0 ∨ v = 1 ∨ v = 2 ∨ v = 3 := by omega
  rcases hv with h|h|h|h <;> subst h <;> split <;> omega

/-- The Gregorian correction changes exactly in centurial years not divisible by 400. -/
theorem century_step (y : Int) :
    (y + 4900) / 100 * 3 / 4 = (y + 4899) / 100 * 3 / 4 +
      (if y % 100 = 0 ∧ y % 400 ≠ 0 then 1 else 0) := by
  by_cases h : y % 100 = 0
  · obtain ⟨q, rfl⟩ : ∃ q, y = 100 * q := ⟨y/100, by omega⟩
    have h1 : (100 * q + 4900) / 100 = q + 49 := by omega
    have h2 : (100 * q + 4899) / 100 = q + 48 := by omega
    rw [h1, h2]
    obtain ⟨k, r, rfl, h0, h3⟩ : ∃ k r, q = 4 * k + r ∧ 0 ≤ r ∧ r ≤ 3 :=
      ⟨q/4, q%4, by omega, by omega, by omega⟩
    have hv : r = 0 ∨ r = 1 ∨ r = 2 ∨ r = 3 := by omega
    rcases hv with h|h|h|h <;> subst h <;> split <;> omega
  · have : (y + 4900) / 100 = (y + 4899) / 100 := by omega
    rw [this, if_neg (by omega)]; omega

theorem jdG_month_step (y m d : Int) (h : 1 ≤ m ∧ m ≤ 12) :
    julianDay y (m + 1) d none = julianDay y m d none + monthLength gregorianLeap y m := by
  rcases twelve' h with h|h|h|h|h|h|h|h|h|h|h|h <;> subst h <;>
    simp [julianDay, monthLength, cutoffMask]
  all_goals try omega
  rotate_left
  · rw [show y + 1 + 4716 - 1 = y + 4716 by omega]; omega
  have h1 := year_step y
  have h2 := century_step y
  have e1 : y + 4716 - 1 = y + 4715 := by omega
  have e2 : y + 4716 + 184 = y + 4900 := by omega
  have e3 : y + 4715 + 184 = y + 4899 := by omega
  rw [e1, e2, e3, h1, h2]
  simp only [gregorianLeap, Bool.and_eq_true, beq_iff_eq, Bool.or_eq_true, bne_iff_ne]
  by_cases h4 : y % 4 = 0 <;> by_cases h100 : y % 100 = 0 <;> by_cases h400 : y % 400 = 0 <;>
    simp [h4, h100, h400] <;> omega

theorem jdJ_month_step (y m d : Int) (h : 1 ≤ m ∧ m ≤ 12) :
    jdJ y (m + 1) d = jdJ y m d + monthLength julianLeap y m := by
  rcases twelve' h with h|h|h|h|h|h|h|h|h|h|h|h <;> subst h <;>
    simp [jdJ, monthLength]
  all_goals try omega
  have h1 := year_step y
  have e1 : y + 4716 - 1 = y + 4715 := by omega
  rw [e1, h1]
  simp only [julianLeap, beq_iff_eq]
  split <;> omega

theorem monthLength_pos (leap : Int → Bool) (y m : Int) : 28 ≤ monthLength leap y m := by
  unfold monthLength; split <;> (try split) <;> omega

theorem nextDay_valid (leap : Int → Bool) (y m d : Int) (h : ValidDate leap y m d) :
    ValidDate leap (nextDay leap y m d).1 (nextDay leap y m d).2.1 (nextDay leap y m d).2.2 := by
  obtain ⟨a, b, c, e⟩ := h
  unfold nextDay
  split
  · exact ⟨a, b, by show 1 ≤ d + 1; omega, by show d + 1 ≤ _; simp only; omega⟩
  · split
    · exact ⟨by show 1 ≤ m + 1; omega, by show m + 1 ≤ 12; omega, le_refl _, by
        have := monthLength_pos leap y (m + 1)
        simp only; omega⟩
    · exact ⟨le_refl _, by show (1:Int) ≤ 12; decide, le_refl _, by simp [monthLength]⟩

theorem julianDay_day (y m d k : Int) : julianDay y m (d + k) none = julianDay y m d none + k := by
  simp [julianDay, cutoffMask]; omega

theorem jdJ_day (y m d k : Int) : jdJ y m (d + k) = jdJ y m d + k := by
  simp [jdJ]; omega

/-! ### Abstract consequences of the month structure -/

/-- A day count that is linear in the day, treats month 13 as January of the next year, and whose
months have the calendar's lengths. -/
structure MonthStructure (leap : Int → Bool) (J : Int → Int → Int → Int) : Prop where
  overflow : ∀ y d, J y 13 d = J (y + 1) 1 d
  step : ∀ y m d, 1 ≤ m ∧ m ≤ 12 → J y (m + 1) d = J y m d + monthLength leap y m
  lin : ∀ y m d k, J y m (d + k) = J y m d + k

theorem greg_structure : MonthStructure gregorianLeap (fun y m d => julianDay y m d none) where
  overflow y d := by simpa using julianDay_overflow y 1 d 1 none
  step := jdG_month_step
  lin := julianDay_day

theorem jul_structure : MonthStructure julianLeap jdJ where
  overflow y d := by simpa using jdJ_overflow y 1 d 1
  step := jdJ_month_step
  lin := jdJ_day

namespace MonthStructure
variable {leap : Int → Bool} {J : Int → Int → Int → Int} (S : MonthStructure leap J)
include S

theorem lin1 (y m d : Int) : J y m d = J y m 1 + (d - 1) := by
  have := S.lin y m 1 (d - 1)
  rwa [show 1 + (d - 1) = d by omega] at this

theorem counts : CountsDays leap J := by
  intro y m d ⟨h1, h2, h3, h4⟩
  unfold nextDay
  split
  · simp only; exact S.lin ..
  · have hd : d = monthLength leap y m := by omega
    split
    · simp only
      rw [S.step y m 1 ⟨h1, h2⟩, S.lin1 y m d]; omega
    · have hm : m = 12 := by omega
      subst hm
      simp only
      rw [← S.overflow, show (13:Int) = 12 + 1 by rfl, S.step y 12 1 ⟨by omega, by omega⟩,
        S.lin1 y 12 d]
      omega

/-- First day of the `n`-th month after month `m` of the same year (within the year). -/
theorem month_lt {y m m' : Int} (h1 : 1 ≤ m) (h12 : m' ≤ 13) (h : m < m') :
    J y m 1 + monthLength leap y m ≤ J y m' 1 := by
  obtain ⟨n, rfl⟩ : ∃ n : Nat, m' = m + 1 + n := ⟨(m' - m - 1).toNat, by omega⟩
  induction n with
  | zero =>
    rw [show m + 1 + ((0:Nat):Int) = m + 1 by omega, S.step y m 1 (by omega)]
  | succ k ih =>
    have := ih (by omega) (by omega)
    rw [show m + 1 + ((k + 1 : Nat):Int) = (m + 1 + k) + 1 by omega,
      S.step y (m + 1 + k) 1 (by omega)]
    have := monthLength_pos leap y (m + 1 + k)
    omega

theorem year_lt {y y' : Int} (h : y < y') : J (y + 1) 1 1 ≤ J y' 1 1 := by
  obtain ⟨n, rfl⟩ : ∃ n : Nat, y' = y + 1 + n := ⟨(y' - y - 1).toNat, by omega⟩
  induction n with
  | zero => simp
  | succ k ih =>
    have := ih (by omega)
    have h2 := S.month_lt (y := y + 1 + k) (m := 1) (m' := 13) (by omega) (by omega) (by omega)
    rw [S.overflow] at h2
    have := monthLength_pos leap (y + 1 + k) 1
    rw [show y + 1 + ((k + 1 : Nat):Int) = (y + 1 + k) + 1 by omega]
    omega

theorem strictMono {y m d y' m' d' : Int} (hv : ValidDate leap y m d)
    (hv' : ValidDate leap y' m' d') (h : DateLt y m d y' m' d') : J y m d < J y' m' d' := by
  obtain ⟨a1, a2, a3, a4⟩ := hv
  obtain ⟨b1, b2, b3, b4⟩ := hv'
  have e := S.lin1 y m d
  have e' := S.lin1 y' m' d'
  rcases h with h | ⟨rfl, h | ⟨rfl, h⟩⟩
  · have h1 := S.month_lt (y := y) (m := m) (m' := 13) a1 (by omega) (by omega)
    rw [S.overflow] at h1
    have h2 := S.year_lt h
    have h3 : J y' 1 1 ≤ J y' m' 1 := by
      rcases Int.lt_or_le 1 m' with hm | hm
      · have := S.month_lt (y := y') (m := 1) (m' := m') (by omega) (by omega) hm
        have := monthLength_pos leap y' 1
        omega
      · rw [show m' = 1 by omega]
    omega
  · have := S.month_lt (y := y) (m := m) (m' := m') a1 (by omega) h
    omega
  · omega

theorem inj {y m d y' m' d' : Int} (hv : ValidDate leap y m d) (hv' : ValidDate leap y' m' d')
    (h : J y m d = J y' m' d') : y = y' ∧ m = m' ∧ d = d' := by
  by_contra hne
  have : DateLt y m d y' m' d' ∨ DateLt y' m' d' y m d := by
    unfold DateLt; omega
  rcases this with h' | h'
  · have := S.strictMono hv hv' h'; omega
  · have := S.strictMono hv' hv h'; omega

/-- A consecutive numbering that agrees with `J` on one date agrees on all valid dates. -/
theorem unique {D : Int → Int → Int → Int} (hD : CountsDays leap D) (Y : Int)
    (h0 : D Y 1 1 = J Y 1 1) {y m d : Int} (hv : ValidDate leap y m d) : D y m d = J y m d := by
  -- E := D - J is constant inside months and across month ends
  have day : ∀ (y m : Int) (n : Nat), 1 ≤ m ∧ m ≤ 12 → (n:Int) + 1 ≤ monthLength leap y m →
      D y m (n + 1) - J y m (n + 1) = D y m 1 - J y m 1 := by
    intro y m n hm
    induction n with
    | zero => intro _; rfl
    | succ k ih =>
      intro hk
      have hval : ValidDate leap y m (k + 1) := ⟨hm.1, hm.2, by omega, by omega⟩
      have := hD y m (k + 1) hval
      have h2 := S.counts y m (k + 1) hval
      have hnd : nextDay leap y m (k + 1) = (y, m, (k:Int) + 1 + 1) := by
        unfold nextDay; rw [if_pos (by omega)]
      rw [hnd] at this h2
      simp only at this h2
      have := ih (by omega)
      rw [show ((k + 1 : Nat) : Int) + 1 = (k:Int) + 1 + 1 by omega]
      omega
  have mon : ∀ (y m : Int), 1 ≤ m ∧ m ≤ 11 → D y (m+1) 1 - J y (m+1) 1 = D y m 1 - J y m 1 := by
    intro y m hm
    have hp := monthLength_pos leap y m
    have hval : ValidDate leap y m (monthLength leap y m) := ⟨hm.1, by omega, by omega, by omega⟩
    have h1 := hD _ _ _ hval
    have h2 := S.counts _ _ _ hval
    have hnd : nextDay leap y m (monthLength leap y m) = (y, m + 1, 1) := by
      unfold nextDay; rw [if_neg (by omega), if_pos (by omega)]
    rw [hnd] at h1 h2
    have h3 := day y m (monthLength leap y m - 1).toNat ⟨hm.1, by omega⟩ (by omega)
    rw [show (((monthLength leap y m - 1).toNat : Nat) : Int) + 1 = monthLength leap y m by omega] at h3
    simp only at h1 h2
    omega
  have yr : ∀ y : Int, D (y+1) 1 1 - J (y+1) 1 1 = D y 12 1 - J y 12 1 := by
    intro y
    have hp := monthLength_pos leap y 12
    have hval : ValidDate leap y 12 (monthLength leap y 12) := ⟨by omega, by omega, by omega, by omega⟩
    have h1 := hD _ _ _ hval
    have h2 := S.counts _ _ _ hval
    have hnd : nextDay leap y 12 (monthLength leap y 12) = (y + 1, 1, 1) := by
      unfold nextDay; rw [if_neg (by omega), if_neg (by omega)]
    rw [hnd] at h1 h2
    have h3 := day y 12 (monthLength leap y 12 - 1).toNat (by omega) (by omega)
    rw [show (((monthLength leap y 12 - 1).toNat : Nat) : Int) + 1 = monthLength leap y 12 by omega] at h3
    simp only at h1 h2
    omega
  have monAll : ∀ (y m : Int), 1 ≤ m ∧ m ≤ 12 → D y m 1 - J y m 1 = D y 1 1 - J y 1 1 := by
    intro y m hm
    rcases twelve' hm with h|h|h|h|h|h|h|h|h|h|h|h <;> subst h <;>
    (have a1 := mon y 1 (by omega); have a2 := mon y 2 (by omega); have a3 := mon y 3 (by omega)
     have a4 := mon y 4 (by omega); have a5 := mon y 5 (by omega); have a6 := mon y 6 (by omega)
     have a7 := mon y 7 (by omega); have a8 := mon y 8 (by omega); have a9 := mon y 9 (by omega)
     have a10 := mon y 10 (by omega); have a11 := mon y 11 (by omega)
     norm_num at a1 a2 a3 a4 a5 a6 a7 a8 a9 a10 a11
     omega)
  have yrAll : ∀ y : Int, D y 1 1 - J y 1 1 = 0 := by
    have up : ∀ n : Nat, D (Y + n) 1 1 - J (Y + n) 1 1 = 0 := by
      intro n
      induction n with
      | zero => simp; omega
      | succ k ih =>
        rw [show Y + ((k+1 : Nat):Int) = (Y + k) + 1 by omega, yr, monAll _ 12 (by omega), ih]
    have down : ∀ n : Nat, D (Y - n) 1 1 - J (Y - n) 1 1 = 0 := by
      intro n
      induction n with
      | zero => simp; omega
      | succ k ih =>
        have := yr (Y - ((k + 1 : Nat):Int))
        rw [monAll _ 12 (by omega), show Y - ((k + 1 : Nat):Int) + 1 = Y - k by omega, ih] at this
        omega
    intro y
    rcases Int.lt_or_le y Y with h | h
    · have := down (Y - y).toNat
      rwa [show Y - (((Y - y).toNat : Nat) : Int) = y by omega] at this
    · have := up (y - Y).toNat
      rwa [show Y + (((y - Y).toNat : Nat) : Int) = y by omega] at this
  obtain ⟨h1, h2, h3, h4⟩ := hv
  have hd := day y m (d - 1).toNat ⟨h1, h2⟩ (by omega)
  rw [show (((d - 1).toNat : Nat) : Int) + 1 = d by omega] at hd
  have := monAll y m ⟨h1, h2⟩
  have := yrAll y
  omega

end MonthStructure
end Skyfield
