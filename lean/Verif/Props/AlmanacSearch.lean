import Verif.Model.AlmanacSearch
import Verif.Props.SectorSearch
import Verif.Props.Almanac
import Verif.Props.EarthMotion

/-
C115: what `find_discrete` reports for `seasons`, `moon_phases`, `solar_terms`, `oppositions_conjunctions` and `moon_nodes`.
-/
namespace Skyfield
open _root_.Spec Real

/-- Specification: the ecliptic latitude and longitude of date, as `frame_latlon(ecliptic_frame)` gives them. -/
noncomputable def eclipticLat (s : SkyTime) (v : Vec3) : ℝ := (frameLatlon eclipticFrame s v).2.1
noncomputable def eclipticLon (s : SkyTime) (v : Vec3) : ℝ := (frameLatlon eclipticFrame s v).2.2

/-- Specification: `L` is, up to whole turns, the quantity `q` computed from the Earth of date by the nutation series given. -/
def IsAngle (ts : Timescale ℝ) (series : NutationSeries) (lo hi : ℝ) (q : ℝ → SkyTime → ℝ) (L : ℝ → ℝ) : Prop :=
  ∀ jd s, lo ≤ jd → jd ≤ hi → (ts.ttJd jd none).sky series = some s → ∃ n : ℤ, L jd = q jd s + 2 * π * n

/-- The part of a turn that an angle is in, counted on, modulo the number of parts. -/
theorem part_of {k : ℕ} (hk : 0 < k) {x y : ℝ} (h : ∃ n : ℤ, y = x + 2 * π * n) :
    astypeInt (pyMod (pyFloorDiv x (tau / k)) k) = ⌊y / (2 * π / k)⌋ % k := by
  obtain ⟨n, rfl⟩ := h
  have hp := pi_pos
  have hk0 : (0 : ℝ) < k := by exact_mod_cast hk
  rw [turnPart_iff k hk]
  set q := ⌊(x + 2 * π * n) / (2 * π / k)⌋ with hq
  have e : tau / k = 2 * π / k := rfl
  rw [e]
  have hw : 0 < 2 * π / k := by positivity
  have h1 := Int.floor_le ((x + 2 * π * n) / (2 * π / k))
  have h2 := Int.lt_floor_add_one ((x + 2 * π * n) / (2 * π / k))
  rw [← hq] at h1 h2
  rw [le_div_iff₀ hw] at h1
  rw [div_lt_iff₀ hw] at h2
  have hd : (q : ℝ) = ((q % (k : ℤ) : ℤ) : ℝ) + k * ((q / (k : ℤ) : ℤ) : ℝ) := by exact_mod_cast (Int.emod_add_mul_ediv q (k : ℤ)).symm
  have hwk : k * (2 * π / k) = 2 * π := by field_simp
  refine ⟨Int.emod_nonneg _ (by omega), Int.emod_lt_of_pos _ (by omega), q / (k : ℤ) - n, ?_⟩
  unfold tau
  generalize ((q % (k : ℤ) : ℤ) : ℝ) = r at *
  push_cast
  generalize ((q / (k : ℤ) : ℤ) : ℝ) = z at *
  generalize 2 * π / (k : ℝ) = w at *
  rw [hd] at h1 h2
  have e1 : (r + k * z) * w = r * w + 2 * π * z := by rw [← hwk]; ring
  have e2 : (r + k * z + 1) * w = (r + 1) * w + 2 * π * z := by rw [← hwk]; ring
  rw [e1] at h1
  rw [e2] at h2
  constructor <;> linarith

private theorem half_of {x y : ℝ} (sl tl : ℝ) (hx : x = sl - tl) (h : ∃ n : ℤ, y = x + 2 * π * n) :
    leadingOrTrailing sl tl = ⌊y / (2 * π / (2 : ℕ))⌋ % (2 : ℕ) := by
  have hp := pi_pos
  obtain ⟨h1, h2, -⟩ := C47_opposition sl tl
  obtain ⟨n, rfl⟩ := h
  have e : 2 * π / ((2 : ℕ) : ℝ) = π := by push_cast; ring
  rw [e]
  subst hx
  set q := ⌊(sl - tl + 2 * π * n) / π⌋ with hq
  have f1 := Int.floor_le ((sl - tl + 2 * π * n) / π)
  have f2 := Int.lt_floor_add_one ((sl - tl + 2 * π * n) / π)
  rw [← hq] at f1 f2
  rw [le_div_iff₀ hp] at f1
  rw [div_lt_iff₀ hp] at f2
  have hz : leadingOrTrailing sl tl = 0 ↔ q % 2 = 0 := by
    rw [h2]
    constructor
    · rintro ⟨m, m1, m2⟩
      have hqe : q = 2 * (m + n) := by
        rw [hq, Int.floor_eq_iff, le_div_iff₀ hp, div_lt_iff₀ hp]
        push_cast
        constructor <;> linarith
      omega
    · intro h0
      obtain ⟨z, hz⟩ : ∃ z, q = 2 * z := ⟨q / 2, by omega⟩
      rw [hz] at f1 f2
      push_cast at f1 f2
      refine ⟨z - n, ?_, ?_⟩ <;> push_cast <;> linarith
  push_cast
  rcases h1 with h1 | h1
  · rw [h1]; exact (hz.1 h1).symm
  · have : ¬ q % 2 = 0 := fun h0 => by rw [hz.2 h0] at h1; omega
    omega

/-- **C115.** A search of `seasons` reports each equinox and solstice, if the Sun gains less than three quarters of a turn in under 90 days. -/
theorem C115_seasons (ts : Timescale ℝ) (sun : ℝ → Vec3) {jd0 jd1 epsilon d : ℝ} {L : ℝ → ℝ}
    (hlon : IsAngle ts .iau2000b jd0 jd1 (fun jd s => eclipticLon s (sun jd)) L) (hL : Growing jd0 jd1 L)
    (hgain : GainsLess jd0 jd1 90 (3 * π / 2) L) (hsmall : GainsLess jd0 jd1 d (π / 2) L) (hd : epsilon < d) {num fuel : ℕ} (hnum : 2 ≤ num)
    {events : List (ℝ × Option ℤ)} (h : findDiscrete jd0 jd1 (seasons ts sun) epsilon num fuel = .ok (some events)) :
    Reports (fun c => jd0 < c ∧ c ≤ jd1 ∧ ∃ n : ℤ, L c = π / 2 * n) epsilon events ∧
      ∀ e ∈ events, ∀ c, ∀ n : ℤ, jd0 < c → c ≤ jd1 → L c = π / 2 * n → c ≤ e.1 → e.1 ≤ c + epsilon → e.2 = some (n % 4) := by
  have e4 : 2 * π / ((4 : ℕ) : ℝ) = π / 2 := by push_cast; ring
  have hf : ∀ t, jd0 ≤ t → t ≤ jd1 → (seasons ts sun).call t = some (⌊L t / (2 * π / (4 : ℕ))⌋ % (4 : ℕ)) := by
    intro t h1 h2
    obtain ⟨s, hs⟩ := (ts.ttJd t none).sky_defined .iau2000b
    have := part_of (k := 4) (by norm_num) (hlon t s h1 h2 hs)
    unfold seasons
    simp only [hs, Option.map_some, Option.some.injEq]
    unfold seasonAt
    exact_mod_cast this
  have := C115_sectors (k := 4) (by norm_num) hL (step := 90) (d := d) (by rw [e4]; convert hgain using 1; ring) (by rw [e4]; exact hsmall) hd hnum rfl
    (by norm_num) (Option.some_injective ℤ) hf h
  rw [e4] at this
  exact_mod_cast this

/-- **C115.** A search of `moon_phases` reports each new moon, quarter and full moon, if the Moon gains less than three quarters of a turn on the Sun
in under 7 days. -/
theorem C115_moon_phases (ts : Timescale ℝ) (moon sun : ℝ → Vec3) {jd0 jd1 epsilon d : ℝ} {L : ℝ → ℝ}
    (hlon : IsAngle ts .iau2000b jd0 jd1 (fun jd s => eclipticLon s (moon jd) - eclipticLon s (sun jd)) L) (hL : Growing jd0 jd1 L)
    (hgain : GainsLess jd0 jd1 7 (3 * π / 2) L) (hsmall : GainsLess jd0 jd1 d (π / 2) L) (hd : epsilon < d) {num fuel : ℕ} (hnum : 2 ≤ num)
    {events : List (ℝ × Option ℤ)} (h : findDiscrete jd0 jd1 (moonPhases ts moon sun) epsilon num fuel = .ok (some events)) :
    Reports (fun c => jd0 < c ∧ c ≤ jd1 ∧ ∃ n : ℤ, L c = π / 2 * n) epsilon events ∧
      ∀ e ∈ events, ∀ c, ∀ n : ℤ, jd0 < c → c ≤ jd1 → L c = π / 2 * n → c ≤ e.1 → e.1 ≤ c + epsilon → e.2 = some (n % 4) := by
  have e4 : 2 * π / ((4 : ℕ) : ℝ) = π / 2 := by push_cast; ring
  have hf : ∀ t, jd0 ≤ t → t ≤ jd1 → (moonPhases ts moon sun).call t = some (⌊L t / (2 * π / (4 : ℕ))⌋ % (4 : ℕ)) := by
    intro t h1 h2
    obtain ⟨s, hs⟩ := (ts.ttJd t none).sky_defined .iau2000b
    have := part_of (k := 4) (by norm_num) (hlon t s h1 h2 hs)
    unfold moonPhases
    simp only [hs, Option.map_some, Option.some.injEq]
    unfold moonPhaseAt
    exact_mod_cast this
  have := C115_sectors (k := 4) (by norm_num) hL (step := 7) (d := d) (by rw [e4]; convert hgain using 1; ring) (by rw [e4]; exact hsmall) hd hnum rfl
    (by norm_num) (Option.some_injective ℤ) hf h
  rw [e4] at this
  exact_mod_cast this

/-- **C115.** A search of `solar_terms` reports each of the 24 terms of the year, if the Sun gains less than 23 of them in under 14 days. -/
theorem C115_solar_terms (ts : Timescale ℝ) (sun : ℝ → Vec3) {jd0 jd1 epsilon d : ℝ} {L : ℝ → ℝ}
    (hlon : IsAngle ts .iau2000b jd0 jd1 (fun jd s => eclipticLon s (sun jd)) L) (hL : Growing jd0 jd1 L)
    (hgain : GainsLess jd0 jd1 14 (23 * π / 12) L) (hsmall : GainsLess jd0 jd1 d (π / 12) L) (hd : epsilon < d) {num fuel : ℕ} (hnum : 2 ≤ num)
    {events : List (ℝ × Option ℤ)} (h : findDiscrete jd0 jd1 (solarTerms ts sun) epsilon num fuel = .ok (some events)) :
    Reports (fun c => jd0 < c ∧ c ≤ jd1 ∧ ∃ n : ℤ, L c = π / 12 * n) epsilon events ∧
      ∀ e ∈ events, ∀ c, ∀ n : ℤ, jd0 < c → c ≤ jd1 → L c = π / 12 * n → c ≤ e.1 → e.1 ≤ c + epsilon → e.2 = some (n % 24) := by
  have e4 : 2 * π / ((24 : ℕ) : ℝ) = π / 12 := by push_cast; ring
  have hf : ∀ t, jd0 ≤ t → t ≤ jd1 → (solarTerms ts sun).call t = some (⌊L t / (2 * π / (24 : ℕ))⌋ % (24 : ℕ)) := by
    intro t h1 h2
    obtain ⟨s, hs⟩ := (ts.ttJd t none).sky_defined .iau2000b
    have := part_of (k := 24) (by norm_num) (hlon t s h1 h2 hs)
    unfold solarTerms eclipticLatlon resolveEpoch
    simp only [hs, Option.bind_some, Option.some.injEq]
    unfold solarTermAt
    exact_mod_cast this
  have := C115_sectors (k := 24) (by norm_num) hL (step := 14) (d := d) (by rw [e4]; convert hgain using 1; ring) (by rw [e4]; exact hsmall) hd hnum rfl
    (by norm_num) (Option.some_injective ℤ) hf h
  rw [e4] at this
  exact_mod_cast this

theorem opposition_call (ts : Timescale ℝ) (code : ℤ) (target sun : ℝ → Vec3) {jd0 jd1 : ℝ} {L : ℝ → ℝ}
    (hlon : IsAngle ts .iau2000a jd0 jd1 (fun jd s => eclipticLon s (sun jd) - eclipticLon s (target jd)) L) (t : ℝ) (h1 : jd0 ≤ t) (h2 : t ≤ jd1) :
    (oppositionsConjunctions ts code target sun).call t = some (⌊L t / (2 * π / (2 : ℕ))⌋ % (2 : ℕ)) := by
  obtain ⟨s, hs⟩ := (ts.ttJd t none).sky_defined .iau2000a
  have := half_of (eclipticLon s (sun t)) (eclipticLon s (target t)) rfl (hlon t s h1 h2 hs)
  unfold oppositionsConjunctions
  simp only [hs, Option.map_some, Option.some.injEq]
  exact this

/-- **C115.** A search of `oppositions_conjunctions` for a target on which the Sun gains, but less than half a turn in under 40 days, reports each
conjunction as 0 and each opposition as 1. -/
theorem C115_oppositions (ts : Timescale ℝ) {code : ℤ} (hcode : code ≠ 301) (target sun : ℝ → Vec3) {jd0 jd1 epsilon d : ℝ} {L : ℝ → ℝ}
    (hlon : IsAngle ts .iau2000a jd0 jd1 (fun jd s => eclipticLon s (sun jd) - eclipticLon s (target jd)) L) (hL : Growing jd0 jd1 L)
    (hgain : GainsLess jd0 jd1 40 π L) (hsmall : GainsLess jd0 jd1 d π L) (hd : epsilon < d) {num fuel : ℕ} (hnum : 2 ≤ num)
    {events : List (ℝ × Option ℤ)} (h : findDiscrete jd0 jd1 (oppositionsConjunctions ts code target sun) epsilon num fuel = .ok (some events)) :
    Reports (fun c => jd0 < c ∧ c ≤ jd1 ∧ ∃ n : ℤ, L c = π * n) epsilon events ∧
      ∀ e ∈ events, ∀ c, ∀ n : ℤ, jd0 < c → c ≤ jd1 → L c = π * n → c ≤ e.1 → e.1 ≤ c + epsilon → e.2 = some (n % 2) := by
  have e4 : 2 * π / ((2 : ℕ) : ℝ) = π := by push_cast; ring
  have := C115_sectors (k := 2) (by norm_num) hL (step := 40) (d := d) (by rw [e4]; convert hgain using 1; ring) (by rw [e4]; exact hsmall) hd hnum
    (by unfold oppositionsConjunctions; rw [if_neg hcode]) (by norm_num) (Option.some_injective ℤ) (opposition_call ts code target sun hlon) h
  rw [e4] at this
  exact_mod_cast this

/-- **C115.** A search of `oppositions_conjunctions` for the Moon, or any body numbered 301, reports each of its conjunctions as 1 and each of its
oppositions as 0 if it gains on the Sun, but less than half a turn in under 14 days. -/
theorem C115_moon_conjunctions (ts : Timescale ℝ) (moon sun : ℝ → Vec3) {jd0 jd1 epsilon d : ℝ} {L : ℝ → ℝ}
    (hlon : IsAngle ts .iau2000a jd0 jd1 (fun jd s => eclipticLon s (sun jd) - eclipticLon s (moon jd)) L) (hL : Growing jd0 jd1 fun t => -L t)
    (hgain : GainsLess jd0 jd1 14 π fun t => -L t) (hsmall : GainsLess jd0 jd1 d π fun t => -L t) (hd : epsilon < d) {num fuel : ℕ}
    (hnum : 2 ≤ num) {events : List (ℝ × Option ℤ)}
    (h : findDiscrete jd0 jd1 (oppositionsConjunctions ts 301 moon sun) epsilon num fuel = .ok (some events)) :
    Reports (fun c => jd0 ≤ c ∧ c < jd1 ∧ ∃ n : ℤ, L c = π * n) epsilon events ∧
      ∀ e ∈ events, ∀ c, ∀ n : ℤ, jd0 ≤ c → c < jd1 → L c = π * n → c ≤ e.1 → e.1 ≤ c + epsilon → e.2 = some ((n - 1) % 2) := by
  have e4 : 2 * π / ((2 : ℕ) : ℝ) = π := by push_cast; ring
  have := C115_sectors_shrinking (k := 2) (by norm_num) hL (step := 14) (d := d) (by rw [e4]; convert hgain using 1; ring)
    (by rw [e4]; exact hsmall) hd hnum (by unfold oppositionsConjunctions; rw [if_pos rfl]) (by norm_num) (Option.some_injective ℤ)
    (opposition_call ts 301 moon sun hlon) h
  rw [e4] at this
  exact_mod_cast this

/-- **C115.** And if it gains more than half a turn in some stretch of under 14 days, from before a conjunction until after the opposition that
follows, then the search of that stretch reports nothing. -/
theorem C115_moon_conjunctions_missed (ts : Timescale ℝ) (moon sun : ℝ → Vec3) {jd0 jd1 : ℝ} (hlt : jd0 < jd1) (hshort : jd1 - jd0 < 14)
    {L : ℝ → ℝ} (hlon : IsAngle ts .iau2000a jd0 jd1 (fun jd s => eclipticLon s (sun jd) - eclipticLon s (moon jd)) L)
    (hL : Growing jd0 jd1 fun t => -L t) {n : ℤ} (h0 : 2 * π * n < L jd0) (h0' : L jd0 < 2 * π * n + π) (h1 : 2 * π * n - 2 * π ≤ L jd1)
    (h1' : L jd1 < 2 * π * n - π) (epsilon : ℝ) (num fuel : ℕ) :
    (∃ c, jd0 < c ∧ c < jd1 ∧ L c = 2 * π * n) ∧ (∃ c, jd0 < c ∧ c < jd1 ∧ L c = 2 * π * n - π) ∧
      findDiscrete jd0 jd1 (oppositionsConjunctions ts 301 moon sun) epsilon num (fuel + 1) = .ok (some []) := by
  have hp := pi_pos
  have hiv : ∀ y, L jd1 < y → y < L jd0 → ∃ c, jd0 < c ∧ c < jd1 ∧ L c = y := by
    intro y a b
    obtain ⟨c, hc, e⟩ := intermediate_value_Icc hlt.le hL.continuous (show -y ∈ Set.Icc (-L jd0) (-L jd1) from ⟨by linarith, by linarith⟩)
    have e := neg_injective e
    refine ⟨c, lt_of_le_of_ne hc.1 ?_, lt_of_le_of_ne hc.2 ?_, e⟩
    · rintro rfl; linarith
    · rintro rfl; linarith
  refine ⟨hiv _ (by linarith) h0, hiv _ h1' (by linarith), ?_⟩
  have e4 : 2 * π / ((2 : ℕ) : ℝ) = π := by push_cast; ring
  have c0 := opposition_call ts 301 moon sun hlon jd0 le_rfl hlt.le
  have c1 := opposition_call ts 301 moon sun hlon jd1 hlt.le le_rfl
  rw [e4] at c0 c1
  have q0 : ⌊L jd0 / π⌋ = 2 * n := by
    rw [Int.floor_eq_iff, le_div_iff₀ hp, div_lt_iff₀ hp]
    push_cast
    constructor <;> linarith
  have q1 : ⌊L jd1 / π⌋ = 2 * n - 2 := by
    rw [Int.floor_eq_iff, le_div_iff₀ hp, div_lt_iff₀ hp]
    push_cast
    constructor <;> linarith
  rw [q0] at c0
  rw [q1] at c1
  have hsame : (oppositionsConjunctions ts 301 moon sun).call jd0 = (oppositionsConjunctions ts 301 moon sun).call jd1 := by
    rw [c0, c1]
    congr 1
    push_cast
    omega
  exact C115_short_spell_missed (by unfold oppositionsConjunctions; rw [if_pos rfl]) hlt hshort hsame epsilon num fuel

/-- **C115.** A search of `moon_nodes` reports each passage of the Moon through the ecliptic, `True` for those upwards, if `u`, an angle in whose upper
half turn the Moon is above the ecliptic, gains less than half a turn in under 12 days. -/
theorem C115_moon_nodes (ts : Timescale ℝ) (moon : ℝ → Vec3) {jd0 jd1 epsilon d : ℝ} {u : ℝ → ℝ}
    (hlat : ∀ jd s, jd0 ≤ jd → jd ≤ jd1 → (ts.ttJd jd none).sky = some s → (0 < eclipticLat s (moon jd) ↔ 0 < sin (u jd)))
    (hu : Growing jd0 jd1 u) (hgain : GainsLess jd0 jd1 12 π u) (hsmall : GainsLess jd0 jd1 d π u) (hd : epsilon < d) {num fuel : ℕ}
    (hnum : 2 ≤ num) {events : List (ℝ × Option Bool)}
    (h : findDiscrete jd0 jd1 (moonNodes ts moon) epsilon num fuel = .ok (some events)) :
    Reports (fun c => (jd0 ≤ c ∧ c < jd1 ∧ ∃ n : ℤ, u c = 2 * π * n) ∨ (jd0 < c ∧ c ≤ jd1 ∧ ∃ n : ℤ, u c = 2 * π * n + π)) epsilon events ∧
      ∀ e ∈ events, ∀ c, ∀ n : ℤ, c ≤ e.1 → e.1 ≤ c + epsilon →
        (jd0 ≤ c → c < jd1 → u c = 2 * π * n → e.2 = some true) ∧ (jd0 < c → c ≤ jd1 → u c = 2 * π * n + π → e.2 = some false) := by
  refine C115_upper_half hu hgain hsmall hd hnum rfl (by norm_num) (by simp) ?_ h
  intro t h1 h2
  obtain ⟨s, hs⟩ := (ts.ttJd t none).sky_defined
  have := hlat t s h1 h2 hs
  unfold moonNodes moonNodeAt
  simp only [hs, Option.map_some, Option.some.injEq, decide_eq_true_eq, decide_eq_false_iff_not]
  exact ⟨this.2, fun hn hc => absurd (this.1 hc) (not_lt.2 hn)⟩

/-- **C115.** A search of `oppositions_conjunctions` for an inner planet, one that stays within half a turn of the Sun and is east of it in the upper half
turn of an angle `u` that gains less than half a turn in under 40 days, reports as 1 the passages of the Sun eastwards, and as 0 those westwards. -/
theorem C115_inner_conjunctions (ts : Timescale ℝ) {code : ℤ} (hcode : code ≠ 301) (target sun : ℝ → Vec3) {jd0 jd1 epsilon d : ℝ} {L u : ℝ → ℝ}
    (hlon : IsAngle ts .iau2000a jd0 jd1 (fun jd s => eclipticLon s (target jd) - eclipticLon s (sun jd)) L)
    (hnear : ∀ jd, jd0 ≤ jd → jd ≤ jd1 → -π < L jd ∧ L jd < π ∧ (0 < L jd ↔ 0 < sin (u jd)))
    (hu : Growing jd0 jd1 u) (hgain : GainsLess jd0 jd1 40 π u) (hsmall : GainsLess jd0 jd1 d π u) (hd : epsilon < d) {num fuel : ℕ}
    (hnum : 2 ≤ num) {events : List (ℝ × Option ℤ)}
    (h : findDiscrete jd0 jd1 (oppositionsConjunctions ts code target sun) epsilon num fuel = .ok (some events)) :
    Reports (fun c => (jd0 ≤ c ∧ c < jd1 ∧ ∃ n : ℤ, u c = 2 * π * n) ∨ (jd0 < c ∧ c ≤ jd1 ∧ ∃ n : ℤ, u c = 2 * π * n + π)) epsilon events ∧
      ∀ e ∈ events, ∀ c, ∀ n : ℤ, c ≤ e.1 → e.1 ≤ c + epsilon →
        (jd0 ≤ c → c < jd1 → u c = 2 * π * n → e.2 = some 1) ∧ (jd0 < c → c ≤ jd1 → u c = 2 * π * n + π → e.2 = some 0) := by
  have hp := pi_pos
  refine C115_upper_half hu hgain hsmall hd hnum (by unfold oppositionsConjunctions; rw [if_neg hcode]) (by norm_num) (by simp) ?_ h
  intro t h1 h2
  obtain ⟨n1, n2, n3⟩ := hnear t h1 h2
  have hl : IsAngle ts .iau2000a jd0 jd1 (fun jd s => eclipticLon s (sun jd) - eclipticLon s (target jd)) fun t => -L t := by
    intro jd s k1 k2 k3
    obtain ⟨n, hn⟩ := hlon jd s k1 k2 k3
    refine ⟨-n, ?_⟩
    simp only at hn ⊢
    rw [hn]
    push_cast
    ring
  rw [opposition_call ts code target sun hl t h1 h2, show 2 * π / ((2 : ℕ) : ℝ) = π by push_cast; ring, ← n3, ← not_lt, ← n3, not_lt]
  constructor
  · intro hpos
    have : ⌊-L t / π⌋ = -1 := by
      rw [Int.floor_eq_iff, le_div_iff₀ hp, div_lt_iff₀ hp]
      push_cast
      constructor <;> linarith
    rw [this]
    rfl
  · intro hneg
    have : ⌊-L t / π⌋ = 0 := by
      rw [Int.floor_eq_iff, le_div_iff₀ hp, div_lt_iff₀ hp]
      push_cast
      constructor <;> linarith
    rw [this]
    rfl

/-! ### The horizon -/

/-- **C115.** A search of `sunrise_sunset` reports each sunrise and sunset, if no day or night is shorter than 0.04 days: `N` numbers the days and
nights, the days with even numbers. -/
theorem C115_sunrise {degrees : ℝ → ℝ} {jd0 jd1 epsilon : ℝ} {N : ℝ → ℤ} (hN : Monotone N)
    (hup : ∀ t, jd0 ≤ t → t ≤ jd1 → (-0.8333 ≤ degrees t ↔ Even (N t))) (hspell : ∀ a b, a ≤ b → b - a < 0.04 → N b ≤ N a + 1) (heps : 0 < epsilon)
    (heps' : epsilon < 0.04) {num fuel : ℕ} (hnum : 2 ≤ num) {events : List (ℝ × Bool)}
    (h : findDiscrete jd0 jd1 (sunriseSunset degrees) epsilon num fuel = .ok (some events)) :
    Reports (fun c => ∃ n, N jd0 < n ∧ n ≤ N jd1 ∧ Begins N n c) epsilon events ∧
      ∀ e ∈ events, ∀ c n, N jd0 < n → n ≤ N jd1 → Begins N n c → c ≤ e.1 → e.1 ≤ c + epsilon → e.2 = decide (Even n) := by
  have hf : ∀ t, jd0 ≤ t → t ≤ jd1 → (sunriseSunset degrees).call t = (fun n : ℤ => decide (Even n)) (N t) := by
    intro t h1 h2
    unfold sunriseSunset isSunUpAt
    simp only [ge_iff_le, hup t h1 h2]
  obtain ⟨hr, hv⟩ := C115_spells hN (F := fun n : ℤ => decide (Even n)) hf (step := 0.04) (fun a b h1 h2 h3 h4 h5 => by
    have e1 := hspell a b h2.le h4
    have e2 := hN h2.le
    have e3 : N b = N a + 1 := by omega
    simp only [e3, Int.even_add_one, ne_eq]
    by_cases he : Even (N a) <;> simp [he]) hspell heps heps' hnum rfl (by norm_num) h
  exact ⟨hr, fun e he c n h1 h2 h3 h4 h5 => (hv e he c n h1 h2 h3 h4 h5).1⟩

/-- **C115.** A search of `risings_and_settings` reports each rising and setting, if the body stays neither up nor down for less than 0.25 days. -/
theorem C115_risings {degrees : ℝ → ℝ} {horizon radius jd0 jd1 epsilon : ℝ} {N : ℝ → ℤ} (hN : Monotone N)
    (hup : ∀ t, jd0 ≤ t → t ≤ jd1 → (horizon < degrees t + radius ↔ Even (N t))) (hspell : ∀ a b, a ≤ b → b - a < 0.25 → N b ≤ N a + 1)
    (heps : 0 < epsilon) (heps' : epsilon < 0.25) {num fuel : ℕ} (hnum : 2 ≤ num) {events : List (ℝ × Bool)}
    (h : findDiscrete jd0 jd1 (risingsAndSettings horizon radius degrees) epsilon num fuel = .ok (some events)) :
    Reports (fun c => ∃ n, N jd0 < n ∧ n ≤ N jd1 ∧ Begins N n c) epsilon events ∧
      ∀ e ∈ events, ∀ c n, N jd0 < n → n ≤ N jd1 → Begins N n c → c ≤ e.1 → e.1 ≤ c + epsilon → e.2 = decide (Even n) := by
  have hf : ∀ t, jd0 ≤ t → t ≤ jd1 → (risingsAndSettings horizon radius degrees).call t = (fun n : ℤ => decide (Even n)) (N t) := by
    intro t h1 h2
    unfold risingsAndSettings
    simp only [C47_body_up, hup t h1 h2]
  obtain ⟨hr, hv⟩ := C115_spells hN (F := fun n : ℤ => decide (Even n)) hf (step := 0.25) (fun a b h1 h2 h3 h4 h5 => by
    have e1 := hspell a b h2.le h4
    have e2 := hN h2.le
    have e3 : N b = N a + 1 := by omega
    simp only [e3, Int.even_add_one, ne_eq]
    by_cases he : Even (N a) <;> simp [he]) hspell heps heps' hnum rfl (by norm_num) h
  exact ⟨hr, fun e he c n h1 h2 h3 h4 h5 => (hv e he c n h1 h2 h3 h4 h5).1⟩

/-- **C115.** A search of `dark_twilight_day` reports the beginning of each kind of light, even of those shorter than 0.04 days, if the light does not
return within 0.04 days to what it was. -/
theorem C115_twilight {degrees : ℝ → ℝ} {jd0 jd1 epsilon d : ℝ} {N : ℝ → ℤ} (hN : Monotone N) {F : ℤ → ℕ}
    (hF : ∀ t, jd0 ≤ t → t ≤ jd1 → darkTwilightDayAt (degrees t) = F (N t))
    (hreturn : ∀ a b, jd0 ≤ a → a < b → b ≤ jd1 → b - a < 0.04 → N a ≠ N b → F (N a) ≠ F (N b))
    (hspell : ∀ a b, a ≤ b → b - a < d → N b ≤ N a + 1) (heps : 0 < epsilon) (heps' : epsilon < d) {num fuel : ℕ} (hnum : 2 ≤ num)
    {events : List (ℝ × ℕ)} (h : findDiscrete jd0 jd1 (darkTwilightDay degrees) epsilon num fuel = .ok (some events)) :
    Reports (fun c => ∃ n, N jd0 < n ∧ n ≤ N jd1 ∧ Begins N n c) epsilon events ∧
      ∀ e ∈ events, ∀ c n, N jd0 < n → n ≤ N jd1 → Begins N n c → c ≤ e.1 → e.1 ≤ c + epsilon → e.2 = F n := by
  obtain ⟨hr, hv⟩ := C115_spells hN (f := darkTwilightDay degrees) hF hreturn hspell heps heps' hnum rfl (by norm_num) h
  exact ⟨hr, fun e he c n h1 h2 h3 h4 h5 => (hv e he c n h1 h2 h3 h4 h5).1⟩

/-- **C115.** A day, or night, that begins and ends within a stretch of under 0.04 days is missed by a search of that stretch. -/
theorem C115_short_day_missed {degrees : ℝ → ℝ} {jd0 jd1 : ℝ} (hlt : jd0 < jd1) (hshort : jd1 - jd0 < 0.04)
    (hsame : -0.8333 ≤ degrees jd0 ↔ -0.8333 ≤ degrees jd1) (epsilon : ℝ) (num fuel : ℕ) :
    findDiscrete jd0 jd1 (sunriseSunset degrees) epsilon num (fuel + 1) = .ok (some []) := by
  refine C115_short_spell_missed (step := 0.04) rfl hlt hshort ?_ epsilon num fuel
  unfold sunriseSunset isSunUpAt
  simp only [ge_iff_le, hsame]

/-! ### These things happen -/

private theorem bias_onto (u : Vec3) : ∃ v, icrsToJ2000.mulVec v = u := by
  obtain ⟨a, b, c⟩ := u
  set m := icrsToJ2000 with hm
  have hd : m.r1.x * (m.r2.y * m.r3.z - m.r2.z * m.r3.y) - m.r1.y * (m.r2.x * m.r3.z - m.r2.z * m.r3.x) +
      m.r1.z * (m.r2.x * m.r3.y - m.r2.y * m.r3.x) ≠ 0 := by
    rw [hm]
    simp only [icrsToJ2000, asec2rad]
    norm_num
  generalize hD : m.r1.x * (m.r2.y * m.r3.z - m.r2.z * m.r3.y) - m.r1.y * (m.r2.x * m.r3.z - m.r2.z * m.r3.x) +
      m.r1.z * (m.r2.x * m.r3.y - m.r2.y * m.r3.x) = D at hd
  clear_value m
  obtain ⟨⟨xx, xy, xz⟩, ⟨yx, yy, yz⟩, ⟨zx, zy, zz⟩⟩ := m
  simp only at hD
  refine ⟨⟨((yy * zz - yz * zy) * a + (xz * zy - xy * zz) * b + (xy * yz - xz * yy) * c) / D,
    ((yz * zx - yx * zz) * a + (xx * zz - xz * zx) * b + (xz * yx - xx * yz) * c) / D,
    ((yx * zy - yy * zx) * a + (xy * zx - xx * zy) * b + (xx * yy - xy * yx) * c) / D⟩, ?_⟩
  ext <;> simp only [Mat3.mulVec, Vec3.dot] <;> field_simp <;> rw [← hD] <;> ring

/-- The ecliptic frame reaches every vector. -/
theorem ecliptic_onto (s : SkyTime) (u : Vec3) : ∃ v, (eclipticRotation s).mulVec v = u := by
  obtain ⟨v, hv⟩ := bias_onto (s.precessionMatrix.transpose.mulVec (s.nutationMatrix.transpose.mulVec
    ((rotX (-(s.meanObliquityRadians + s.dEps))).transpose.mulVec u)))
  refine ⟨v, ?_⟩
  unfold eclipticRotation SkyTime.M Mat3.mul3
  rw [Mat3.mul_mulVec, Mat3.mul_mulVec, Mat3.mul_mulVec, hv]
  have i1 : IsIsometry s.precessionMatrix := (C35_precession _).1
  have i2 : IsIsometry s.nutationMatrix := (C35_nutation _ _ _).1
  rw [i1.undo', i2.undo', (C35_rot_x _).undo']

/-- Every direction off the ecliptic poles has a vector. -/
private theorem ecliptic_place (s : SkyTime) (lat lon : ℝ) (hlat : |lat| < π / 2) :
    ∃ v, v ≠ 0 ∧ eclipticLat s v = lat ∧ ∃ n : ℤ, lon = eclipticLon s v + 2 * π * n := by
  have hp := pi_pos
  set m := ⌊lon / (2 * π)⌋ with hm
  have h1 := Int.floor_le (lon / (2 * π))
  have h2 := Int.lt_floor_add_one (lon / (2 * π))
  rw [← hm] at h1 h2
  rw [le_div_iff₀ (by positivity)] at h1
  rw [div_lt_iff₀ (by positivity)] at h2
  have hr := C36_round_trip' 1 lat (lon - 2 * π * m) one_pos hlat (by linarith) (by linarith)
  set u := fromSpherical 1 lat (lon - 2 * π * m) with hu
  obtain ⟨v, hR⟩ := ecliptic_onto s u
  have hl : frameLatlon eclipticFrame s v = (1, lat, lon - 2 * π * m) := by
    rw [← hr, ← hR]
    rfl
  refine ⟨v, ?_, ?_, m, ?_⟩
  · rintro rfl
    have h0 : (frameLatlon eclipticFrame s 0).1 = 0 := by
      unfold frameLatlon
      rw [(C36_range _).1]
      simp [Mat3.mulVec, Vec3.dot, Vec3.length_eq]
    rw [hl] at h0
    norm_num at h0
  · unfold eclipticLat; rw [hl]
  · unfold eclipticLon; rw [hl]; ring

/-- A body with any given ecliptic latitude and longitude of date. -/
theorem body_exists (ts : Timescale ℝ) (series : NutationSeries) (lat lon : ℝ → ℝ) (hlat : ∀ t, |lat t| < π / 2) :
    ∃ body : ℝ → Vec3, (∀ jd, body jd ≠ 0) ∧ ∀ jd s, (ts.ttJd jd none).sky series = some s →
      eclipticLat s (body jd) = lat jd ∧ ∃ n : ℤ, lon jd = eclipticLon s (body jd) + 2 * π * n := by
  have : ∀ jd, ∃ v, v ≠ 0 ∧ ∀ s, (ts.ttJd jd none).sky series = some s → eclipticLat s v = lat jd ∧ ∃ n : ℤ, lon jd = eclipticLon s v + 2 * π * n := by
    intro jd
    obtain ⟨s, hs⟩ := (ts.ttJd jd none).sky_defined series
    obtain ⟨v, hv0, hv⟩ := ecliptic_place s (lat jd) (lon jd) (hlat jd)
    refine ⟨v, hv0, fun s' hs' => ?_⟩
    rw [hs, Option.some.injEq] at hs'
    rw [← hs']
    exact hv
  choose body h0 hb using this
  exact ⟨body, h0, hb⟩

private theorem linear_growing {lo hi c t0 : ℝ} (hc : 0 < c) : Growing lo hi fun t => c * (t - t0) :=
  ⟨by fun_prop, fun s t _ h _ => by have := mul_lt_mul_of_pos_left (sub_lt_sub_right h t0) hc; exact this⟩

private theorem linear_gains {lo hi c t0 d g : ℝ} (hc : 0 < c) (h : c * d ≤ g) : GainsLess lo hi d g fun t => c * (t - t0) := by
  intro s t _ _ _ h4
  have := mul_lt_mul_of_pos_left h4 hc
  simp only
  linarith

/-- A year of a Sun that moves 0.0172 radians a day along the ecliptic. -/
example (ts : Timescale ℝ) : ∃ (sun : ℝ → Vec3) (L : ℝ → ℝ), IsAngle ts .iau2000b 2451545 2451910 (fun jd s => eclipticLon s (sun jd)) L ∧
    Growing 2451545 2451910 L ∧ GainsLess 2451545 2451910 90 (3 * π / 2) L ∧ GainsLess 2451545 2451910 14 (23 * π / 12) L ∧
    GainsLess 2451545 2451910 1 (π / 12) L ∧ ∃ c, 2451545 < c ∧ c ≤ 2451910 ∧ L c = π / 2 * (1 : ℤ) := by
  have hp := pi_gt_three
  have hp' := pi_lt_four
  obtain ⟨sun, -, hs⟩ := body_exists ts .iau2000b (fun _ => 0) (fun t => 0.0172 * (t - 2451545)) fun _ => by rw [abs_zero]; positivity
  refine ⟨sun, fun t => 0.0172 * (t - 2451545), fun jd s _ _ h => (hs jd s h).2, linear_growing (by norm_num), linear_gains (by norm_num) (by linarith),
    linear_gains (by norm_num) (by linarith), linear_gains (by norm_num) (by linarith), 2451545 + π / 2 / 0.0172, ?_, ?_, ?_⟩
  · have : 0 < π / 2 / 0.0172 := by positivity
    linarith
  · have : π / 2 / 0.0172 ≤ 365 := by rw [div_le_iff₀ (by norm_num)]; linarith
    linarith
  · push_cast
    ring

/-- A Moon with steady motion, 0.212 radians a day from the Sun and 0.23 from its node: phases, conjunctions and nodes. -/
example (ts : Timescale ℝ) (series : NutationSeries) : ∃ (moon sun : ℝ → Vec3) (L u : ℝ → ℝ),
    IsAngle ts series 2451545 2451945 (fun jd s => eclipticLon s (moon jd) - eclipticLon s (sun jd)) L ∧
    (∀ jd s, (ts.ttJd jd none).sky series = some s → (0 < eclipticLat s (moon jd) ↔ 0 < sin (u jd))) ∧
    Growing 2451545 2451945 L ∧ Growing 2451545 2451945 u ∧ GainsLess 2451545 2451945 7 (3 * π / 2) L ∧ GainsLess 2451545 2451945 14 π L ∧
    GainsLess 2451545 2451945 12 π u ∧ GainsLess 2451545 2451945 1 (π / 2) L := by
  have hp := pi_gt_three
  obtain ⟨sun, -, hs⟩ := body_exists ts series (fun _ => 0) (fun t => 0.0172 * (t - 2451545)) fun _ => by rw [abs_zero]; positivity
  obtain ⟨moon, -, hm⟩ := body_exists ts series (fun t => 0.09 * sin (0.23 * (t - 2451545))) (fun t => 0.2292 * (t - 2451545)) fun t => by
    rw [abs_mul, abs_of_pos (by norm_num)]
    have := abs_sin_le_one (0.23 * (t - 2451545))
    linarith
  refine ⟨moon, sun, fun t => 0.212 * (t - 2451545), fun t => 0.23 * (t - 2451545), ?_, ?_, linear_growing (by norm_num), linear_growing (by norm_num),
    linear_gains (by norm_num) (by linarith), linear_gains (by norm_num) (by linarith), linear_gains (by norm_num) (by linarith),
    linear_gains (by norm_num) (by linarith)⟩
  · intro jd s _ _ h
    obtain ⟨n, hn⟩ := (hs jd s h).2
    obtain ⟨m, hm⟩ := (hm jd s h).2
    refine ⟨m - n, ?_⟩
    push_cast
    linarith
  · intro jd s h
    rw [(hm jd s h).1]
    constructor
    · intro h; by_contra hc; push Not at hc; linarith
    · intro h; linarith

/-- A Moon that takes 13.95 days from conjunction to opposition, in a stretch of 13.97 days around them. -/
example (ts : Timescale ℝ) : ∃ (moon sun : ℝ → Vec3) (L : ℝ → ℝ),
    IsAngle ts .iau2000a 0 13.97 (fun jd s => eclipticLon s (sun jd) - eclipticLon s (moon jd)) L ∧ (Growing 0 13.97 fun t => -L t) ∧
    2 * π * (0 : ℤ) < L 0 ∧ L 0 < 2 * π * (0 : ℤ) + π ∧ 2 * π * (0 : ℤ) - 2 * π ≤ L 13.97 ∧ L 13.97 < 2 * π * (0 : ℤ) - π := by
  have hp := pi_pos
  obtain ⟨sun, -, hs⟩ := body_exists ts .iau2000a (fun _ => 0) (fun _ => 0) fun _ => by rw [abs_zero]; positivity
  obtain ⟨moon, -, hm⟩ := body_exists ts .iau2000a (fun _ => 0) (fun t => π / 13.95 * (t - 0.01)) fun _ => by rw [abs_zero]; positivity
  refine ⟨moon, sun, fun t => -(π / 13.95 * (t - 0.01)), ?_, ?_, ?_, ?_, ?_, ?_⟩
  · intro jd s _ _ h
    obtain ⟨n, hn⟩ := (hs jd s h).2
    obtain ⟨m, hm⟩ := (hm jd s h).2
    refine ⟨n - m, ?_⟩
    push_cast
    linarith
  · simp only [neg_neg]
    exact linear_growing (by positivity)
  · push_cast
    have : 0 < π / 13.95 * 0.01 := by positivity
    linarith
  all_goals
    push_cast
    norm_num
    linarith

/-- A planet that swings 0.4 radians to either side of the Sun every 116 days. -/
example (ts : Timescale ℝ) : ∃ (planet sun : ℝ → Vec3) (L u : ℝ → ℝ),
    IsAngle ts .iau2000a 0 400 (fun jd s => eclipticLon s (planet jd) - eclipticLon s (sun jd)) L ∧
    (∀ jd, -π < L jd ∧ L jd < π ∧ (0 < L jd ↔ 0 < sin (u jd))) ∧ Growing 0 400 u ∧ GainsLess 0 400 40 π u := by
  have hp := pi_gt_three
  obtain ⟨sun, -, hs⟩ := body_exists ts .iau2000a (fun _ => 0) (fun t => 0.0172 * t) fun _ => by rw [abs_zero]; positivity
  obtain ⟨planet, -, hm⟩ := body_exists ts .iau2000a (fun _ => 0) (fun t => 0.0172 * t + 0.4 * sin (0.0542 * (t - 0))) fun _ => by
    rw [abs_zero]; positivity
  refine ⟨planet, sun, fun t => 0.4 * sin (0.0542 * (t - 0)), fun t => 0.0542 * (t - 0), ?_, ?_, linear_growing (by norm_num),
    linear_gains (by norm_num) (by linarith)⟩
  · intro jd s _ _ h
    obtain ⟨n, hn⟩ := (hs jd s h).2
    obtain ⟨m, hm⟩ := (hm jd s h).2
    refine ⟨m - n, ?_⟩
    push_cast
    linarith
  · intro jd
    have h1 := sin_le_one (0.0542 * (jd - 0))
    have h2 := neg_one_le_sin (0.0542 * (jd - 0))
    refine ⟨by linarith, by linarith, fun h => ?_, fun h => by linarith⟩
    by_contra hc
    push Not at hc
    linarith

/-- Days and nights of half a day. -/
example : ∃ (degrees : ℝ → ℝ) (N : ℝ → ℤ), Monotone N ∧ (∀ t, (-0.8333 ≤ degrees t ↔ Even (N t))) ∧ (∀ a b, a ≤ b → b - a < 0.25 → N b ≤ N a + 1) := by
  classical
  refine ⟨fun t => if Even ⌊2 * t⌋ then 10 else -10, fun t => ⌊2 * t⌋, fun a b h => Int.floor_le_floor (by linarith), ?_, ?_⟩
  · intro t
    by_cases h : Even ⌊2 * t⌋
    · simp only [h, if_true, iff_true]; norm_num
    · simp only [h, if_false, iff_false]; norm_num
  · intro a b _ h
    have h1 := Int.lt_floor_add_one (2 * a)
    have h2 := Int.floor_le (2 * b)
    have : (⌊2 * b⌋ : ℝ) < ⌊2 * a⌋ + 2 := by linarith
    have : ⌊2 * b⌋ < ⌊2 * a⌋ + 2 := by exact_mod_cast this
    simp only
    omega

/-- A dawn, with a quarter of an hour of each kind of twilight. -/
example : ∃ (degrees : ℝ → ℝ) (N : ℝ → ℤ) (F : ℤ → ℕ), Monotone N ∧ (∀ t, darkTwilightDayAt (degrees t) = F (N t)) ∧
    (∀ a b, N a ≠ N b → F (N a) ≠ F (N b)) ∧ (∀ a b, a ≤ b → b - a < 0.01 → N b ≤ N a + 1) ∧ N 0 = 0 ∧ N 0.045 = 4 := by
  have hmono : Monotone fun t : ℝ => max 0 (min 4 ⌊100 * t⌋) := fun a b h => by
    have : ⌊100 * a⌋ ≤ ⌊100 * b⌋ := Int.floor_le_floor (by linarith)
    simp only
    omega
  refine ⟨fun t => if max 0 (min 4 ⌊100 * t⌋) = 0 then -20 else if max 0 (min 4 ⌊100 * t⌋) = 1 then -15 else
    if max 0 (min 4 ⌊100 * t⌋) = 2 then -9 else if max 0 (min 4 ⌊100 * t⌋) = 3 then -3 else 5, fun t => max 0 (min 4 ⌊100 * t⌋), Int.toNat, hmono,
    ?_, ?_, ?_, ?_, ?_⟩
  · intro t
    have h1 : 0 ≤ max 0 (min 4 ⌊100 * t⌋) := by omega
    have h2 : max 0 (min 4 ⌊100 * t⌋) ≤ 4 := by omega
    simp only
    generalize max 0 (min 4 ⌊100 * t⌋) = n at *
    unfold darkTwilightDayAt
    interval_cases n <;> norm_num <;> rfl
  · intro a b h
    simp only at h ⊢
    omega
  · intro a b _ h
    have h1 := Int.lt_floor_add_one (100 * a)
    have h2 := Int.floor_le (100 * b)
    have : (⌊100 * b⌋ : ℝ) < ⌊100 * a⌋ + 2 := by linarith
    have : ⌊100 * b⌋ < ⌊100 * a⌋ + 2 := by exact_mod_cast this
    simp only
    omega
  · norm_num
  · norm_num

end Skyfield
