import Verif.Model.Masses
import Verif.Spec.FixedFrames
import Verif.Props.Relativity
import Verif.Props.FixedFrames

/-
C104: the masses that Skyfield knows fit together, and orbits and deflections use the right ones.
-/
namespace Skyfield
open Spec Real

/-! ### Specification -/

/-- The codes of the planet and the moons of the system with barycenter `k`, among those listed: 399 and 301 for system 3. -/
def membersOf (listed : List ℤ) (k : ℤ) : List ℤ := listed.filter fun c => c / 100 = k

/-- The sum of the GM of some bodies; those without an entry count as 0. -/
def totalGm (codes : List ℤ) : ℚ := (codes.map fun c => (gmDict.lookup c).getD 0).sum

/-- Two numbers agree to a relative precision. -/
def AgreesTo (ε a b : ℚ) : Prop := |a - b| ≤ ε * b

instance (ε a b : ℚ) : Decidable (AgreesTo ε a b) := by unfold AgreesTo; infer_instance

/-! ### The table -/

/-- **C104.** No code has two entries. -/
theorem C104_one_entry : (gmDict.map Prod.fst).Nodup := by decide +kernel

theorem gmDict_positive : ∀ r ∈ gmDict, 0 < r.2 := by decide +kernel

theorem lookup_mem {α β : Type*} [BEq α] [LawfulBEq α] {l : List (α × β)} {a : α} {b : β} (h : l.lookup a = some b) : (a, b) ∈ l := by
  induction l with
  | nil => simp at h
  | cons p l ih =>
    obtain ⟨k, v⟩ := p
    rw [List.lookup_cons] at h
    by_cases e : a == k
    · simp only [e, Option.some.injEq] at h
      rw [eq_of_beq e, h]
      exact List.mem_cons_self
    · simp only [e] at h
      exact List.mem_cons_of_mem _ (ih h)

/-- **C104.** Every mass is positive. -/
theorem C104_positive (code : ℤ) (gm : ℝ) (h : gmTable code = some gm) : 0 < gm := by
  unfold gmTable at h
  rw [Option.map_eq_some_iff] at h
  obtain ⟨q, hq, rfl⟩ := h
  exact_mod_cast gmDict_positive _ (lookup_mem hq)

/-- **C104.** The mass of each planetary system is that of its planet and moons: to two parts in a million, except for Pluto, where
it is wrong by more than a part in a thousand. -/
theorem C104_systems :
    (∀ k ∈ Finset.Icc (1 : ℤ) 8, AgreesTo 2e-6 (totalGm (membersOf (gmDict.map Prod.fst) k)) (totalGm [k])) ∧
    AgreesTo 1.5e-3 (totalGm (membersOf (gmDict.map Prod.fst) 9)) (totalGm [9]) ∧
    ¬ AgreesTo 1.4e-3 (totalGm (membersOf (gmDict.map Prod.fst) 9)) (totalGm [9]) := by
  decide +kernel

/-- **C104.** The mass of the Solar System, code 0, is that of all the bodies in the table. -/
theorem C104_solar_system : AgreesTo 1e-15 (totalGm [0]) (totalGm ((gmDict.map Prod.fst).filter fun c => 10 ≤ c)) := by
  decide +kernel

/-! ### Orbits -/

/-- **C104.** `osculating_elements_of` without `gm`: about a barycenter it uses the mass of the system; about a body, the mass of the
body and of the one that orbits it, which counts as 0 if the table does not have it.  A center in the table is never refused. -/
theorem C104_gm_known (c : ℤ) (target : Option ℤ) (gm : ℝ) (h : gmTable c = some gm) :
    chooseGm gmTable none (some c) target =
      some (if 0 ≤ c ∧ c ≤ 9 then gm else gm + ((target.bind gmTable).getD 0)) := by
  have h0 := C104_positive c gm h
  have h1 : 0 ≤ (target.bind gmTable).getD 0 := by
    cases e : target.bind gmTable with
    | none => simp
    | some x =>
      cases target with
      | none => simp at e
      | some b =>
        simp only [Option.bind_some] at e
        simpa using (C104_positive b x e).le
  unfold chooseGm
  simp only [h, Option.getD_some]
  by_cases hc : 0 ≤ c ∧ c ≤ 9
  · simp only [if_pos hc, if_neg h0.ne', Option.bind_some, if_neg (not_le.2 h0)]
  · have : 0 < gm + (target.bind gmTable).getD 0 := by linarith
    simp only [if_neg hc, if_neg this.ne', Option.bind_some, if_neg (not_le.2 this)]

/-- **C104.** About a body that the table does not have: the mass of the one that orbits it, if the table has that; else the call is
refused with a ValueError. -/
theorem C104_gm_unknown (c : ℤ) (target : Option ℤ) (h : gmTable c = none) :
    chooseGm gmTable none (some c) target = target.bind gmTable := by
  have hc : ¬ (0 ≤ c ∧ c ≤ 9) := by
    rintro ⟨h1, h2⟩
    have : ∀ c ∈ Finset.Icc (0 : ℤ) 9, (gmDict.lookup c).isSome = true := by decide +kernel
    have := this c (Finset.mem_Icc.2 ⟨h1, h2⟩)
    unfold gmTable at h
    rw [Option.map_eq_none_iff] at h
    rw [h] at this
    cases this
  unfold chooseGm
  simp only [h, Option.getD_none, if_neg hc, zero_add]
  cases e : target.bind gmTable with
  | none => simp
  | some x =>
    cases target with
    | none => simp at e
    | some b =>
      have := C104_positive b x (by simpa using e)
      simp only [Option.getD_some, if_neg this.ne', Option.bind_some, if_neg (not_le.2 this)]

/-- The Moon about the Earth, and about the Earth-Moon barycenter: a system has the mass of its members. -/
example : gmTable 399 = some ((398600.43543609598 : ℚ) : ℝ) ∧ gmTable 301 = some ((4902.8000661637961 : ℚ) : ℝ) ∧
    gmTable 3 = some ((403503.23550225981 : ℚ) : ℝ) ∧ gmTable 2000099 = none := by
  refine ⟨?_, ?_, ?_, ?_⟩ <;> unfold gmTable
  · rw [show gmDict.lookup 399 = some 398600.43543609598 by decide +kernel]; rfl
  · rw [show gmDict.lookup 301 = some 4902.8000661637961 by decide +kernel]; rfl
  · rw [show gmDict.lookup 3 = some 403503.23550225981 by decide +kernel]; rfl
  · rw [show gmDict.lookup 2000099 = none by decide +kernel]; rfl

/-! ### Deflectors -/

/-- The body, or system, whose mass is meant by an entry of `rmasses`: the giant planets are taken with their moons. -/
def massMeant (code : ℤ) : ℤ := if code = 10 ∨ code = 301 ∨ code = 399 then code else code / 100

/-- **C104.** The reciprocal masses that `apparent()` uses are those of the other table, to one and a half parts in 100 000: those of
Jupiter and the other planets are of the planet with its moons.  Pluto's is wrong by almost half a percent. -/
theorem C104_reciprocal :
    (∀ r ∈ rmassCodes, r.1 ≠ 999 → AgreesTo 1.5e-5 (r.2 * totalGm [massMeant r.1]) (totalGm [10])) ∧
    (∀ r ∈ rmassCodes, r.1 = 999 → AgreesTo 4.7e-3 (r.2 * totalGm [massMeant r.1]) (totalGm [10])) ∧
    ¬ AgreesTo 1e-4 (1047.3486 * totalGm [599]) (totalGm [10]) := by
  decide +kernel

/-- **C104.** So is the mass of the Sun that they are multiplied with. -/
theorem C104_sun : |gravSun - 1e9 * (totalGm [10] : ℝ)| ≤ 2e-10 * (1e9 * (totalGm [10] : ℝ)) := by
  rw [show totalGm [10] = 132712440041.93938 by decide +kernel]
  unfold gravSun
  push_cast
  rw [abs_le]
  constructor <;> norm_num

/-- **C104.** A deflector means the same mass by name and by code. -/
theorem C104_names : (rmassNames.map Prod.snd).Perm (rmassCodes.map Prod.snd) ∧
    List.Forall₂ (fun (name : String) (code : ℕ) => rmassNames.lookup name = rmassCodes.lookup code ∧
      (rmassCodes.lookup code).isSome = true)
      ["mercury", "venus", "earth", "mars", "jupiter", "saturn", "uranus", "neptune", "pluto", "sun", "moon"]
      [199, 299, 399, 499, 599, 699, 799, 899, 999, 10, 301] := by
  decide +kernel

/-- An ephemeris with the Sun and the barycenters of Jupiter and Saturn only, like de421: the usual deflectors are there. -/
example : let eph : ℕ → Option (ℝ → Vec3) := fun c => if c = 10 ∨ c = 5 ∨ c = 6 then some fun _ => ⟨c, 1, 0⟩ else none
    (eph 10).isSome = true ∧ (eph 5).isSome = true ∧ (eph 6).isSome = true ∧ eph 599 = none ∧ eph 699 = none := by
  simp

theorem rmassOf_sun : rmassOf 10 = some ((1 : ℚ) : ℝ) := by
  unfold rmassOf; rw [show rmassCodes.lookup 10 = some 1 by decide +kernel]; rfl

/-- **C104.** `apparent()` with its usual deflectors, on an ephemeris with the Sun and with Jupiter and Saturn or their systems, raises
no exception.  On one without them it names the missing body, never one that it has. -/
theorem C104_usual_deflectors (tiny : ℝ) (eph : ℕ → Option (ℝ → Vec3)) (t : ℝ) (observer v : Vec3) (o : Option Vec3) (lt : ℝ)
    (target : Vec3) :
    ((eph 10).isSome = true → (eph 599).isSome = true ∨ (eph 5).isSome = true → (eph 699).isSome = true ∨ (eph 6).isSome = true →
      (∃ r, apparentPosition tiny rmassOf eph t observer v o lt [10, 599, 699] target = .ok r) ∨
      apparentPosition tiny rmassOf eph t observer v o lt [10, 599, 699] target = .nan) ∧
    (∀ c, apparentPosition tiny rmassOf eph t observer v o lt [10, 599, 699] target ≠ .keyError c) ∧
    (∀ c, apparentPosition tiny rmassOf eph t observer v o lt [10, 599, 699] target = .valueError c →
      c ∈ [10, 5, 6] ∧ eph c = none) := by
  have hm : ∀ c ∈ [10, 599, 699], (rmassOf c).isSome = true := by
    have : ∀ c ∈ [10, 599, 699], (rmassCodes.lookup c).isSome = true := by decide +kernel
    intro c hc
    unfold rmassOf
    rw [Option.isSome_map]
    exact this c hc
  obtain ⟨-, h2⟩ := C43_apparent_exceptions (tiny := tiny) (eph := eph) (t := t) (observer := observer) (v := v) (o := o) (lt := lt)
    (target := target) hm
  refine ⟨?_, ?_⟩
  · intro h10 h5 h6
    refine h2 ?_
    intro c hc
    simp only [List.mem_cons, List.not_mem_nil, or_false] at hc
    rcases hc with rfl | rfl | rfl
    · exact Or.inl h10
    · exact h5.imp id fun h => ⟨by decide, h⟩
    · exact h6.imp id fun h => ⟨by decide, h⟩
  · have one : ∀ code ∈ [10, 599, 699], ∀ p tlt,
        (∀ c, applyDeflector tiny rmassOf eph t observer tlt code p ≠ .keyError c) ∧
        (∀ c, applyDeflector tiny rmassOf eph t observer tlt code p = .valueError c → c ∈ [10, 5, 6] ∧ eph c = none) := by
      intro code hcode p tlt
      obtain ⟨m, hm'⟩ := Option.isSome_iff_exists.1 (hm code hcode)
      unfold applyDeflector
      simp only [hm']
      constructor
      · intro c
        split
        · intro h; cases h
        · split <;> intro h <;> cases h
      · intro c
        split
        · rename_i he
          intro h
          simp only [ApparentResult.valueError.injEq] at h
          rw [h] at he
          refine ⟨?_, he⟩
          simp only [List.mem_cons, List.not_mem_nil, or_false] at hcode ⊢
          by_cases hn : code % 100 = 99 ∧ (eph code).isNone = true
          · rw [if_pos hn] at h
            rcases hcode with rfl | rfl | rfl
            · exact absurd hn.1 (by decide)
            · right; left; exact h.symm
            · right; right; exact h.symm
          · rw [if_neg hn] at h
            subst h
            rcases hcode with rfl | rfl | rfl
            · left; rfl
            · exact absurd ⟨by decide, by rw [he]; rfl⟩ hn
            · exact absurd ⟨by decide, by rw [he]; rfl⟩ hn
        · split <;> intro h <;> cases h
    have many : ∀ ds : List ℕ, (∀ c ∈ ds, c ∈ [10, 599, 699]) → ∀ p tlt,
        (∀ c, applyDeflectors tiny rmassOf eph t observer tlt ds p ≠ .keyError c) ∧
        (∀ c, applyDeflectors tiny rmassOf eph t observer tlt ds p = .valueError c → c ∈ [10, 5, 6] ∧ eph c = none) := by
      intro ds
      induction ds with
      | nil => intro _ p tlt; unfold applyDeflectors; exact ⟨fun c h => (by cases h), fun c h => (by cases h)⟩
      | cons code rest ih =>
        intro hds p tlt
        have h1 := one code (hds code (by simp)) p tlt
        unfold applyDeflectors
        split
        · exact ih (fun c hc => hds c (by simp [hc])) _ _
        · exact h1
    have earth : ∀ p, (∃ r, applyEarth o p = .ok r) ∨ applyEarth o p = .nan := by
      intro p
      unfold applyEarth
      cases o with
      | none => exact Or.inl ⟨p, rfl⟩
      | some o =>
        simp only
        split
        · exact Or.inr rfl
        · exact Or.inl ⟨_, rfl⟩
        · split
          · exact Or.inl ⟨_, rfl⟩
          · exact Or.inl ⟨_, rfl⟩
    have h := many [10, 599, 699] (fun _ h => h) target (target.length / cAuDay)
    unfold apparentPosition
    simp only
    split
    · rename_i p _
      rcases earth p with ⟨r, hr⟩ | hr <;> simp only [hr] <;> exact ⟨fun c h => (by cases h), fun c h => (by cases h)⟩
    · exact h

/-! ### The older function -/

/-- The codes of the bodies that the older function knows by name. -/
def codeOfName (name : String) : ℕ :=
  (List.lookup name [("sun", 10), ("jupiter", 599), ("saturn", 699), ("moon", 301), ("venus", 299), ("uranus", 799),
    ("neptune", 899), ("earth", 399)]).getD 0

/-- An ephemeris gives the same bodies by name as by number. -/
structure SameBodies (byName : String → Option (ℝ → Vec3)) (byCode : ℕ → Option (ℝ → Vec3)) : Prop where
  own : ∀ name ∈ deflectorNames, byName name = byCode (codeOfName name)
  system : ∀ name ∈ deflectorNames, codeOfName name % 100 = 99 → byName (name ++ " barycenter") = byCode (codeOfName name / 100)
  single : ∀ name ∈ deflectorNames, codeOfName name % 100 ≠ 99 → byName (name ++ " barycenter") = none
  earth : byName "earth" = byCode 399

theorem legacy_loop (tiny t tlt : ℝ) (byName : String → Option (ℝ → Vec3)) (byCode : ℕ → Option (ℝ → Vec3)) (h : SameBodies byName byCode)
    (observer : Vec3) (names : List String) (hn : ∀ name ∈ names, name ∈ deflectorNames) (p r : Vec3) :
    legacyDeflectors tiny byName t observer tlt names p = .ok r ↔
      applyDeflectors tiny rmassOf byCode t observer tlt (names.map codeOfName) p = .ok r := by
  induction names generalizing p with
  | nil => simp [legacyDeflectors, applyDeflectors]
  | cons name rest ih =>
    have hd := hn name (by simp)
    have ih' := fun p => ih (fun x hx => hn x (by simp [hx])) p
    have hmass : (rmassNames.lookup name).isSome = true ∧ rmassNames.lookup name = rmassCodes.lookup (codeOfName name) := by
      have : ∀ name ∈ deflectorNames, (rmassNames.lookup name).isSome = true ∧
          rmassNames.lookup name = rmassCodes.lookup (codeOfName name) := by decide +kernel
      exact this name hd
    obtain ⟨m, hm⟩ := Option.isSome_iff_exists.1 hmass.1
    have hm' : rmassOf (codeOfName name) = some (m : ℝ) := by
      unfold rmassOf; rw [← hmass.2, hm]; rfl
    have hbody : (byName name).or (byName (name ++ " barycenter")) =
        byCode (if codeOfName name % 100 = 99 ∧ (byCode (codeOfName name)).isNone = true then codeOfName name / 100
          else codeOfName name) := by
      rw [h.own name hd]
      by_cases h99 : codeOfName name % 100 = 99
      · rw [h.system name hd h99]
        cases e : byCode (codeOfName name) with
        | none => simp [h99]
        | some x => simp [e]
      · rw [h.single name hd h99, Option.or_none, if_neg fun h => h99 h.1]
    rw [legacyDeflectors, List.map_cons, applyDeflectors, applyDeflector, hbody, hm']
    simp only [hm]
    cases byCode (if codeOfName name % 100 = 99 ∧ (byCode (codeOfName name)).isNone = true then codeOfName name / 100
          else codeOfName name) with
    | none => simp
    | some body =>
      simp only
      cases computeDeflection p (deflectorPosition tiny t observer p body tlt) (m : ℝ) with
      | none => simp
      | some d => simpa using ih' (p + d)

/-- **C104.** The older `add_deflection` does what `apparent()` does before aberration, with the first `count` of the Sun, Jupiter,
Saturn, the Moon, Venus, Uranus and Neptune; and adds the Earth, if asked to, wherever the line of sight goes: `apparent()` leaves
the Earth out if it goes deep into the Earth (`C43_earth_deflection`). -/
theorem C104_older_function (tiny t : ℝ) (byName : String → Option (ℝ → Vec3)) (byCode : ℕ → Option (ℝ → Vec3))
    (h : SameBodies byName byCode) (observer target r : Vec3) (count : ℕ) :
    (addDeflection tiny byName t observer false count target = .ok r ↔
      applyDeflectors tiny rmassOf byCode t observer (target.length / cAuDay)
        ([10, 599, 699, 301, 299, 799, 899].take count) target = .ok r) ∧
    (∀ earth, byCode 399 = some earth →
      (addDeflection tiny byName t observer true count target = .ok r ↔
        ∃ p d, addDeflection tiny byName t observer false count target = .ok p ∧
          computeDeflection p (observer - earth t) 332946.050895 = some d ∧ r = p + d)) := by
  have key := legacy_loop tiny t (target.length / cAuDay) byName byCode h observer (deflectorNames.take count)
    (fun x hx => List.mem_of_mem_take hx) target
  have hc : (deflectorNames.take count).map codeOfName = [10, 599, 699, 301, 299, 799, 899].take count := by
    rw [List.map_take]; congr 1
  rw [hc] at key
  have hoff : ∀ q, addDeflection tiny byName t observer false count target = .ok q ↔
      legacyDeflectors tiny byName t observer (target.length / cAuDay) (deflectorNames.take count) target = .ok q := by
    intro q
    unfold addDeflection
    split <;> simp_all
  refine ⟨(hoff r).trans (key r), ?_⟩
  intro earth he
  have hm : rmassNames.lookup "earth" = some 332946.050895 := by decide +kernel
  simp only [hoff]
  unfold addDeflection
  rw [h.earth, he]
  simp only [hm, if_true]
  have hcast : ((332946.050895 : ℚ) : ℝ) = 332946.050895 := by norm_num
  simp only [hcast]
  split
  · rename_i p hp
    simp only [hp, LegacyResult.ok.injEq]
    cases e : computeDeflection p (observer - earth t) 332946.050895 with
    | none => simp [e]
    | some d =>
      simp only [LegacyResult.ok.injEq]
      constructor
      · intro hr; exact ⟨p, d, rfl, e, hr.symm⟩
      · rintro ⟨_, d', rfl, e', rfl⟩
        rw [e, Option.some.injEq] at e'
        rw [e']
  · rename_i e hne
    constructor
    · intro h'; exact absurd h' (hne r)
    · rintro ⟨p, d, hp, -, -⟩; exact absurd hp (hne p)

/-- By name and by number: the planets' barycenters have a name of their own. -/
example : ∃ byName byCode, SameBodies byName byCode ∧ (byName "sun").isSome = true ∧ byName "jupiter" = none ∧
    (byName "jupiter barycenter").isSome = true := by
  refine ⟨fun n => if n = "sun" ∨ n = "jupiter barycenter" then some fun _ => 0 else none,
    fun c => if c = 10 ∨ c = 5 then some fun _ => 0 else none, ⟨?_, ?_, ?_, ?_⟩, ?_, ?_, ?_⟩
  · intro name hn
    simp only [deflectorNames, List.mem_cons, List.not_mem_nil, or_false] at hn
    rcases hn with rfl | rfl | rfl | rfl | rfl | rfl | rfl <;> simp [codeOfName, List.lookup]
  · intro name hn _
    simp only [deflectorNames, List.mem_cons, List.not_mem_nil, or_false] at hn
    rcases hn with rfl | rfl | rfl | rfl | rfl | rfl | rfl <;> simp_all [codeOfName, List.lookup]
  · intro name hn _
    simp only [deflectorNames, List.mem_cons, List.not_mem_nil, or_false] at hn
    rcases hn with rfl | rfl | rfl | rfl | rfl | rfl | rfl <;> simp_all [codeOfName, List.lookup]
  · simp
  · simp
  · simp
  · simp

/-! ### The Sun's limb -/

theorem tan_half_supplement (ψ : ℝ) : tan ((π - ψ) / 2) = (tan (ψ / 2))⁻¹ := by
  rw [show (π - ψ) / 2 = π / 2 - ψ / 2 by ring, tan_pi_div_two_sub]

/-- **C104.** Light that grazes the Sun.  Seen from one au, a source far behind the Sun, whose direction from the center of the Sun
differs from the direction away from the observer by the Sun's apparent radius, 959.63 arcseconds, is shifted by 1.75 arcseconds:
the value of general relativity, twice the Newtonian one. -/
theorem C104_solar_limb (p e d : Vec3) (m : ℝ) (hm : rmassOf 10 = some m) (he : e.length = 1) (hp : p ≠ 0) (hq : p + e ≠ 0)
    (hψ : angleBetween (p + e) e = π - arcseconds 959.63) (hf : |cos (angleBetween e p)| ≤ 0.99999999999)
    (h : computeDeflection p e m = some d) :
    arcseconds 1.749 * p.length ≤ d.length ∧ d.length ≤ arcseconds 1.751 * p.length := by
  rw [rmassOf_sun, Option.some.injEq] at hm
  have hm1 : m = 1 := by rw [← hm]; norm_num
  subst hm1
  have lp := Vec3.length_pos hp
  have key := C43_deflection_size one_pos hp hq h hf
  rw [hψ, tan_half_supplement] at key
  have h1 := pi_gt_d20
  have h2 := pi_lt_d20
  set x := arcseconds 959.63 / 2 with hx
  have x1 : 0.0023262 < x := by rw [hx]; unfold arcseconds; linarith
  have x2 : x < 0.0023263 := by rw [hx]; unfold arcseconds; linarith
  have t1 : x < tan x := Real.lt_tan (by linarith) (by linarith)
  have t2 : tan x ≤ 0.0023264 := by
    have hc : 1 - x ^ 2 / 2 ≤ cos x := Real.one_sub_sq_div_two_le_cos
    have hs : sin x ≤ x := Real.sin_le (by linarith)
    rw [tan_eq_sin_div_cos, div_le_iff₀ (by nlinarith)]
    nlinarith
  have tpos : 0 < tan x := by linarith
  have hS : deflectionScale e 1 = 2 * 1.32712440017987e20 / (299792458 ^ 2 * 149597870700) := by
    unfold deflectionScale gravSun lightSpeed auM
    rw [he]; norm_num
  have s1 : 1.974125e-8 < deflectionScale e 1 := by rw [hS]; norm_num
  have s2 : deflectionScale e 1 < 1.974126e-8 := by rw [hS]; norm_num
  have a1 : arcseconds 1.749 ≤ deflectionScale e 1 * (tan x)⁻¹ := by
    rw [← div_eq_mul_inv, le_div_iff₀ tpos]
    have : arcseconds 1.749 < 8.4794e-6 := by unfold arcseconds; linarith
    have : 0 < arcseconds 1.749 := by unfold arcseconds; linarith
    nlinarith
  have a2 : deflectionScale e 1 * (tan x)⁻¹ ≤ arcseconds 1.751 := by
    rw [← div_eq_mul_inv, div_le_iff₀ tpos]
    have : 8.48906e-6 < arcseconds 1.751 := by unfold arcseconds; linarith
    nlinarith
  rw [key]
  constructor <;> nlinarith

/-- A source a thousand au behind the Sun, in the direction of its limb: the hypotheses hold. -/
example : ∃ p e d : Vec3, e.length = 1 ∧ p ≠ 0 ∧ p + e ≠ 0 ∧ angleBetween (p + e) e = π - arcseconds 959.63 ∧
    |cos (angleBetween e p)| ≤ 0.99999999999 ∧ computeDeflection p e 1 = some d := by
  have h1 := pi_gt_d20
  have h2 := pi_lt_d20
  obtain ⟨x, hx⟩ : ∃ x, x = arcseconds 959.63 := ⟨_, rfl⟩
  have x1 : 0.0046524 < x := by rw [hx]; unfold arcseconds; linarith
  have x2 : x < 0.0046526 := by rw [hx]; unfold arcseconds; linarith
  have hs1 : 0.0046 < sin x := by
    have := Real.sin_gt_sub_cube (by linarith : 0 < x)
    have : x ^ 3 ≤ 0.0046526 ^ 3 := pow_le_pow_left₀ (by linarith) x2.le 3
    norm_num at this
    linarith
  have hs2 := Real.sin_le_one x
  have hc1 := Real.cos_le_one x
  have hc2 : 1 - x ^ 2 / 2 ≤ cos x := Real.one_sub_sq_div_two_le_cos
  have hsc := sin_sq_add_cos_sq x
  have he1 : (⟨1, 0, 0⟩ : Vec3).length = 1 := by rw [Vec3.length_eq]; simp [Vec3.dot]
  have hq1 : (⟨-1000 * cos x, 1000 * sin x, 0⟩ : Vec3).length = 1000 := by
    rw [Vec3.length_eq, show (⟨-1000 * cos x, 1000 * sin x, 0⟩ : Vec3).dot ⟨-1000 * cos x, 1000 * sin x, 0⟩ = 1000 ^ 2 by
      simp only [Vec3.dot]; linear_combination 1000000 * hsc]
    exact Real.sqrt_sq (by norm_num)
  have hq : (⟨-1000 * cos x - 1, 1000 * sin x, 0⟩ : Vec3) + ⟨1, 0, 0⟩ = ⟨-1000 * cos x, 1000 * sin x, 0⟩ := by
    ext <;> simp
  have hq0 : (⟨-1000 * cos x, 1000 * sin x, 0⟩ : Vec3) ≠ 0 := by
    intro h
    rw [h, Vec3.length_zero] at hq1
    norm_num at hq1
  have hp0 : (⟨-1000 * cos x - 1, 1000 * sin x, 0⟩ : Vec3) ≠ 0 := by
    intro h
    have := congrArg Vec3.y h
    simp only [Vec3.zero_y] at this
    linarith
  have he0 : (⟨1, 0, 0⟩ : Vec3) ≠ 0 := by
    intro h
    rw [h, Vec3.length_zero] at he1
    norm_num at he1
  have hd : ∃ d, computeDeflection ⟨-1000 * cos x - 1, 1000 * sin x, 0⟩ ⟨1, 0, 0⟩ 1 = some d := by
    rw [← Option.ne_none_iff_exists']
    intro h
    rw [C43_deflection_nan _ _ _ hp0] at h
    rcases h with h | ⟨k, -, h⟩
    · exact he0 h
    · have := congrArg Vec3.y h
      simp at this
      linarith
  obtain ⟨d, hd⟩ := hd
  refine ⟨_, _, d, he1, hp0, by rw [hq]; exact hq0, ?_, ?_, hd⟩
  · rw [hq, ← hx]
    obtain ⟨a1, hm⟩ := C37_angle _ _ hq0 he0
    refine injOn_cos ⟨hm.1, hm.2⟩ ⟨by linarith, by linarith⟩ ?_
    rw [a1, hq1, he1, cos_pi_sub]
    simp only [Vec3.dot]
    ring
  · have lp := Vec3.length_pos hp0
    rw [(C37_angle _ _ he0 hp0).1, he1]
    have hl := Vec3.length_mul_self (⟨-1000 * cos x - 1, 1000 * sin x, 0⟩ : Vec3)
    simp only [Vec3.dot] at hl ⊢
    rw [abs_div, abs_of_pos (by linarith : 0 < 1 * (⟨-1000 * cos x - 1, 1000 * sin x, 0⟩ : Vec3).length),
      div_le_iff₀ (by linarith), abs_of_neg (by nlinarith)]
    refine abs_le_of_sq_le_sq' ?_ (by nlinarith) |>.2
    nlinarith

end Skyfield
