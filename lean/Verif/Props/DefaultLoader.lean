import Verif.Model.DefaultLoader
import Verif.Spec.FileNames
import Verif.Props.Loader
import Mathlib.Data.List.Infix

/-!
# C98 — the loader's file names, addresses and formats
-/
namespace Skyfield
open Spec

private theorem tw_stop {α : Type*} (p : α → Bool) (w r : List α) (h1 : ∀ x ∈ w, p x = true)
    (h2 : ∀ c ∈ r.head?, p c = false) : (w ++ r).takeWhile p = w ∧ (w ++ r).dropWhile p = r := by
  rw [List.takeWhile_append_of_pos h1, List.dropWhile_append_of_pos h1]
  cases r with
  | nil => simp
  | cons c r => have := h2 c (by simp); simp [this]

/-- The last component of `dir ++ part`. -/
private theorem last_component (dir part : List Char) (hd : dir = [] ∨ dir.getLast? = some '/') (hp : '/' ∉ part) :
    (((dir ++ part).reverse.takeWhile (· ≠ '/')).reverse) = part := by
  rw [List.reverse_append]
  have := (tw_stop (fun c : Char => decide (c ≠ '/')) part.reverse dir.reverse (by
    intro x hx; rw [List.mem_reverse] at hx; simp only [ne_eq, decide_eq_true_eq]; rintro rfl; exact hp hx) (by
    intro c hc
    rcases hd with rfl | hd
    · simp at hc
    · rw [List.head?_reverse, hd] at hc
      simp at hc; subst hc; simp)).1
  rw [this, List.reverse_reverse]

private theorem split_component (s : List Char) : ∃ dir part, s = dir ++ part ∧
    (dir = [] ∨ dir.getLast? = some '/') ∧ '/' ∉ part := by
  refine ⟨(s.reverse.dropWhile (· ≠ '/')).reverse, (s.reverse.takeWhile (· ≠ '/')).reverse, ?_, ?_, ?_⟩
  · rw [← List.reverse_append, List.takeWhile_append_dropWhile, List.reverse_reverse]
  · cases h : s.reverse.dropWhile (· ≠ '/') with
    | nil => simp
    | cons c r =>
      right
      have hne : s.reverse.dropWhile (· ≠ '/') ≠ [] := by rw [h]; simp
      have := List.head_dropWhile_not (fun c : Char => decide (c ≠ '/')) hne
      simp only [h, List.head_cons] at this
      simp only [List.getLast?_reverse, List.head?_cons]
      simpa using this
  · intro h
    rw [List.mem_reverse] at h
    have := List.mem_takeWhile_imp h
    simp at this

/-- `os.path.splitext` finds exactly the extension. -/
theorem extension_iff (name ext : List Char) (h1 : '.' ∉ ext) (h2 : '/' ∉ ext) :
    extension name = '.' :: ext ↔ HasExtension name ext := by
  obtain ⟨dir, part, rfl, hd, hp⟩ := split_component name
  unfold extension
  rw [last_component dir part hd hp]
  constructor
  · intro h
    cases hr : rsplitDot part with
    | none => rw [hr] at h; simp at h
    | some ab =>
      obtain ⟨a, b⟩ := ab
      rw [hr] at h
      simp only at h
      split at h
      · rename_i ha
        obtain ⟨e, -⟩ := rsplitDot_some hr
        have hb : b = ext := by simpa using h
        subst hb
        refine ⟨dir, a, by rw [e, List.append_assoc], hd, ?_, ?_⟩
        · intro hm; exact hp (by rw [e]; simp [hm])
        · simpa using ha
      · simp at h
  · rintro ⟨dir', stem, e, hd', hs, c, hc, hcd⟩
    have hp' : '/' ∉ stem ++ '.' :: ext := by simp [hs, h2]
    have h3 := last_component dir' (stem ++ '.' :: ext) hd' hp'
    rw [← List.append_assoc, ← e, last_component dir part hd hp] at h3
    rw [h3, rsplitDot_append _ _ h1]
    simp only
    rw [if_pos (by simp only [List.any_eq_true]; exact ⟨c, hc, by simpa using hcd⟩)]

private theorem fnmatch_star (s : List Char) : fnmatch s ['*'] = true := by
  induction s with
  | nil => simp [fnmatch]
  | cons c s ih => rw [fnmatch]; simp [ih]

private theorem fnmatch_plain (s p : List Char) (h : ∀ c ∈ p, c ≠ '*' ∧ c ≠ '?') : fnmatch s p = true ↔ s = p := by
  induction p generalizing s with
  | nil => cases s <;> simp [fnmatch]
  | cons q p ih =>
    have h' := h q (by simp)
    cases s with
    | nil => rw [fnmatch]; simp [h'.1]
    | cons c s =>
      rw [fnmatch]
      simp only [h'.1, if_false, h'.2, decide_false, Bool.false_or, decide_eq_true_eq, List.cons.injEq]
      by_cases hc : q = c
      · rw [if_pos hc, ih s (fun c hc => h c (by simp [hc]))]
        simp [hc]
      · rw [if_neg hc]
        simp only [Bool.false_eq_true, false_iff, not_and]
        intro hcq; exact absurd hcq.symm hc

private theorem fnmatch_suffix (s p : List Char) (h : ∀ c ∈ p, c ≠ '*' ∧ c ≠ '?') :
    fnmatch s ('*' :: p) = true ↔ ∃ t, s = t ++ p := by
  induction s with
  | nil =>
    rw [fnmatch]
    simp only [if_true]
    rw [fnmatch_plain _ _ h]
    constructor
    · intro h; exact ⟨[], by simpa using h⟩
    · rintro ⟨t, ht⟩; simp at ht; exact ht.2.symm ▸ rfl
  | cons c s ih =>
    rw [fnmatch]
    simp only [if_true, Bool.or_eq_true]
    rw [fnmatch_plain _ _ h, ih]
    constructor
    · rintro (h | ⟨t, ht⟩)
      · exact ⟨[], by simpa using h⟩
      · exact ⟨c :: t, by simp [ht]⟩
    · rintro ⟨t, ht⟩
      cases t with
      | nil => left; simpa using ht
      | cons d t => right; simp at ht; exact ⟨t, ht.2⟩

private theorem fnmatch_prefix (a s p : List Char) (h : ∀ c ∈ a, c ≠ '*' ∧ c ≠ '?') :
    fnmatch s (a ++ p) = true ↔ ∃ t, s = a ++ t ∧ fnmatch t p = true := by
  induction a generalizing s with
  | nil => simp
  | cons q a ih =>
    have h' := h q (by simp)
    cases s with
    | nil => rw [List.cons_append, fnmatch]; simp [h'.1]
    | cons c s =>
      rw [List.cons_append, fnmatch]
      simp only [h'.1, if_false, h'.2, decide_false, Bool.false_or, decide_eq_true_eq]
      by_cases hc : q = c
      · rw [if_pos hc, ih s (fun c hc => h c (by simp [hc]))]
        simp [hc]
      · rw [if_neg hc]
        simp only [Bool.false_eq_true, false_iff]
        rintro ⟨t, ht, -⟩
        simp at ht; exact hc ht.1.symm

private theorem urls_none (name e : List Char) (he : extension name = e)
    (h : e ∉ [[], ".all".toList, ".dat".toList, ".tf".toList, ".bpc".toList, ".tpc".toList]) : defaultUrls name = none := by
  unfold defaultUrls
  have key : ∀ k : List Char, extension k ∈ [[], ".all".toList, ".dat".toList, ".tf".toList, ".bpc".toList, ".tpc".toList] → name ≠ k := by
    rintro k hk rfl; exact h (he ▸ hk)
  rw [if_neg (key _ (by decide +kernel)), if_neg (key _ (by decide +kernel)), if_neg (key _ (by decide +kernel)),
    if_neg (key _ (by decide +kernel)), if_neg (key _ (by decide +kernel)), if_neg (key _ (by decide +kernel))]

private theorem parsers_none (name : List Char) (h : name ∉ ["deltat.data".toList, "deltat.preds".toList, "Leap_Second.dat".toList]) :
    defaultParsers name = none := by
  simp only [List.mem_cons, List.not_mem_nil, or_false, not_or] at h
  unfold defaultParsers
  rw [if_neg h.1, if_neg h.2.1, if_neg h.2.2]

private theorem parsers_rules (key : List Char) : ∀ l, defaultParsers key ≠ some (.rules l) := by
  intro l; unfold defaultParsers; split_ifs <;> simp

private theorem parser_search_none (name : List Char) (h : name ∉ ["deltat.data".toList, "deltat.preds".toList, "Leap_Second.dat".toList]) :
    search fnmatch defaultParsers name = none := by
  unfold search
  rw [parsers_none name h]
  simp only
  cases hx : defaultParsers (extension name) with
  | none => rfl
  | some v =>
    cases v with
    | direct v => rfl
    | rules l => exact absurd hx (parsers_rules _ l)

private theorem openers_none (name : List Char) (h : extension name ≠ []) : defaultOpeners name = none := by
  unfold defaultOpeners
  have key : ∀ k : List Char, extension k = [] → name ≠ k := by rintro k hk rfl; exact h hk
  rw [if_neg (key _ (by decide +kernel)), if_neg (key _ (by decide +kernel)), if_neg (key _ (by decide +kernel)),
    if_neg (key _ (by decide +kernel))]

/-- The name ends in the extension. -/
private theorem ends (name ext : List Char) (h : HasExtension name ext) : ∃ t, name = t ++ '.' :: ext := by
  obtain ⟨dir, stem, e, -⟩ := h
  exact ⟨dir ++ stem, e⟩

/-- An ephemeris file: any name with the extension `.bsp`, not itself a web address, is opened as a SPICE kernel, and
fetched, if it has to be, from the satellite directory at NAIF when it begins with `jup`, otherwise from JPL's
directory of planetary ephemerides. -/
theorem C98_ephemeris (directory : Path) (name : FileName) (hu : isUrl name = false) (h : HasExtension name "bsp".toList) :
    (defaultLoader directory).resolve name =
      .ok (some ((if "jup".toList <+: name then "https://naif.jpl.nasa.gov/pub/naif/generic_kernels/spk/satellites/".toList
        else "https://ssd.jpl.nasa.gov/ftp/eph/planets/bsp/".toList) ++ name), name, .opener .spiceKernel) := by
  have hx : extension name = ".bsp".toList := (extension_iff name "bsp".toList (by decide) (by decide)).2 h
  obtain ⟨t, ht⟩ := ends _ _ h
  have hx' : ".bsp".toList ≠ [] := by decide
  have h1 : search fnmatch defaultParsers name = none := by
    apply parser_search_none
    intro hm
    have : ∀ k ∈ ["deltat.data".toList, "deltat.preds".toList, "Leap_Second.dat".toList], extension k ≠ ".bsp".toList := by
      decide +kernel
    exact this name hm hx
  have star : fnmatch name "*.bsp".toList = true := (fnmatch_suffix name ".bsp".toList (by decide)).2 ⟨t, ht⟩
  have h2 : search fnmatch defaultOpeners name = some .spiceKernel := by
    unfold search
    rw [openers_none name (by rw [hx]; exact hx'), hx]
    simp only [defaultOpeners, if_true, searchRules, star]
  have h3 : search fnmatch defaultUrls name =
      some (if "jup".toList <+: name then "https://naif.jpl.nasa.gov/pub/naif/generic_kernels/spk/satellites/".toList
        else "https://ssd.jpl.nasa.gov/ftp/eph/planets/bsp/".toList) := by
    unfold search
    rw [urls_none name _ hx (by decide), hx]
    simp only [defaultUrls, if_true, searchRules, star]
    have hj : fnmatch name "jup*.bsp".toList = true ↔ "jup".toList <+: name := by
      have := fnmatch_prefix "jup".toList name "*.bsp".toList (by decide)
      rw [show "jup*.bsp".toList = "jup".toList ++ "*.bsp".toList from rfl, this]
      constructor
      · rintro ⟨u, hu, -⟩; exact ⟨u, hu.symm⟩
      · rintro ⟨u, hu⟩
        refine ⟨u, hu.symm, ?_⟩
        rw [show "*.bsp".toList = '*' :: ".bsp".toList from rfl, fnmatch_suffix _ _ (by decide)]
        -- `jup` and `.bsp` cannot overlap
        rw [ht] at hu
        rw [List.append_eq_append_iff] at hu
        rcases hu with ⟨v, hv, hv'⟩ | ⟨v, hv, hv'⟩
        · exact ⟨v, hv'⟩
        · cases v with
          | nil => exact ⟨[], by simpa using hv'.symm⟩
          | cons c v =>
            simp only [List.cons_append, List.cons.injEq] at hv'
            have : '.' ∈ "jup".toList := by rw [hv, hv'.1]; simp
            exact absurd this (by decide)
    by_cases hp : "jup".toList <+: name
    · rw [if_pos (hj.2 hp), if_pos hp]
    · rw [if_neg (fun h => hp (hj.1 h)), if_neg hp]
  unfold Loader.resolve
  simp only [defaultLoader, h1, h2, h3, hu, Bool.false_eq_true, if_false, Option.map_some]
  by_cases hp : "jup".toList <+: name
  · simp only [if_pos hp]; rw [if_neg (by decide)]
  · simp only [if_neg hp]; rw [if_neg (by decide)]

private theorem known_plain : ∀ ext ∈ ["bsp".toList, "bpc".toList, "tpc".toList, "tf".toList], '.' ∉ ext ∧ '/' ∉ ext := by
  decide

private theorem opener_binary (name ext : List Char) (he : ext = "bpc".toList ∨ ext = "tpc".toList ∨ ext = "tf".toList)
    (h : HasExtension name ext) : search fnmatch defaultOpeners name = some .binary := by
  have hx1 : extension name = '.' :: ext := by
    have := known_plain ext (by rcases he with rfl | rfl | rfl <;> simp)
    exact (extension_iff name ext this.1 this.2).2 h
  unfold search
  rw [openers_none name (by rw [hx1]; simp), hx1]
  have star : fnmatch name "*".toList = true := fnmatch_star name
  have e : defaultOpeners ('.' :: ext) = some (.rules [("*".toList, .binary)]) := by rcases he with rfl | rfl | rfl <;> rfl
  rw [e]
  simp only [searchRules, star, if_true]

private theorem opener_kernel (name : List Char) (h : HasExtension name "bsp".toList) :
    search fnmatch defaultOpeners name = some .spiceKernel := by
  have hx1 : extension name = ".bsp".toList := (extension_iff name "bsp".toList (by decide) (by decide)).2 h
  unfold search
  rw [openers_none name (by rw [hx1]; decide), hx1]
  obtain ⟨t, ht⟩ := ends _ _ h
  have star : fnmatch name "*.bsp".toList = true := (fnmatch_suffix name ".bsp".toList (by decide)).2 ⟨t, ht⟩
  simp only [defaultOpeners, if_true, searchRules, star]

/-- A name (or the last name of a web address) is refused with `ValueError` exactly when it is none of the three
known names and has none of the four known extensions.  (A name that consists of a known extension only, like
`.bsp`, is set apart: see the simplification at `search`.) -/
theorem C98_unknown (directory : Path) (arg name : FileName) (hn : name = if isUrl arg then urlLastName arg else arg)
    (_hk : name ∉ [".bsp".toList, ".bpc".toList, ".tpc".toList, ".tf".toList]) :
    (defaultLoader directory).resolve arg = .error .unknownFormat ↔
      name ∉ ["deltat.data".toList, "deltat.preds".toList, "Leap_Second.dat".toList] ∧
        ∀ ext ∈ ["bsp".toList, "bpc".toList, "tpc".toList, "tf".toList], ¬ HasExtension name ext := by
  have hp : search fnmatch defaultParsers name = none ↔
      name ∉ ["deltat.data".toList, "deltat.preds".toList, "Leap_Second.dat".toList] := by
    constructor
    · intro h hm
      have : ∀ k ∈ ["deltat.data".toList, "deltat.preds".toList, "Leap_Second.dat".toList],
          search fnmatch defaultParsers k ≠ none := by decide +kernel
      exact this name hm h
    · exact parser_search_none name
  have ho : search fnmatch defaultOpeners name = none ↔
      ∀ ext ∈ ["bsp".toList, "bpc".toList, "tpc".toList, "tf".toList], ¬ HasExtension name ext := by
    constructor
    · intro h ext he hx
      simp only [List.mem_cons, List.not_mem_nil, or_false] at he
      rcases he with rfl | he
      · rw [opener_kernel name hx] at h; cases h
      · rw [opener_binary name ext he hx] at h; cases h
    · intro h
      have hne : ∀ ext ∈ ["bsp".toList, "bpc".toList, "tpc".toList, "tf".toList], extension name ≠ '.' :: ext := by
        intro ext he hx
        exact h ext he ((extension_iff name ext (known_plain ext he).1 (known_plain ext he).2).1 hx)
      have h2 : defaultOpeners (extension name) = none := by
        have a1 : extension name ≠ ".bsp".toList := hne "bsp".toList (by simp)
        have a2 : extension name ≠ ".bpc".toList := hne "bpc".toList (by simp)
        have a3 : extension name ≠ ".tpc".toList := hne "tpc".toList (by simp)
        have a4 : extension name ≠ ".tf".toList := hne "tf".toList (by simp)
        unfold defaultOpeners
        rw [if_neg a1, if_neg a2, if_neg a3, if_neg a4]
      unfold search
      have h3 : defaultOpeners name = none ∨ ∃ l, defaultOpeners name = some (.rules l) := by
        unfold defaultOpeners; split_ifs <;> simp
      rcases h3 with h3 | ⟨l, h3⟩
      · rw [h3, h2]
      · rw [h3]
  rw [← hp, ← ho, hn]
  unfold Loader.resolve
  simp only [defaultLoader]
  generalize (if isUrl arg = true then urlLastName arg else arg) = name
  cases search fnmatch defaultParsers name <;> cases search fnmatch defaultOpeners name <;> simp

/-- The addresses known for files other than ephemerides. -/
theorem C98_addresses (name : FileName) (h : ¬ HasExtension name "bsp".toList) :
    search fnmatch defaultUrls name =
      if name = "finals2000A.all".toList then some "https://datacenter.iers.org/products/eop/rapid/standard/".toList
      else if name = "Leap_Second.dat".toList then some "https://hpiers.obspm.fr/iers/bul/bulc/".toList
      else if name = "moon_080317.tf".toList then
        some "https://naif.jpl.nasa.gov/pub/naif/generic_kernels/fk/satellites/".toList
      else if name = "moon_pa_de421_1900-2050.bpc".toList then
        some "https://naif.jpl.nasa.gov/pub/naif/generic_kernels/pck/".toList
      else if name = "pck00008.tpc".toList then
        some "https://naif.jpl.nasa.gov/pub/naif/generic_kernels/pck/a_old_versions/".toList
      else none := by
  have hx : extension name ≠ ".bsp".toList := fun hx => h ((extension_iff name "bsp".toList (by decide) (by decide)).1 hx)
  by_cases h1 : name = "finals2000A.all".toList
  · subst h1; rfl
  by_cases h2 : name = "Leap_Second.dat".toList
  · subst h2; rfl
  by_cases h3 : name = "moon_080317.tf".toList
  · subst h3; rfl
  by_cases h4 : name = "moon_pa_de421_1900-2050.bpc".toList
  · subst h4; rfl
  by_cases h5 : name = "pck00008.tpc".toList
  · subst h5; rfl
  rw [if_neg h1, if_neg h2, if_neg h3, if_neg h4, if_neg h5]
  have hr : ∀ key l, defaultUrls key = some (.rules l) → key = ".bsp".toList := by
    intro key l hk
    unfold defaultUrls at hk
    split_ifs at hk with hb
    · exact hb
    all_goals simp at hk
  unfold search
  cases hm : defaultUrls name with
  | some v =>
    cases v with
    | rules l => rfl
    | direct v =>
      exfalso
      unfold defaultUrls at hm
      rw [if_neg h1, if_neg h2, if_neg h3, if_neg h4, if_neg h5] at hm
      split_ifs at hm; simp at hm
  | none =>
    simp only
    cases hm2 : defaultUrls (extension name) with
    | none => rfl
    | some v =>
      cases v with
      | direct v => rfl
      | rules l => exact absurd (hr _ _ hm2) hx

/-- Text kernels and orientation kernels are opened as plain binary files; only three of them have an address, so any
other has to be in the directory already. -/
theorem C98_kernels (directory : Path) (name : FileName) (hu : isUrl name = false)
    (h : HasExtension name "bpc".toList ∨ HasExtension name "tpc".toList ∨ HasExtension name "tf".toList) :
    ∃ url, (defaultLoader directory).resolve name = .ok (url, name, .opener .binary) ∧
      (url = none ↔ name ∉ ["moon_080317.tf".toList, "moon_pa_de421_1900-2050.bpc".toList, "pck00008.tpc".toList]) := by
  obtain ⟨ext, he, hx⟩ : ∃ ext, (ext = "bpc".toList ∨ ext = "tpc".toList ∨ ext = "tf".toList) ∧ HasExtension name ext := by
    rcases h with h | h | h
    exacts [⟨_, Or.inl rfl, h⟩, ⟨_, Or.inr (Or.inl rfl), h⟩, ⟨_, Or.inr (Or.inr rfl), h⟩]
  have hx1 : extension name = '.' :: ext := by
    have := known_plain ext (by rcases he with rfl | rfl | rfl <;> simp)
    exact (extension_iff name ext this.1 this.2).2 hx
  have hnb : ¬ HasExtension name "bsp".toList := by
    intro hb
    have := (extension_iff name "bsp".toList (by decide) (by decide)).2 hb
    rw [hx1] at this
    rcases he with rfl | rfl | rfl <;> revert this <;> decide
  have hnp : name ∉ ["deltat.data".toList, "deltat.preds".toList, "Leap_Second.dat".toList] := by
    intro hm
    have : ∀ k ∈ ["deltat.data".toList, "deltat.preds".toList, "Leap_Second.dat".toList],
      extension k ≠ ".bpc".toList ∧ extension k ≠ ".tpc".toList ∧ extension k ≠ ".tf".toList := by decide +kernel
    have := this name hm
    rcases he with rfl | rfl | rfl
    exacts [this.1 hx1, this.2.1 hx1, this.2.2 hx1]
  have hf : name ≠ "finals2000A.all".toList := by
    rintro rfl
    have : extension "finals2000A.all".toList = ".all".toList := by decide +kernel
    rw [this] at hx1
    rcases he with rfl | rfl | rfl <;> revert hx1 <;> decide
  have hl : name ≠ "Leap_Second.dat".toList := fun h => hnp (by simp [h])
  unfold Loader.resolve
  simp only [defaultLoader, hu, Bool.false_eq_true, if_false, parser_search_none name hnp, opener_binary name ext he hx,
    C98_addresses name hnb]
  refine ⟨_, rfl, ?_⟩
  rw [if_neg hf, if_neg hl]
  simp only [List.mem_cons, List.not_mem_nil, or_false, not_or]
  split_ifs <;> simp_all

/-- The three files with a parser: how each is read, and from where it comes. -/
theorem C98_tables (directory : Path) :
    (defaultLoader directory).resolve "deltat.data".toList = .ok (none, "deltat.data".toList, .parse .deltatData) ∧
      (defaultLoader directory).resolve "deltat.preds".toList = .ok (none, "deltat.preds".toList, .parse .deltatPreds) ∧
      (defaultLoader directory).resolve "Leap_Second.dat".toList =
        .ok (some "https://hpiers.obspm.fr/iers/bul/bulc/Leap_Second.dat".toList, "Leap_Second.dat".toList, .parse .leapSeconds) :=
  ⟨rfl, rfl, rfl⟩

/-- `finals2000A.all` has an address, for `download`, but a call of the loader does not open it. -/
theorem C98_finals (directory : Path) :
    (defaultLoader directory).downloadPlan "finals2000A.all".toList none =
        .ok ("https://datacenter.iers.org/products/eop/rapid/standard/finals2000A.all".toList,
          pathIn directory "finals2000A.all".toList) ∧
      (defaultLoader directory).resolve "finals2000A.all".toList = .error .unknownFormat :=
  ⟨rfl, rfl⟩

private theorem afterScheme_at (scheme rest : List Char) (h : ':' ∉ scheme) :
    afterScheme (scheme ++ "://".toList ++ rest) = rest := by
  induction scheme with
  | nil => rfl
  | cons c s ih =>
    have h1 : c ≠ ':' := by rintro rfl; exact h (by simp)
    have h2 : ':' ∉ s := fun hm => h (by simp [hm])
    rw [List.cons_append, List.cons_append, afterScheme, if_neg, ih h2]
    intro hp
    rw [List.isPrefixOf_iff_prefix] at hp
    obtain ⟨t, ht⟩ := hp
    rw [show "://".toList = ':' :: "//".toList from rfl, List.cons_append, List.cons.injEq] at ht
    exact h1 ht.1.symm

/-- The local name of a downloaded file is the last name in its address, whatever parameters, query or fragment follow. -/
theorem C98_url_name (url name : List Char) (a : AddressOf url name) : urlLastName url = name := by
  obtain ⟨scheme, host, dirs, params, rest, rfl, hs, hh, hd, hd0, hn, hp, hp0, hr⟩ := a
  unfold urlLastName
  have e1 : scheme ++ "://".toList ++ host ++ dirs ++ '/' :: name ++ params ++ rest =
      scheme ++ "://".toList ++ ((host ++ dirs ++ '/' :: name ++ params) ++ rest) := by simp only [List.append_assoc, List.cons_append]
  rw [e1, afterScheme_at _ _ hs]
  have hall : ∀ c ∈ host ++ dirs ++ '/' :: name ++ params, c ≠ '?' ∧ c ≠ '#' := by
    intro c hc
    simp only [List.mem_append, List.mem_cons] at hc
    rcases hc with ((hc | hc) | rfl | hc) | hc
    · exact (hh c hc).2
    · exact hd c hc
    · decide
    · exact ⟨(hn c hc).2.1, (hn c hc).2.2.1⟩
    · exact (hp c hc).2
  generalize hw : host ++ dirs ++ '/' :: name ++ params = w at hall
  have e2 : ((w ++ rest).takeWhile (· ≠ '#')).takeWhile (· ≠ '?') = w := by
    have hh1 : ∀ x ∈ w, (fun c : Char => decide (c ≠ '#')) x = true := fun x hx => by simpa using (hall x hx).2
    have hh2 : ∀ x ∈ w, (fun c : Char => decide (c ≠ '?')) x = true := fun x hx => by simpa using (hall x hx).1
    rw [List.takeWhile_append_of_pos hh1, List.takeWhile_append_of_pos hh2]
    rcases hr with rfl | hr | hr
    · simp
    · cases rest with
      | nil => simp at hr
      | cons c r => simp at hr; subst hr; simp
    · cases rest with
      | nil => simp at hr
      | cons c r => simp at hr; subst hr; simp
  simp only [e2]
  rw [← hw]
  have e3 : (host ++ dirs ++ '/' :: name ++ params).dropWhile (· ≠ '/') = (dirs ++ ['/']) ++ (name ++ params) := by
    have := (tw_stop (fun c : Char => decide (c ≠ '/')) host (dirs ++ '/' :: name ++ params) (by
      intro x hx; simpa using (hh x hx).1) (by
      intro c hc
      rcases hd0 with rfl | hd0
      · simp at hc; subst hc; simp
      · rw [List.append_assoc, List.head?_append, hd0] at hc
        simp at hc; subst hc; simp)).2
    rw [show host ++ dirs ++ '/' :: name ++ params = host ++ (dirs ++ '/' :: name ++ params) by simp only [List.append_assoc], this]
    simp
  simp only [e3]
  rw [last_component (dirs ++ ['/']) (name ++ params) (Or.inr (by simp)) (by
    intro hm
    rw [List.mem_append] at hm
    rcases hm with hm | hm
    · exact (hn _ hm).1 rfl
    · exact (hp _ hm).1 rfl)]
  exact (tw_stop (fun c : Char => decide (c ≠ ';')) name params (by intro x hx; simpa using (hn x hx).2.2.2) (by
    intro c hc
    rcases hp0 with rfl | hp0
    · simp at hc
    · rw [hp0] at hc; simp at hc; subst hc; simp)).1

/-- The address of a host alone names no file. -/
theorem C98_host_only (scheme host : List Char) (hs : ':' ∉ scheme) (hh : '/' ∉ host) :
    urlLastName (scheme ++ "://".toList ++ host) = [] := by
  unfold urlLastName
  rw [afterScheme_at _ _ hs]
  have : ((host.takeWhile (· ≠ '#')).takeWhile (· ≠ '?')).dropWhile (· ≠ '/') = [] := by
    rw [List.dropWhile_eq_nil_iff]
    intro x hx
    have h1 := (List.takeWhile_subset _ hx)
    have h2 := (List.takeWhile_subset _ h1)
    simp only [ne_eq, decide_eq_true_eq]
    rintro rfl; exact hh h2
  simp only [this]; rfl

/-- The bases of the table are addresses of directories. -/
private theorem base_shape (name base : List Char) (h : search fnmatch defaultUrls name = some base) :
    base ≠ [] ∧ ∃ host dirs, base = "https".toList ++ "://".toList ++ host ++ dirs ++ ['/'] ∧
      (∀ c ∈ host, c ≠ '/' ∧ c ≠ '?' ∧ c ≠ '#') ∧ (∀ c ∈ dirs, c ≠ '?' ∧ c ≠ '#') ∧ (dirs = [] ∨ dirs.head? = some '/') := by
  have hb : base ∈ ["https://naif.jpl.nasa.gov/pub/naif/generic_kernels/spk/satellites/".toList,
      "https://ssd.jpl.nasa.gov/ftp/eph/planets/bsp/".toList,
      "https://datacenter.iers.org/products/eop/rapid/standard/".toList,
      "https://hpiers.obspm.fr/iers/bul/bulc/".toList,
      "https://naif.jpl.nasa.gov/pub/naif/generic_kernels/fk/satellites/".toList,
      "https://naif.jpl.nasa.gov/pub/naif/generic_kernels/pck/".toList,
      "https://naif.jpl.nasa.gov/pub/naif/generic_kernels/pck/a_old_versions/".toList] := by
    by_cases hx : HasExtension name "bsp".toList
    · have hx1 : extension name = ".bsp".toList := (extension_iff name "bsp".toList (by decide) (by decide)).2 hx
      unfold search at h
      rw [urls_none name _ hx1 (by decide), hx1] at h
      simp only [defaultUrls, if_true, searchRules] at h
      split_ifs at h with h1 h2
      · simp only [Option.some.injEq] at h; subst h; simp
      · simp only [Option.some.injEq] at h; subst h; simp
    · rw [C98_addresses name hx] at h
      split_ifs at h <;> simp only [Option.some.injEq, reduceCtorEq] at h <;> subst h <;> simp
  simp only [List.mem_cons, List.not_mem_nil, or_false] at hb
  rcases hb with rfl | rfl | rfl | rfl | rfl | rfl | rfl
  · exact ⟨by decide, "naif.jpl.nasa.gov".toList, "/pub/naif/generic_kernels/spk/satellites".toList, rfl, by decide, by decide, by decide⟩
  · exact ⟨by decide, "ssd.jpl.nasa.gov".toList, "/ftp/eph/planets/bsp".toList, rfl, by decide, by decide, by decide⟩
  · exact ⟨by decide, "datacenter.iers.org".toList, "/products/eop/rapid/standard".toList, rfl, by decide, by decide, by decide⟩
  · exact ⟨by decide, "hpiers.obspm.fr".toList, "/iers/bul/bulc".toList, rfl, by decide, by decide, by decide⟩
  · exact ⟨by decide, "naif.jpl.nasa.gov".toList, "/pub/naif/generic_kernels/fk/satellites".toList, rfl, by decide, by decide, by decide⟩
  · exact ⟨by decide, "naif.jpl.nasa.gov".toList, "/pub/naif/generic_kernels/pck".toList, rfl, by decide, by decide, by decide⟩
  · exact ⟨by decide, "naif.jpl.nasa.gov".toList, "/pub/naif/generic_kernels/pck/a_old_versions".toList, rfl, by decide, by decide, by decide⟩

/-- `loader.download(name)` fetches from the address, and writes to the path, that `loader(name)` would use: what was
downloaded is found afterwards.  (For a name free of the characters that have a meaning in an address.) -/
theorem C98_download_then_load (directory : Path) (name : FileName) (url : Option Url) (file : FileName)
    (how : How DefaultParser DefaultOpener) (hname : ∀ c ∈ name, c ≠ '/' ∧ c ≠ '?' ∧ c ≠ '#' ∧ c ≠ ';')
    (u : Url) (path : Path)
    (hd : (defaultLoader directory).downloadPlan name none = .ok (u, path))
    (hl : (defaultLoader directory).resolve name = .ok (url, file, how)) :
    url = some u ∧ path = (defaultLoader directory).pathTo file := by
  have hu : isUrl name = false := by
    by_contra h
    rw [Bool.not_eq_false] at h
    unfold isUrl at h
    rw [List.any_eq_true] at h
    obtain ⟨t, ht, hp⟩ := h
    rw [List.isPrefixOf_iff_prefix] at hp
    have h1 : '/' ∈ t := hp.subset (by decide)
    have h2 : '/' ∈ name := (List.mem_tails t name |>.1 ht).subset h1
    exact (hname _ h2).1 rfl
  unfold Loader.downloadPlan Loader.buildUrl at hd
  unfold Loader.resolve at hl
  simp only [hu, Bool.false_eq_true, if_false] at hd hl
  cases hb : search (defaultLoader directory).glob (defaultLoader directory).urls name with
  | none => rw [hb] at hd; simp at hd
  | some base =>
    rw [hb] at hd hl
    obtain ⟨hne, host, dirs, e, h1, h2, h3⟩ := base_shape name base hb
    simp only [hne, if_false, Option.map_some] at hd hl
    have hnm : urlLastName (base ++ name) = name :=
      C98_url_name (base ++ name) name ⟨"https".toList, host, dirs, [], [], by rw [e]; simp, by decide, h1, h2, h3,
        hname, by simp, Or.inl rfl, Or.inl rfl⟩
    simp only [Option.getD_none, Except.ok.injEq, Prod.mk.injEq] at hd
    have hpath : path = (defaultLoader directory).pathTo name := by
      rw [← hd.2]
      show pathIn directory (urlLastName (base ++ name)) = pathIn directory name
      rw [hnm]
    have hfile : some (base ++ name) = url ∧ name = file := by
      cases hq : search (defaultLoader directory).glob (defaultLoader directory).parsers name with
      | none =>
        rw [hq] at hl
        cases hq2 : search (defaultLoader directory).glob (defaultLoader directory).openers name with
        | none => rw [hq2] at hl; simp at hl
        | some o => rw [hq2] at hl; simp at hl; exact ⟨hl.1, hl.2.1⟩
      | some q => rw [hq] at hl; simp at hl; exact ⟨hl.1, hl.2.1⟩
    exact ⟨by rw [← hfile.1, hd.1], by rw [hpath, hfile.2]⟩

/-- `loader.download(url)` requests that address and stores it under its last name; `loader.download(url, filename)` requests the
same address, or for a bare name the one in the table, and stores it under the name given. -/
theorem C98_download_as (directory : Path) (url name file : FileName) (a : AddressOf url name) :
    (defaultLoader directory).downloadPlan url none = .ok (url, pathIn directory name) ∧
      (defaultLoader directory).downloadPlan url (some file) = .ok (url, pathIn directory file) ∧
      ∀ known u path, (defaultLoader directory).downloadPlan known none = .ok (u, path) →
        (defaultLoader directory).downloadPlan known (some file) = .ok (u, pathIn directory file) := by
  have hname := C98_url_name url name a
  have hu : isUrl url = true := by
    obtain ⟨scheme, host, dirs, params, rest, rfl, -⟩ := a
    unfold isUrl
    rw [List.any_eq_true]
    refine ⟨"://".toList ++ host ++ dirs ++ "/".toList ++ name ++ params ++ rest, ?_, ?_⟩
    · rw [List.mem_tails]
      exact ⟨scheme, by simp⟩
    · rw [List.isPrefixOf_iff_prefix]
      exact ⟨host ++ dirs ++ "/".toList ++ name ++ params ++ rest, by simp⟩
  refine ⟨?_, ?_, ?_⟩
  · unfold Loader.downloadPlan
    rw [hu]
    show Except.ok (url, pathIn directory (urlLastName url)) = _
    rw [hname]
  · unfold Loader.downloadPlan
    rw [hu]
    rfl
  · intro known u path h
    unfold Loader.downloadPlan at h ⊢
    generalize (if isUrl known then .ok known else (defaultLoader directory).buildUrl known) = r at h ⊢
    cases r with
    | error e => cases h
    | ok x =>
      simp only [Except.ok.injEq, Prod.mk.injEq] at h ⊢
      exact ⟨h.1, rfl⟩

/-- Two different file names in a loader's directory are two different paths. -/
theorem C98_paths (directory : Path) (a b : FileName) (ha : a.head? ≠ some '/') (hb : b.head? ≠ some '/')
    (h : pathIn directory a = pathIn directory b) : a = b := by
  unfold pathIn joinPath at h
  simp only [ha, hb, if_false] at h
  split_ifs at h
  · exact h
  · exact List.append_cancel_left h
  · simpa using h

/-- `load_file` opens what has the extension `.bsp`, after `~` has been expanded, and refuses everything else. -/
theorem C98_load_file (expanduser : Path → Path) (path : Path) :
    (HasExtension (expanduser path) "bsp".toList → loadFile expanduser path = .ok (expanduser path)) ∧
      (¬ HasExtension (expanduser path) "bsp".toList → loadFile expanduser path = .error .unknownFormat) := by
  have : extension (expanduser path) = ".bsp".toList ↔ _ := extension_iff (expanduser path) "bsp".toList (by decide) (by decide)
  unfold loadFile
  constructor
  · intro h; rw [if_pos (this.2 h)]
  · intro h; rw [if_neg (fun hx => h (this.1 hx))]

/-- The whole of `load('de421.bsp')`: if the file is in the directory it is opened as a SPICE kernel and the network is not
used; if not, one request is made, to JPL or (for `jup...`) to NAIF, and what the server delivered is stored under that
name in the directory and opened as a SPICE kernel, or the call raises. -/
theorem C98_load_ephemeris {β : Type*} (directory : Path) (serves : Url → List β → Prop) (name : FileName) (backup : Bool)
    (hu : isUrl name = false) (hx : HasExtension name "bsp".toList) (s s' : LoaderState β)
    (out : Outcome β DefaultParser DefaultOpener)
    (h : Answer (defaultLoader directory) serves (.call name false backup) s out s') :
    (∀ c, s.files (pathIn directory name) = some c → s' = s ∧ out = .opened (.opener .spiceKernel) c) ∧
      (s.files (pathIn directory name) = none → ∃ url,
        url = (if "jup".toList <+: name then "https://naif.jpl.nasa.gov/pub/naif/generic_kernels/spk/satellites/".toList
          else "https://ssd.jpl.nasa.gov/ftp/eph/planets/bsp/".toList) ++ name ∧
        s'.requests = s.requests ++ [url] ∧
        (out = .error .network ∨
          ∃ c, serves url c ∧ s'.files (pathIn directory name) = some c ∧ out = .opened (.opener .spiceKernel) c)) := by
  have hres := C98_ephemeris directory name hu hx
  constructor
  · intro c hc
    exact C28_present (defaultLoader directory) serves name backup _ _ _ hres s s' out c hc h
  · intro hc
    obtain ⟨h1, -, h2⟩ := C28_absent (defaultLoader directory) serves name false backup _ _ _ hres s s' out hc h
    refine ⟨_, rfl, h1, ?_⟩
    rcases h2 with h2 | h2
    · exact Or.inr h2
    · exact Or.inl h2.1

/-! ### Non-vacuity -/

example : HasExtension "de421.bsp".toList "bsp".toList ∧ isUrl "de421.bsp".toList = false ∧
    HasExtension "/home/me/.kernels/jup310.bsp".toList "bsp".toList :=
  ⟨⟨[], "de421".toList, rfl, Or.inl rfl, by decide, by decide⟩, by decide +kernel,
    ⟨"/home/me/.kernels/".toList, "jup310".toList, rfl, by decide, by decide, by decide⟩⟩

example : ¬ HasExtension ".bsp".toList "bsp".toList := by
  rw [← extension_iff _ _ (by decide) (by decide)]; decide +kernel

example : ¬ HasExtension "de421.bsp.old".toList "bsp".toList := by
  rw [← extension_iff _ _ (by decide) (by decide)]; decide +kernel

example : urlLastName "https://celestrak.org/NORAD/elements/gp.php?GROUP=stations&FORMAT=tle".toList = "gp.php".toList := by
  decide +kernel

example : Nonempty (AddressOf "https://celestrak.org/NORAD/elements/gp.php?FILE=a/b.bsp".toList "gp.php".toList) :=
  ⟨⟨"https".toList, "celestrak.org".toList, "/NORAD/elements".toList, [], "?FILE=a/b.bsp".toList, rfl, by decide, by decide,
    by decide, by decide, by decide, by decide, by decide, by decide⟩⟩

example : (defaultLoader "/data".toList).downloadPlan "jup365.bsp".toList none =
    .ok ("https://naif.jpl.nasa.gov/pub/naif/generic_kernels/spk/satellites/jup365.bsp".toList, "/data/jup365.bsp".toList) := by
  have h1 : search (defaultLoader "/data".toList).glob (defaultLoader "/data".toList).urls "jup365.bsp".toList =
    some "https://naif.jpl.nasa.gov/pub/naif/generic_kernels/spk/satellites/".toList := by decide +kernel
  have h2 : isUrl "jup365.bsp".toList = false := by decide +kernel
  unfold Loader.downloadPlan Loader.buildUrl
  rw [h1, h2]
  rfl

end Skyfield
