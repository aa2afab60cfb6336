import Verif.Props.Download
import Verif.Model.Loader
import Mathlib.Tactic.Common

/-
C28: the loader.
-/
namespace Skyfield
variable {β P O V : Type*}

/-! ### Which rule applies -/

theorem searchRules_eq_some (glob : FileName → List Char → Bool) (name : FileName) (l : List (List Char × V))
    (v : V) : searchRules glob name l = some v ↔
      ∃ before pattern after, l = before ++ (pattern, v) :: after ∧ glob name pattern = true ∧
        ∀ r ∈ before, glob name r.1 = false := by
  induction l with
  | nil => simp [searchRules]
  | cons x rest ih =>
    obtain ⟨pattern, w⟩ := x
    rw [searchRules]
    by_cases h : glob name pattern = true
    · rw [if_pos h]
      constructor
      · intro e
        rw [Option.some.injEq] at e; subst e
        exact ⟨[], pattern, rest, rfl, h, by simp⟩
      · rintro ⟨before, pat, after, e, hm, hb⟩
        cases before with
        | nil => simp at e; rw [e.1.2]
        | cons y ys =>
          simp at e
          have := hb y (by simp)
          rw [← e.1] at this
          simp [h] at this
    · rw [if_neg h, ih]
      constructor
      · rintro ⟨before, pat, after, e, hm, hb⟩
        refine ⟨(pattern, w) :: before, pat, after, by simp [e], hm, ?_⟩
        intro r hr
        rw [List.mem_cons] at hr
        rcases hr with rfl | hr
        · simpa using h
        · exact hb r hr
      · rintro ⟨before, pat, after, e, hm, hb⟩
        cases before with
        | nil => simp at e; rw [e.1.1] at h; exact absurd hm h
        | cons y ys =>
          simp at e
          exact ⟨ys, pat, after, e.2, hm, fun r hr => hb r (by simp [hr])⟩

/-- **C28.** The rule used for a name: its own entry in the table if it has one, or else the first pattern, in
the order of the list for the name's extension, that matches the name. -/
theorem C28_first_rule (glob : FileName → List Char → Bool) (mapping : Table V) (name : FileName) (v : V) :
    search glob mapping name = some v ↔
      mapping name = some (.direct v) ∨
        (mapping name = none ∧ ∃ before pattern after,
          mapping (extension name) = some (.rules (before ++ (pattern, v) :: after)) ∧
            glob name pattern = true ∧ ∀ r ∈ before, glob name r.1 = false) := by
  unfold search
  cases h : mapping name with
  | none =>
    simp only [reduceCtorEq, false_or, true_and]
    cases h2 : mapping (extension name) with
    | none => simp
    | some e =>
      cases e with
      | direct w => simp
      | rules l =>
        simp only [searchRules_eq_some, Option.some.injEq, Entry.rules.injEq]
  | some e => cases e <;> simp

/-- **C28.** What a name is read with: a parser for it if there is one, otherwise an opener; a plain name is fetched
from the base of its URL rule with the name appended, a URL from itself. -/
theorem C28_resolve (L : Loader P O) (arg : FileName) (url : Option Url) (name : FileName) (how : How P O)
    (h : L.resolve arg = .ok (url, name, how)) :
    (isUrl arg = true → url = some arg ∧ name = L.urlName arg) ∧
    (isUrl arg = false → name = arg ∧
      ∀ u, url = some u → ∃ base, search L.glob L.urls arg = some base ∧ (base ≠ [] → u = base ++ arg)) ∧
    ((∃ p, how = .parse p ∧ search L.glob L.parsers name = some p) ∨
      (∃ o, how = .opener o ∧ search L.glob L.parsers name = none ∧ search L.glob L.openers name = some o)) := by
  unfold Loader.resolve at h
  simp only at h
  split at h
  · cases h
  · rename_i hp
    simp only [Except.ok.injEq, Prod.mk.injEq] at h
    obtain ⟨h1, h2, h3⟩ := h
    refine ⟨fun hu => ?_, fun hu => ?_, Or.inl ⟨_, h3.symm, by rw [← h2]; exact hp⟩⟩
    · simp only [hu, if_true] at h1 h2; exact ⟨h1.symm, h2.symm⟩
    · simp only [hu, Bool.false_eq_true, if_false] at h1 h2
      refine ⟨h2.symm, fun u e => ?_⟩
      rw [← h1, Option.map_eq_some_iff] at e
      obtain ⟨base, hb, e⟩ := e
      exact ⟨base, hb, fun hne => by rw [if_neg hne] at e; exact e.symm⟩
  · rename_i o hp hq
    simp only [Except.ok.injEq, Prod.mk.injEq] at h
    obtain ⟨h1, h2, h3⟩ := h
    refine ⟨fun hu => ?_, fun hu => ?_,
      Or.inr ⟨_, h3.symm, by rw [← h2]; exact hp, by rw [← h2]; exact hq⟩⟩
    · simp only [hu, if_true] at h1 h2; exact ⟨h1.symm, h2.symm⟩
    · simp only [hu, Bool.false_eq_true, if_false] at h1 h2
      refine ⟨h2.symm, fun u e => ?_⟩
      rw [← h1, Option.map_eq_some_iff] at e
      obtain ⟨base, hb, e⟩ := e
      exact ⟨base, hb, fun hne => by rw [if_neg hne] at e; exact e.symm⟩

/-! ### One call -/

theorem assure_present (serves : Url → List β → Prop) (url : Option Url) (path : Path) (backup : Bool)
    (s s' : LoaderState β) (e : Option LoaderError) (c : List β) (hc : s.files path = some c)
    (h : Assure serves url path false backup s e s') : e = none ∧ s' = s := by
  cases h with
  | present c' h1 _ => exact ⟨rfl, rfl⟩
  | noUrl h1 _ => rw [hc] at h1; simp at h1
  | ok u _ h1 _ _ => rw [hc] at h1; simp at h1
  | bad u _ h1 _ _ => rw [hc] at h1; simp at h1

/-- **C28.** If the file is already there, a call makes no request, changes nothing, and opens it as it is. -/
theorem C28_present (L : Loader P O) (serves : Url → List β → Prop) (arg : FileName) (backup : Bool)
    (url : Option Url) (name : FileName) (how : How P O) (hres : L.resolve arg = .ok (url, name, how))
    (s s' : LoaderState β) (out : Outcome β P O) (c : List β) (hc : s.files (L.pathTo name) = some c)
    (h : Answer L serves (.call arg false backup) s out s') : s' = s ∧ out = .opened how c := by
  cases h with
  | unresolved _ _ _ _ e he => rw [hres] at he; cases he
  | called _ _ _ url' name' how' _ _ c' he ha hf =>
    rw [hres, Except.ok.injEq, Prod.mk.injEq, Prod.mk.injEq] at he
    obtain ⟨rfl, rfl, rfl⟩ := he
    obtain ⟨-, rfl⟩ := assure_present serves _ _ _ _ _ _ c hc ha
    rw [hc, Option.some.injEq] at hf
    subst hf
    exact ⟨rfl, rfl⟩
  | raised _ _ _ url' name' how' _ _ e he ha =>
    rw [hres, Except.ok.injEq, Prod.mk.injEq, Prod.mk.injEq] at he
    obtain ⟨rfl, rfl, rfl⟩ := he
    obtain ⟨e, -⟩ := assure_present serves _ _ _ _ _ _ c hc ha
    cases e

/-- **C28.** The same for `open`, of a URL. -/
theorem C28_open_present (L : Loader P O) (serves : Url → List β → Prop) (url : FileName)
    (filename : Option FileName) (backup : Bool) (hu : isUrl url = true)
    (s s' : LoaderState β) (out : Outcome β P O) (c : List β)
    (hc : s.files (L.pathTo (filename.getD (L.urlName url))) = some c)
    (h : Answer L serves (.openFile url filename false backup) s out s') : s' = s ∧ out = .opened .plain c := by
  cases h with
  | openLocal _ _ _ _ _ c' h1 => rw [hu] at h1; cases h1
  | openMissing _ _ _ _ _ h1 => rw [hu] at h1; cases h1
  | openUrl _ _ _ _ _ _ c' _ ha hf =>
    obtain ⟨-, rfl⟩ := assure_present serves _ _ _ _ _ _ c hc ha
    rw [hc, Option.some.injEq] at hf
    subst hf
    exact ⟨rfl, rfl⟩
  | openRaised _ _ _ _ _ _ e _ ha =>
    obtain ⟨e, -⟩ := assure_present serves _ _ _ _ _ _ c hc ha
    cases e

/-- **C28.** `open` of a local path never makes a request and changes nothing, even with `reload`. -/
theorem C28_open_local (L : Loader P O) (serves : Url → List β → Prop) (path : FileName)
    (filename : Option FileName) (reload backup : Bool) (hu : isUrl path = false)
    (s s' : LoaderState β) (out : Outcome β P O)
    (h : Answer L serves (.openFile path filename reload backup) s out s') :
    s' = s ∧ (out = .error .missing ∨ ∃ c, s.files (L.join path) = some c ∧ out = .opened .plain c) := by
  cases h with
  | openLocal _ _ _ _ _ c h1 h2 => exact ⟨rfl, Or.inr ⟨c, h2, rfl⟩⟩
  | openMissing _ _ _ _ _ h1 h2 => exact ⟨rfl, Or.inl rfl⟩
  | openUrl _ _ _ _ _ _ c h1 _ _ => rw [hu] at h1; cases h1
  | openRaised _ _ _ _ _ _ e h1 _ => rw [hu] at h1; cases h1

theorem fetch_spec (serves : Url → List β → Prop) (u : Url) (path : Path) (backup ok : Bool)
    (s s' : LoaderState β) (h : Fetch serves u path backup s ok s') :
    s'.requests = s.requests ++ [u] ∧
      (∀ x c, x ≠ path → s.files x = some c → s'.files x = some c) ∧
      (ok = true → ∃ c, serves u c ∧ s'.files path = some c) ∧
      (s'.files path = s.files path ∨ (∃ c, serves u c ∧ s'.files path = some c) ∨
        (backup = true ∧ s'.files path = none)) := by
  cases h with
  | refused => exact ⟨rfl, fun x c _ h => h, by simp, Or.inl rfl⟩
  | failed fs' job hd hb hs hr =>
    subst hd; subst hb
    refine ⟨rfl, fun x c hx hc => C25_others_untouched job _ _ _ hr x c hx hc, by simp, ?_⟩
    rcases C25_atomic job _ _ _ hr with h | h | ⟨h1, h2, -⟩
    · exact Or.inl h
    · exact Or.inr (Or.inl ⟨_, hs, h⟩)
    · exact Or.inr (Or.inr ⟨h1, h2⟩)
  | ok fs' job hd hb hs hr =>
    subst hd; subst hb
    have h1 := (C25_returns job _ _ hr).1
    exact ⟨rfl, fun x c hx hc => C25_others_untouched job _ _ _ hr x c hx hc, fun _ => ⟨_, hs, h1⟩,
      Or.inr (Or.inl ⟨_, hs, h1⟩)⟩

/-- **C28.** If the file is absent, a call makes exactly one request, for the URL of the rule; it opens what the
server delivered, now stored under the name, or raises without having stored anything but a
complete delivery there; no other existing file is changed. -/
theorem C28_absent (L : Loader P O) (serves : Url → List β → Prop) (arg : FileName) (reload backup : Bool)
    (url : Url) (name : FileName) (how : How P O) (hres : L.resolve arg = .ok (some url, name, how))
    (s s' : LoaderState β) (out : Outcome β P O) (hc : s.files (L.pathTo name) = none)
    (h : Answer L serves (.call arg reload backup) s out s') :
    s'.requests = s.requests ++ [url] ∧
      (∀ x c, s.files x = some c → s'.files x = some c) ∧
      ((∃ c, serves url c ∧ s'.files (L.pathTo name) = some c ∧ out = .opened how c) ∨
        (out = .error .network ∧
          (s'.files (L.pathTo name) = none ∨ ∃ c, serves url c ∧ s'.files (L.pathTo name) = some c))) := by
  have hne : ∀ x c, s.files x = some c → x ≠ L.pathTo name := by
    rintro x c hx rfl; rw [hc] at hx; cases hx
  cases h with
  | unresolved _ _ _ _ e he => rw [hres] at he; cases he
  | called _ _ _ url' name' how' _ _ c' he ha hf =>
    rw [hres, Except.ok.injEq, Prod.mk.injEq, Prod.mk.injEq] at he
    obtain ⟨rfl, rfl, rfl⟩ := he
    cases ha with
    | present c h1 _ => rw [hc] at h1; cases h1
    | ok u _ h1 h2 hfetch =>
      rw [Option.some.injEq] at h2; subst h2
      obtain ⟨k1, k2, k3, -⟩ := fetch_spec serves _ _ _ _ _ _ hfetch
      obtain ⟨c, k4, k5⟩ := k3 rfl
      rw [hf, Option.some.injEq] at k5
      subst k5
      exact ⟨k1, fun x c h => k2 x c (hne x c h) h, Or.inl ⟨_, k4, hf, rfl⟩⟩
  | raised _ _ _ url' name' how' _ _ e he ha =>
    rw [hres, Except.ok.injEq, Prod.mk.injEq, Prod.mk.injEq] at he
    obtain ⟨rfl, rfl, rfl⟩ := he
    cases ha with
    | noUrl h1 h2 => cases h2
    | bad u _ h1 h2 hfetch =>
      rw [Option.some.injEq] at h2; subst h2
      obtain ⟨k1, k2, -, k4⟩ := fetch_spec serves _ _ _ _ _ _ hfetch
      refine ⟨k1, fun x c h => k2 x c (hne x c h) h, Or.inr ⟨rfl, ?_⟩⟩
      rcases k4 with k4 | k4 | k4
      · left; rw [k4, hc]
      · right; exact k4
      · left; exact k4.2

/-- **C28.** A name for which there is neither a parser nor an opener raises and touches nothing. -/
theorem C28_unknown_format (L : Loader P O) (serves : Url → List β → Prop) (arg : FileName)
    (reload backup : Bool)
    (hp : search L.glob L.parsers (if isUrl arg then L.urlName arg else arg) = none)
    (ho : search L.glob L.openers (if isUrl arg then L.urlName arg else arg) = none)
    (s s' : LoaderState β) (out : Outcome β P O)
    (h : Answer L serves (.call arg reload backup) s out s') : s' = s ∧ out = .error .unknownFormat := by
  have hres : L.resolve arg = .error .unknownFormat := by
    unfold Loader.resolve
    simp only [hp, ho]
  cases h with
  | unresolved _ _ _ _ e he => rw [hres, Except.error.injEq] at he; subst he; exact ⟨rfl, rfl⟩
  | called _ _ _ url' name' how' _ _ c' he ha hf => rw [hres] at he; cases he
  | raised _ _ _ url' name' how' _ _ e he ha => rw [hres] at he; cases he

/-- **C28.** A plain name without a URL rule, whose file is absent, raises and touches nothing. -/
theorem C28_unknown_url (L : Loader P O) (serves : Url → List β → Prop) (arg : FileName) (reload backup : Bool)
    (hu : isUrl arg = false) (hsearch : search L.glob L.urls arg = none)
    (s s' : LoaderState β) (hc : s.files (L.pathTo arg) = none) (out : Outcome β P O)
    (h : Answer L serves (.call arg reload backup) s out s') : s' = s ∧ ∃ e, out = .error e := by
  have key : ∀ url name how, L.resolve arg = .ok (url, name, how) → url = none ∧ name = arg := by
    intro url name how hres
    have := (C28_resolve L arg url name how hres).2.1 hu
    refine ⟨?_, this.1⟩
    cases url with
    | none => rfl
    | some u =>
      obtain ⟨base, hb, -⟩ := this.2 u rfl
      rw [hsearch] at hb; cases hb
  cases h with
  | unresolved _ _ _ _ e he => exact ⟨rfl, e, rfl⟩
  | called _ _ _ url' name' how' _ _ c' he ha hf =>
    obtain ⟨rfl, rfl⟩ := key _ _ _ he
    cases ha with
    | present c h1 _ => rw [hc] at h1; cases h1
    | ok u _ h1 h2 hfetch => cases h2
  | raised _ _ _ url' name' how' _ _ e he ha =>
    obtain ⟨rfl, rfl⟩ := key _ _ _ he
    cases ha with
    | noUrl h1 h2 => exact ⟨rfl, _, rfl⟩
    | bad u _ h1 h2 hfetch => cases h2

/-! ### Histories -/

theorem answer_keeps (L : Loader P O) (serves : Url → List β → Prop) (r : Request) (hr : r.reload = false)
    (s s' : LoaderState β) (out : Outcome β P O) (h : Answer L serves r s out s') (x : Path) (c : List β)
    (hx : s.files x = some c) : s'.files x = some c := by
  have key : ∀ url path backup e s', Assure serves url path false backup s e s' → s'.files x = some c := by
    intro url path backup e s' ha
    cases ha with
    | present c h1 _ => exact hx
    | noUrl h1 h2 => exact hx
    | ok u _ h1 h2 hf =>
      refine (fetch_spec serves _ _ _ _ _ _ hf).2.1 x c ?_ hx
      rintro rfl; rw [hx] at h1; simp at h1
    | bad u _ h1 h2 hf =>
      refine (fetch_spec serves _ _ _ _ _ _ hf).2.1 x c ?_ hx
      rintro rfl; rw [hx] at h1; simp at h1
  cases h with
  | unresolved => exact hx
  | called _ _ _ url name how _ _ c' he ha hf =>
    simp only [Request.reload] at hr; subst hr; exact key _ _ _ _ _ ha
  | raised _ _ _ url name how _ _ c' he ha =>
    simp only [Request.reload] at hr; subst hr; exact key _ _ _ _ _ ha
  | openLocal => exact hx
  | openMissing => exact hx
  | openUrl _ _ _ _ _ _ c' _ ha hf =>
    simp only [Request.reload] at hr; subst hr; exact key _ _ _ _ _ ha
  | openRaised _ _ _ _ _ _ e _ ha =>
    simp only [Request.reload] at hr; subst hr; exact key _ _ _ _ _ ha

/-- **C28.** However many files are loaded, by name or by URL, as long as no reload is asked for: no file that is
there is ever replaced. -/
theorem C28_never_replaced (L : Loader P O) (serves : Url → List β → Prop) (rs : List Request)
    (hr : ∀ r ∈ rs, r.reload = false) (s s' : LoaderState β) (h : Session L serves rs s s')
    (x : Path) (c : List β) (hx : s.files x = some c) : s'.files x = some c := by
  induction h with
  | nil => exact hx
  | cons r rs s out s' s'' ha _ ih =>
    exact ih (fun r h => hr r (by simp [h])) (answer_keeps L serves r (hr r (by simp)) s s' out ha x c hx)

/-- **C28.** Once a call has succeeded, the same call repeated after any further calls (without reload) makes no
request, changes nothing and opens the very same content: each file is fetched at most once. -/
theorem C28_fetched_once (L : Loader P O) (serves : Url → List β → Prop) (arg : FileName)
    (reload backup backup' : Bool) (rs : List Request) (hr : ∀ r ∈ rs, r.reload = false)
    (s0 s1 s2 s3 : LoaderState β) (how : How P O) (c : List β) (out : Outcome β P O)
    (h1 : Answer L serves (.call arg reload backup) s0 (.opened how c) s1)
    (h2 : Session L serves rs s1 s2)
    (h3 : Answer L serves (.call arg false backup') s2 out s3) :
    s3 = s2 ∧ out = .opened how c := by
  cases h1 with
  | called _ _ _ url name how' _ _ c' he ha hf =>
    exact C28_present L serves arg backup' url name how he s2 s3 out c
      (C28_never_replaced L serves rs hr s1 s2 h2 _ c hf) h3

/-! ### Non-vacuity: the loader's own table -/

example : search fnmatch defaultUrls "jup310.bsp".toList =
    some "https://naif.jpl.nasa.gov/pub/naif/generic_kernels/spk/satellites/".toList := by decide +kernel
example : search fnmatch defaultUrls "de421.bsp".toList =
    some "https://ssd.jpl.nasa.gov/ftp/eph/planets/bsp/".toList := by decide +kernel
example : search fnmatch defaultUrls "notes.txt".toList = none := by decide +kernel

/-- A call that downloads a missing file. -/
example : ∃ (L : Loader Unit Unit) (s s' : LoaderState ℕ) (out : Outcome ℕ Unit Unit),
    Answer L (fun _ _ => True) (.call "de421.bsp".toList false false) s out s' ∧
      s.files "de421.bsp".toList = none ∧ s'.files "de421.bsp".toList = some [1, 2] ∧
      s'.requests = ["https://ssd.jpl.nasa.gov/ftp/eph/planets/bsp/de421.bsp".toList] := by
  let L : Loader Unit Unit := ⟨defaultUrls, fun _ => none,
    fun k => if k = ".bsp".toList then some (.rules [("*.bsp".toList, ())]) else none, fnmatch, id, id, id⟩
  have hres : L.resolve "de421.bsp".toList = .ok
      (some "https://ssd.jpl.nasa.gov/ftp/eph/planets/bsp/de421.bsp".toList, "de421.bsp".toList, .opener ()) := by
    have h1 : search L.glob L.urls "de421.bsp".toList =
      some "https://ssd.jpl.nasa.gov/ftp/eph/planets/bsp/".toList := by decide +kernel
    have h2 : search L.glob L.parsers "de421.bsp".toList = none := by decide +kernel
    have h3 : search L.glob L.openers "de421.bsp".toList = some () := by decide +kernel
    have h4 : isUrl "de421.bsp".toList = false := by decide +kernel
    unfold Loader.resolve
    simp only [h1, h2, h3, h4, Bool.false_eq_true, if_false]
    rfl
  obtain ⟨fs, hrun⟩ := runs_to_end "de421.bsp".toList [1, 2] (by simp) false none
  have hdest : fs "de421.bsp".toList = some [1, 2] := by
    rw [(C25_returns _ _ _ hrun).1]; rfl
  exact ⟨L, ⟨fun _ => none, []⟩, ⟨fs, [] ++ [_]⟩, .opened (.opener ()) [1, 2],
    Answer.called _ _ _ _ _ _ _ _ _ hres
      (Assure.ok _ _ _ (Or.inl rfl) rfl (Fetch.ok _ fs _ rfl rfl trivial hrun)) hdest, rfl, hdest, rfl⟩

end Skyfield
