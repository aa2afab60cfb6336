import Verif.Model.TimeFormat
import Verif.Props.UtcText
import Verif.Props.Units
import Mathlib.Tactic.IntervalCases

/-
C103: a date format shows what each of its pieces says, at the instant rounded to the finest unit that the format shows.
-/
namespace Skyfield
open Spec

variable {K : Type*} [Field K] [LinearOrder K] [IsStrictOrderedRing K] [FloorRing K]

private theorem mem_flags {c : Char} : (c ∈ ['-', '_', '0', '^', '#', 'E', 'O']) ↔ isFlag c = true := by
  simp [isFlag]

/-- Letters that the regular expressions look for: neither flags nor percent signs. -/
def SoughtLetters (final : List Char) : Prop := ∀ c ∈ final, isFlag c = false ∧ c ≠ '%'

private theorem percent_not_flag : isFlag '%' = false := by decide

private theorem match_flags (final : List Char) (flags rest : List Char) (h : ∀ c ∈ flags, isFlag c = true) :
    matchAfterPercent final (flags ++ rest) = matchAfterPercent final rest := by
  induction flags with
  | nil => rfl
  | cons c cs ih =>
    rw [List.cons_append, matchAfterPercent, if_pos (mem_flags.2 (h c (by simp)))]
    exact ih fun d hd => h d (by simp [hd])

private theorem match_letter (final : List Char) (l : Char) (rest : List Char) (h : isFlag l = false) :
    matchAfterPercent final (l :: rest) = if l ∈ final then some rest else none := by
  rw [matchAfterPercent, if_neg (by rw [mem_flags, h]; decide)]

private theorem match_plain (final : List Char) (hf : SoughtLetters final) : ∀ b : List FormatPiece,
    (∀ p ∈ b, p.Wellformed) → ¬ LooksLikeDirective final b → matchAfterPercent final (formatSource b) = none
  | [], _, _ => rfl
  | .percent :: rest, _, _ => by
    show matchAfterPercent final ('%' :: ('%' :: formatSource rest)) = none
    rw [match_letter _ _ _ percent_not_flag, if_neg fun h => (hf _ h).2 rfl]
  | .directive fl l :: rest, _, _ => by
    have : formatSource (.directive fl l :: rest) = '%' :: ((fl ++ [l]) ++ formatSource rest) := rfl
    rw [this, match_letter _ _ _ percent_not_flag, if_neg fun h => (hf _ h).2 rfl]
  | .text c :: rest, hw, hn => by
    have : formatSource (.text c :: rest) = c :: formatSource rest := rfl
    rw [this]
    simp only [LooksLikeDirective, not_or, not_and] at hn
    by_cases hc : isFlag c = true
    · rw [matchAfterPercent, if_pos (mem_flags.2 hc)]
      exact match_plain final hf rest (fun p hp => hw p (by simp [hp])) (hn.1 hc)
    · rw [match_letter _ _ _ (by simpa using hc), if_neg hn.2]

/-- The pieces before and after the first directive with one of these letters. -/
def splitAtLetter (letters : List Char) : List FormatPiece → Option (List FormatPiece × List FormatPiece)
  | [] => none
  | p :: rest =>
    match p.letter? with
    | some l => if l ∈ letters then some ([], rest) else (splitAtLetter letters rest).map fun (a, b) => (p :: a, b)
    | none => (splitAtLetter letters rest).map fun (a, b) => (p :: a, b)

private theorem search_through (final : List Char) (cs rest : List Char) (h : ∀ c ∈ cs, c ≠ '%') :
    searchDirective final (cs ++ rest) = (searchDirective final rest).map fun (a, b) => (cs ++ a, b) := by
  induction cs with
  | nil => rw [List.nil_append]; cases searchDirective final rest <;> rfl
  | cons c cs ih =>
    rw [List.cons_append, searchDirective]
    simp only [if_neg (h c (by simp))]
    rw [ih fun d hd => h d (by simp [hd])]
    cases searchDirective final rest <;> rfl

private theorem search_pieces (final : List Char) (hf : SoughtLetters final) : ∀ pieces : List FormatPiece,
    (∀ p ∈ pieces, p.Wellformed) → NoLookalike final pieces →
    searchDirective final (formatSource pieces) =
      (splitAtLetter final pieces).map fun (a, b) => (formatSource a, formatSource b)
  | [], _, _ => rfl
  | p :: rest, hw, hn => by
    have hw' : ∀ q ∈ rest, q.Wellformed := fun q hq => hw q (by simp [hq])
    have ih := search_pieces final hf rest hw' fun a b e => hn (p :: a) b (by rw [e]; rfl)
    cases p with
    | text c =>
      have hc : c ≠ '%' := hw (.text c) (by simp)
      have e : formatSource (.text c :: rest) = [c] ++ formatSource rest := rfl
      rw [e, search_through final [c] _ (by simpa using hc), ih]
      show _ = Option.map _ (Option.map _ (splitAtLetter final rest))
      cases splitAtLetter final rest <;> rfl
    | percent =>
      have hl := hn [] rest rfl
      have e : formatSource (.percent :: rest) = '%' :: '%' :: formatSource rest := rfl
      rw [e, searchDirective, searchDirective]
      simp only [if_true]
      rw [match_letter _ _ _ percent_not_flag, if_neg fun h => (hf _ h).2 rfl, match_plain final hf rest hw' hl, ih]
      show _ = Option.map _ (Option.map _ (splitAtLetter final rest))
      cases splitAtLetter final rest <;> rfl
    | directive fl l =>
      obtain ⟨h1, h2, h3⟩ : (∀ c ∈ fl, isFlag c = true) ∧ isFlag l = false ∧ l ≠ '%' := hw (.directive fl l) (by simp)
      have e : formatSource (.directive fl l :: rest) = '%' :: (fl ++ (l :: formatSource rest)) := by
        simp [formatSource, FormatPiece.source]
      rw [e, searchDirective]
      simp only [if_true]
      rw [match_flags _ _ _ h1, match_letter _ _ _ h2]
      by_cases hm : l ∈ final
      · rw [if_pos hm]
        simp only [splitAtLetter, FormatPiece.letter?, if_pos hm]
        rfl
      · rw [if_neg hm]
        simp only [splitAtLetter, FormatPiece.letter?, if_neg hm]
        have e2 : fl ++ l :: formatSource rest = (fl ++ [l]) ++ formatSource rest := by simp
        rw [e2, search_through final (fl ++ [l]) _ (by
          intro c hc
          rcases List.mem_append.1 hc with hc | hc
          · rintro rfl; exact absurd (h1 _ hc) (by decide)
          · rw [List.mem_singleton.1 hc]; exact h3), ih]
        cases splitAtLetter final rest with
        | none => rfl
        | some ab => simp [formatSource, FormatPiece.source]

private theorem splitAtLetter_isSome (letters : List Char) : ∀ pieces,
    (splitAtLetter letters pieces).isSome = true ↔ Mentions letters pieces
  | [] => by simp [splitAtLetter, Mentions]
  | p :: rest => by
    have ih := splitAtLetter_isSome letters rest
    have hm : Mentions letters (p :: rest) ↔ (∃ c ∈ letters, p.letter? = some c) ∨ Mentions letters rest := by
      simp [Mentions]
    rw [hm, ← ih]
    rw [splitAtLetter]
    cases hp : p.letter? with
    | none => simp
    | some l =>
      by_cases hl : l ∈ letters
      · simp [hl]
      · simp [hl]

private theorem splitAtLetter_eq (letters : List Char) : ∀ pieces a b,
    splitAtLetter letters pieces = some (a, b) → ∃ p, ∃ c ∈ letters, p.letter? = some c ∧ pieces = a ++ p :: b ∧ ¬ Mentions letters a
  | [], a, b, h => by simp [splitAtLetter] at h
  | p :: rest, a, b, h => by
    have rec' : (splitAtLetter letters rest).map (fun (a, b) => (p :: a, b)) = some (a, b) →
        (∀ c ∈ letters, p.letter? ≠ some c) →
        ∃ p', ∃ c ∈ letters, p'.letter? = some c ∧ p :: rest = a ++ p' :: b ∧ ¬ Mentions letters a := by
      intro h hp
      cases hs : splitAtLetter letters rest with
      | none => rw [hs] at h; simp at h
      | some ab =>
        rw [hs] at h
        simp only [Option.map_some, Option.some.injEq, Prod.mk.injEq] at h
        obtain ⟨rfl, rfl⟩ := h
        obtain ⟨p', c, hc, h1, h2, h3⟩ := splitAtLetter_eq letters rest ab.1 ab.2 hs
        refine ⟨p', c, hc, h1, by rw [h2]; rfl, ?_⟩
        rintro ⟨q, hq, c, hc, e⟩
        rcases List.mem_cons.1 hq with rfl | hq
        · exact hp c hc e
        · exact h3 ⟨q, hq, c, hc, e⟩
    unfold splitAtLetter at h
    cases hp : p.letter? with
    | none =>
      rw [hp] at h
      exact rec' h (by simp [hp])
    | some l =>
      rw [hp] at h
      by_cases hl : l ∈ letters
      · simp only [if_pos hl, Option.some.injEq, Prod.mk.injEq] at h
        obtain ⟨rfl, rfl⟩ := h
        exact ⟨p, l, hl, hp, rfl, by simp [Mentions]⟩
      · simp only [if_neg hl] at h
        refine rec' h ?_
        intro c hc e
        rw [hp] at e
        cases e
        exact hl hc

private theorem library_flags (lib : Library) (tm : TmTuple) : ∀ (fl acc rest : List Char), (∀ c ∈ fl, isFlag c = true) →
    libraryFormat lib tm (some acc) (fl ++ rest) = libraryFormat lib tm (some (acc ++ fl)) rest
  | [], acc, rest, _ => by simp
  | c :: cs, acc, rest, h => by
    rw [List.cons_append, libraryFormat, if_pos (mem_flags.2 (h c (by simp))),
      library_flags lib tm cs _ rest fun d hd => h d (by simp [hd])]
    simp

/-- The library shows the pieces one after the other. -/
private theorem library_pieces (lib : Library) (tm : TmTuple) : ∀ pieces : List FormatPiece, (∀ p ∈ pieces, p.Wellformed) →
    libraryFormat lib tm none (formatSource pieces) = pieces.flatMap fun p => match p with
      | .text c => [c] | .percent => ['%'] | .directive fl l => lib fl l tm
  | [], _ => rfl
  | p :: rest, hw => by
    have ih := library_pieces lib tm rest fun q hq => hw q (by simp [hq])
    cases p with
    | text c =>
      have hc : c ≠ '%' := hw (.text c) (by simp)
      have e : formatSource (.text c :: rest) = c :: formatSource rest := rfl
      rw [e, libraryFormat, if_neg hc, ih]
      rfl
    | percent =>
      have e : formatSource (.percent :: rest) = '%' :: '%' :: formatSource rest := rfl
      rw [e, libraryFormat, if_pos rfl, libraryFormat, if_neg (by decide), if_pos rfl, ih]
      rfl
    | directive fl l =>
      obtain ⟨h1, h2, h3⟩ : (∀ c ∈ fl, isFlag c = true) ∧ isFlag l = false ∧ l ≠ '%' := hw (.directive fl l) (by simp)
      have e : formatSource (.directive fl l :: rest) = '%' :: (fl ++ (l :: formatSource rest)) := by
        simp [formatSource, FormatPiece.source]
      rw [e, libraryFormat, if_pos rfl, library_flags lib tm fl [] _ h1, libraryFormat,
        if_neg (by rw [mem_flags, h2]; decide), if_neg h3, ih]
      rfl

/-- A format that Skyfield can be trusted with: no `%%` followed by what looks like one of the directives Skyfield looks for, at most
one `%f`, and no `%Z` (which the documentation excludes). -/
structure GoodFormat (pieces : List FormatPiece) : Prop where
  wellformed : ∀ p ∈ pieces, p.Wellformed
  noLookalike : NoLookalike ['f', 'S', 'T', 'X', 'c', 'M', 'R', 'j'] pieces
  oneMicro : ∀ a b c fl fl', pieces ≠ a ++ .directive fl 'f' :: b ++ .directive fl' 'f' :: c
  noZone : ¬ Mentions ['Z'] pieces

private theorem looks_mono {l l' : List Char} (h : ∀ c ∈ l, c ∈ l') : ∀ b, LooksLikeDirective l b → LooksLikeDirective l' b
  | .text c :: rest, hl => by
    simp only [LooksLikeDirective] at hl ⊢
    rcases hl with ⟨h1, h2⟩ | h2
    · exact Or.inl ⟨h1, looks_mono h rest h2⟩
    · exact Or.inr (h c h2)

private theorem noLookalike_mono {l l' : List Char} (h : ∀ c ∈ l, c ∈ l') {pieces} (hn : NoLookalike l' pieces) :
    NoLookalike l pieces := fun a b e hl => hn a b e (looks_mono h b hl)

private theorem search_isSome (final : List Char) (hf : SoughtLetters final) (pieces : List FormatPiece)
    (hw : ∀ p ∈ pieces, p.Wellformed) (hn : NoLookalike final pieces) :
    (searchDirective final (formatSource pieces)).isSome = true ↔ Mentions final pieces := by
  rw [search_pieces final hf pieces hw hn, ← splitAtLetter_isSome]
  simp

open Classical in
/-- C103 (unit).  The unit to which a time is rounded is the finest one named by the format: `%f`, else one of `%S %T %X %c`, else one
of `%M %R`, flags or not. -/
theorem C103_unit (pieces : List FormatPiece) (hg : GoodFormat pieces) :
    formatUnit (formatSource pieces) =
      if Mentions ['f'] pieces then .micro
      else if Mentions ['S', 'T', 'X', 'c'] pieces then .second
      else if Mentions ['M', 'R'] pieces then .minute else .other := by
  have h1 := search_isSome ['f'] (by unfold SoughtLetters; decide) pieces hg.wellformed
    (noLookalike_mono (by decide) hg.noLookalike)
  have h2 := search_isSome ['S', 'T', 'X', 'c'] (by unfold SoughtLetters; decide) pieces hg.wellformed
    (noLookalike_mono (by decide) hg.noLookalike)
  have h3 := search_isSome ['M', 'R'] (by unfold SoughtLetters; decide) pieces hg.wellformed
    (noLookalike_mono (by decide) hg.noLookalike)
  unfold formatUnit
  simp only [h1, h2, h3]

/-- C103 (pieces).  Given the fields to show, the text is what the pieces show, one after the other. -/
theorem C103_pieces (lib : Library) (hl : Posix lib) (zone : List Char) (pieces : List FormatPiece) (hg : GoodFormat pieces)
    (f : StrftimeFields) :
    formatFields lib zone (formatSource pieces) f = pieces.flatMap (FormatPiece.shows lib (f.tm zone) f.usec) := by
  have hs := search_pieces ['f'] (by unfold SoughtLetters; decide) pieces hg.wellformed
    (noLookalike_mono (by decide) hg.noLookalike)
  have plain : ∀ (z : List Char) (l : List FormatPiece), (∀ p ∈ l, p ∈ pieces) → (∀ p ∈ l, p.letter? ≠ some 'f') →
      libraryFormat lib (f.tm z) none (formatSource l) = l.flatMap (FormatPiece.shows lib (f.tm zone) f.usec) := by
    intro z l hl1 hl2
    rw [library_pieces lib _ l fun p hp => hg.wellformed p (hl1 p hp)]
    refine List.flatMap_congr fun p hp => ?_
    cases p with
    | text c => rfl
    | percent => rfl
    | directive fl l =>
      have n1 : l ≠ 'f' := by rintro rfl; exact hl2 _ hp rfl
      have n2 : l ≠ 'Z' := by rintro rfl; exact hg.noZone ⟨_, hl1 _ hp, 'Z', by simp, rfl⟩
      show lib fl l (f.tm z) = if l = 'f' then _ else lib fl l (f.tm zone)
      rw [if_neg n1]
      exact hl.zoneOnly fl l (f.tm zone) z n2
  unfold formatFields
  cases hsp : splitAtLetter ['f'] pieces with
  | none =>
    rw [hsp] at hs
    rw [hs]
    refine plain zone pieces (fun _ h => h) fun p hp e => ?_
    have := (splitAtLetter_isSome ['f'] pieces).2 ⟨p, hp, 'f', by simp, e⟩
    rw [hsp] at this
    simp at this
  | some ab =>
    obtain ⟨a, b⟩ := ab
    rw [hsp] at hs
    rw [hs]
    obtain ⟨p, c, hc, h1, h2, h3⟩ := splitAtLetter_eq _ _ _ _ hsp
    rw [List.mem_singleton] at hc
    subst hc
    obtain ⟨fl, rfl⟩ : ∃ fl, p = .directive fl 'f' := by
      cases p with
      | text c => simp [FormatPiece.letter?] at h1
      | percent => simp [FormatPiece.letter?] at h1
      | directive fl l => simp only [FormatPiece.letter?, Option.some.injEq] at h1; exact ⟨fl, by rw [h1]⟩
    have ha : ∀ q ∈ a, q ∈ pieces := fun q hq => by rw [h2]; simp [hq]
    have hb : ∀ q ∈ b, q ∈ pieces := fun q hq => by rw [h2]; simp [hq]
    have na : ∀ q ∈ a, q.letter? ≠ some 'f' := fun q hq e => h3 ⟨q, hq, 'f', by simp, e⟩
    have nb : ∀ q ∈ b, q.letter? ≠ some 'f' := by
      intro q hq e
      obtain ⟨b1, b2, rfl⟩ := List.append_of_mem hq
      obtain ⟨fl', rfl⟩ : ∃ fl', q = .directive fl' 'f' := by
        cases q with
        | text c => simp [FormatPiece.letter?] at e
        | percent => simp [FormatPiece.letter?] at e
        | directive fl l => simp only [FormatPiece.letter?, Option.some.injEq] at e; exact ⟨fl, by rw [e]⟩
      exact hg.oneMicro a b1 b2 fl fl' (by rw [h2]; simp)
    have e : formatSource a ++ ['%', 'Z'] ++ formatSource b = formatSource (a ++ .directive [] 'Z' :: b) := by
      simp [formatSource, FormatPiece.source]
    have hw : ∀ q ∈ a ++ .directive [] 'Z' :: b, q.Wellformed := by
      intro q hq
      rcases List.mem_append.1 hq with hq | hq
      · exact hg.wellformed q (ha q hq)
      · rcases List.mem_cons.1 hq with rfl | hq
        · exact ⟨by simp, by decide, by decide⟩
        · exact hg.wellformed q (hb q hq)
    show libraryFormat lib (f.tm (zeroPad 6 f.usec)) none (formatSource a ++ ['%', 'Z'] ++ formatSource b) = _
    have la := plain (zeroPad 6 f.usec) a ha na
    have lb := plain (zeroPad 6 f.usec) b hb nb
    rw [library_pieces lib _ a fun q hq => hw q (by simp [hq])] at la
    rw [library_pieces lib _ b fun q hq => hw q (by simp [hq])] at lb
    rw [e, library_pieces lib _ _ hw, List.flatMap_append, List.flatMap_cons, la, lb, h2, List.flatMap_append,
      List.flatMap_cons]
    congr 2
    exact hl.zone _

/-- C103 (UTC, seconds).  With a format that shows seconds and no microseconds, `utc_strftime` shows the pieces for the whole second of
UTC nearest to the instant, with the weekday and the day of the year of the date shown. -/
theorem C103_utc_seconds {L : List ℤ} {b : ℤ} (lib : Library) (hl : Posix lib) (zone : List Char) (pieces : List FormatPiece)
    (hg : GoodFormat pieces) (hf : ¬ Mentions ['f'] pieces) (hs : Mentions ['S', 'T', 'X', 'c'] pieces) (t : Time K)
    (ht : t.Coherent) (h : IsLeapTable t.ts L b) (hc : GoodCutoff t.ts.cutoff) :
    ∃ tm : TmTuple, t.utcStrftimeText lib zone (formatSource pieces) = some (pieces.flatMap (FormatPiece.shows lib tm 0)) ∧
      NearestReading t.ts.cutoff L b 1 t.taiInstant tm.year tm.month tm.day tm.hour tm.minute (tm.second : K) ∧
      ∃ D, CivilDate t.ts.cutoff tm.year tm.month tm.day D ∧ tm.weekday = D % 7 ∧
        ∀ D0, CivilDate t.ts.cutoff tm.year 1 1 D0 → tm.yday = D - D0 + 1 := by
  have hu : formatUnit (formatSource pieces) = .second := by rw [C103_unit pieces hg, if_neg hf, if_pos hs]
  obtain ⟨f, f1, f2⟩ := C08_strftime_second t ht h
  obtain ⟨f', D, g1, g2, g3, g4⟩ := C08_strftime_weekday t ht h hc .second
  rw [f1] at g1
  cases g1
  have h0 : f.usec = 0 := by
    unfold Time.utcStrftime at f1
    cases hr : t.utcTuple (StrftimeUnit.offset .second) with
    | none => rw [hr] at f1; simp at f1
    | some r =>
      rw [hr] at f1
      simp only [reduceCtorEq, if_false, Option.some.injEq] at f1
      rw [← f1]
  refine ⟨f.tm zone, ?_, f2, D, g2, g3, g4⟩
  unfold Time.utcStrftimeText
  rw [hu, f1, Option.map_some, C103_pieces lib hl zone pieces hg f, h0]

/-- C103 (UTC, microseconds).  With a `%f` in the format, `utc_strftime` shows the microsecond of UTC in which the instant lies (moved
forward by 10⁻¹⁶ seconds). -/
theorem C103_utc_micro {L : List ℤ} {b : ℤ} (lib : Library) (hl : Posix lib) (zone : List Char) (pieces : List FormatPiece)
    (hg : GoodFormat pieces) (hf : Mentions ['f'] pieces) (t : Time K) (ht : t.Coherent) (h : IsLeapTable t.ts L b) :
    ∃ (tm : TmTuple) (micro D : ℤ), t.utcStrftimeText lib zone (formatSource pieces) =
        some (pieces.flatMap (FormatPiece.shows lib tm micro)) ∧
      CivilDate t.ts.cutoff tm.year tm.month tm.day D ∧ 0 ≤ micro ∧ micro ≤ 999999 ∧
      ValidUtc L D tm.hour tm.minute ((tm.second : K) + micro / 1000000) ∧
      taiOf L b D tm.hour tm.minute ((tm.second : K) + micro / 1000000) ≤ t.taiInstant + 1 / 10 ^ 16 ∧
      t.taiInstant + 1 / 10 ^ 16 < taiOf L b D tm.hour tm.minute ((tm.second : K) + (micro + 1) / 1000000) := by
  have hu : formatUnit (formatSource pieces) = .micro := by rw [C103_unit pieces hg, if_pos hf]
  obtain ⟨r, r1, r2, r3, r4⟩ := utcTuple_spec t ht h (1 / 10 ^ 16)
  have hr0 : 0 ≤ r.second * 1000000 := mul_nonneg r2.2.2.2.2.1 (by norm_num)
  obtain ⟨n, hn⟩ : ∃ n, n = ⌊r.second * 1000000⌋ := ⟨_, rfl⟩
  have n0 : 0 ≤ n := by rw [hn]; exact Int.floor_nonneg.2 hr0
  have n1 : (n : K) ≤ r.second * 1000000 := by rw [hn]; exact Int.floor_le _
  have n2 : r.second * 1000000 < n + 1 := by rw [hn]; exact Int.lt_floor_add_one _
  have en : (n : K) = ((n / 1000000 : ℤ) : K) * 1000000 + ((n % 1000000 : ℤ) : K) := by
    exact_mod_cast (Int.ediv_mul_add_emod n 1000000).symm
  have es : ((n / 1000000 : ℤ) : K) + ((n % 1000000 : ℤ) : K) / 1000000 = n / 1000000 := by
    rw [en]; field_simp
  have hle : (n : K) / 1000000 ≤ r.second := by rw [div_le_iff₀ (by norm_num)]; exact n1
  have hlt : r.second < ((n : K) + 1) / 1000000 := by rw [lt_div_iff₀ (by norm_num)]; exact n2
  have e1 : ∀ s : K, taiOf L b r.jd r.hour r.minute s = taiOf L b r.jd r.hour r.minute r.second + (s - r.second) := by
    intro s; unfold taiOf; ring
  refine ⟨StrftimeFields.tm ⟨r.year, r.month, r.day, r.hour, r.minute, n / 1000000, n % 1000000, r.jd % 7,
    r.jd + 1 - julianDay r.year 1 1 t.ts.cutoff⟩ zone, n % 1000000, r.jd, ?_, (C03_reads_civil_date _ _ _ _ _).1 r4, by omega,
    by omega, ?_, ?_, ?_⟩
  · unfold Time.utcStrftimeText Time.utcStrftime
    rw [hu]
    simp only [StrftimeUnit.offset, r1, if_true, Option.map_some]
    rw [astypeInt_of_nonneg hr0, ← hn, C103_pieces lib hl zone pieces hg]
  · show ValidUtc L r.jd r.hour r.minute (((n / 1000000 : ℤ) : K) + ((n % 1000000 : ℤ) : K) / 1000000)
    rw [es]
    refine validUtc_cut r2 ?_ hle
    have : (0 : K) ≤ n := by exact_mod_cast n0
    positivity
  · show taiOf L b r.jd r.hour r.minute (((n / 1000000 : ℤ) : K) + ((n % 1000000 : ℤ) : K) / 1000000) ≤ _
    rw [es, e1, r3]
    linarith
  · show _ < taiOf L b r.jd r.hour r.minute (((n / 1000000 : ℤ) : K) + (((n % 1000000 : ℤ) : K) + 1) / 1000000)
    have e2 : ((n / 1000000 : ℤ) : K) + (((n % 1000000 : ℤ) : K) + 1) / 1000000 = ((n : K) + 1) / 1000000 := by
      rw [add_div, ← add_assoc, es, add_div]
    rw [e2, e1, r3]
    linarith

/-- C103 (other scales).  `tt_strftime`, `tai_strftime`, `tdb_strftime` and `ut1_strftime` show the pieces for the fields of the date
rounded to the unit of the format (see `C09_strftime_all`), provided the format has a `%j` or else nothing in it depends on the day
of the year. -/
theorem C103_scale_text (lib : Library) (hl : Posix lib) (zone : List Char) (pieces : List FormatPiece) (hg : GoodFormat pieces)
    (hy : Mentions ['j'] pieces ∨ ∀ fl l tm y, FormatPiece.directive fl l ∈ pieces →
      lib fl l { tm with yday := y } = lib fl l tm) (ts : Timescale K) (jd fraction : K) :
    ts.strftimeText lib zone (formatSource pieces) jd fraction =
      let f := ts.strftime (formatUnit (formatSource pieces)) jd fraction
      pieces.flatMap (FormatPiece.shows lib (f.tm zone) f.usec) := by
  have hj := search_isSome ['j'] (by unfold SoughtLetters; decide) pieces hg.wellformed
    (noLookalike_mono (by decide) hg.noLookalike)
  unfold Timescale.strftimeText
  dsimp only
  rw [C103_pieces lib hl zone pieces hg]
  by_cases h : (searchDirective ['j'] (formatSource pieces)).isSome = true
  · rw [if_pos h]
  · rw [if_neg h]
    have hy' := hy.resolve_left fun hm => h (hj.2 hm)
    refine List.flatMap_congr fun p hp => ?_
    cases p with
    | text c => rfl
    | percent => rfl
    | directive fl l =>
      unfold FormatPiece.shows
      by_cases hlf : l = 'f'
      · simp only [if_pos hlf]
      · simp only [if_neg hlf]
        exact hy' fl l ((ts.strftime (formatUnit (formatSource pieces)) jd fraction).tm zone) 0 hp

/-- The pieces of `'%Y-%m-%d %H:%M:%S UTC'`, the default of `utc_strftime` — skyfield/timelib.py:628. -/
def defaultFormat (scale : List Char) : List FormatPiece :=
  [.directive [] 'Y', .text '-', .directive [] 'm', .text '-', .directive [] 'd', .text ' ', .directive [] 'H', .text ':',
    .directive [] 'M', .text ':', .directive [] 'S', .text ' '] ++ scale.map .text

example : formatSource (defaultFormat "UTC".toList) = "%Y-%m-%d %H:%M:%S UTC".toList := rfl

private theorem noPercent_noLookalike {letters : List Char} {pieces : List FormatPiece} (h : FormatPiece.percent ∉ pieces) :
    NoLookalike letters pieces := fun a b e => absurd (by rw [e]; simp) h

theorem goodFormat_default : GoodFormat (defaultFormat "UTC".toList) where
  wellformed := by
    simp only [defaultFormat, List.mem_append, List.mem_cons, List.not_mem_nil, List.mem_map]
    rintro p ((rfl | rfl | rfl | rfl | rfl | rfl | rfl | rfl | rfl | rfl | rfl | rfl | h) | ⟨c, hc, rfl⟩)
    all_goals first
      | exact absurd h (by simp)
      | (simp only [FormatPiece.Wellformed]; decide)
      | skip
    have : ∀ c ∈ "UTC".toList, c ≠ '%' := by decide
    exact this c hc
  noLookalike := noPercent_noLookalike (by simp [defaultFormat])
  oneMicro := by
    intro a b c fl fl' e
    have : FormatPiece.directive fl 'f' ∈ defaultFormat "UTC".toList := by rw [e]; simp
    simp [defaultFormat] at this
  noZone := by
    rintro ⟨p, hp, c, hc, e⟩
    rw [List.mem_singleton.1 hc] at e
    simp only [defaultFormat, List.mem_append, List.mem_cons, List.not_mem_nil, List.mem_map] at hp
    rcases hp with (rfl | rfl | rfl | rfl | rfl | rfl | rfl | rfl | rfl | rfl | rfl | rfl | h) | ⟨c', hc', rfl⟩
    all_goals first
      | exact absurd h (by simp)
      | simp [FormatPiece.letter?] at e

private theorem valid_ranges {leap : ℤ → Bool} {y m d : ℤ} (h : ValidDate leap y m d) :
    1 ≤ m ∧ m ≤ 12 ∧ 1 ≤ d ∧ d ≤ 31 := by
  obtain ⟨h1, h2, h3, h4⟩ := h
  refine ⟨h1, h2, h3, h4.trans ?_⟩
  unfold monthLength
  split_ifs <;> omega

private theorem civil_ranges {cutoff : Option ℤ} {y m d D : ℤ} (h : CivilDate cutoff y m d D) :
    1 ≤ m ∧ m ≤ 12 ∧ 1 ≤ d ∧ d ≤ 31 := by
  unfold CivilDate at h
  cases cutoff with
  | none => exact valid_ranges h.1
  | some c =>
    rcases h with h | h
    · exact valid_ranges h.2.1
    · exact valid_ranges h.2.1

/-- C103 (default format).  `t.utc_strftime()` is `YYYY-MM-DD HH:MM:SS UTC`, the digits of the whole second of UTC that is nearest to
the instant, for years of four digits. -/
theorem C103_default {L : List ℤ} {b : ℤ} (lib : Library) (hl : Posix lib) (zone : List Char) (t : Time K)
    (ht : t.Coherent) (h : IsLeapTable t.ts L b) (hc : GoodCutoff t.ts.cutoff) :
    ∃ y m d hh mm ss : ℤ, NearestReading t.ts.cutoff L b 1 t.taiInstant y m d hh mm (ss : K) ∧
      (1000 ≤ y → y ≤ 9999 → t.utcStrftimeText lib zone "%Y-%m-%d %H:%M:%S UTC".toList =
        some (padded 4 y ++ '-' :: padded 2 m ++ '-' :: padded 2 d ++ ' ' :: padded 2 hh ++ ':' :: padded 2 mm ++ ':' ::
          padded 2 ss ++ " UTC".toList)) := by
  obtain ⟨tm, h1, h2, -⟩ := C103_utc_seconds lib hl zone _ goodFormat_default (by
      rintro ⟨p, hp, c, hc, e⟩
      rw [List.mem_singleton.1 hc] at e
      simp only [defaultFormat, List.mem_append, List.mem_cons, List.not_mem_nil, List.mem_map] at hp
      rcases hp with (rfl | rfl | rfl | rfl | rfl | rfl | rfl | rfl | rfl | rfl | rfl | rfl | h) | ⟨c', hc', rfl⟩
      all_goals first
        | exact absurd h (by simp)
        | simp [FormatPiece.letter?] at e) ⟨.directive [] 'S', by simp [defaultFormat], 'S', by simp, rfl⟩ t ht h hc
  refine ⟨_, _, _, _, _, _, h2, fun y1 y2 => ?_⟩
  obtain ⟨D, hD, hv, -⟩ := h2
  obtain ⟨v1, v2, v3, v4, v5, v6⟩ := hv
  have s0 : 0 ≤ tm.second := by exact_mod_cast v5
  have s1 : tm.second ≤ 60 := by
    rcases v6 with v6 | ⟨-, -, v6, -⟩
    · have : tm.second < 60 := by exact_mod_cast v6
      omega
    · have : tm.second < 61 := by exact_mod_cast v6
      omega
  have hr := civil_ranges hD
  have e : ("%Y-%m-%d %H:%M:%S UTC".toList) = formatSource (defaultFormat "UTC".toList) := rfl
  rw [e, h1]
  congr 1
  have m1 := hl.year tm y1 y2
  have m2 := hl.month tm hr.1 hr.2.1
  have m3 := hl.day tm hr.2.2.1 hr.2.2.2
  have m4 := hl.hour tm v1 v2
  have m5 := hl.minute tm v3 v4
  have m6 := hl.second tm s0 s1
  simp [defaultFormat, FormatPiece.shows, m1, m2, m3, m4, m5, m6]

/-- C103 (UTC, minutes).  With a format that shows minutes and nothing finer, `utc_strftime` shows the pieces for the minute of UTC whose
start is within 30 seconds of the instant (31 in a minute that ends with a leap second). -/
theorem C103_utc_minutes {L : List ℤ} {b : ℤ} (lib : Library) (hl : Posix lib) (zone : List Char) (pieces : List FormatPiece)
    (hg : GoodFormat pieces) (hf : ¬ Mentions ['f'] pieces) (hs : ¬ Mentions ['S', 'T', 'X', 'c'] pieces)
    (hm : Mentions ['M', 'R'] pieces) (t : Time K) (ht : t.Coherent) (h : IsLeapTable t.ts L b) :
    ∃ (tm : TmTuple) (D : ℤ), t.utcStrftimeText lib zone (formatSource pieces) =
        some (pieces.flatMap (FormatPiece.shows lib tm 0)) ∧
      CivilDate t.ts.cutoff tm.year tm.month tm.day D ∧ ValidUtc L D tm.hour tm.minute (0 : K) ∧
      -30 ≤ t.taiInstant - taiOf L b D tm.hour tm.minute (0 : K) ∧
      (t.taiInstant - taiOf L b D tm.hour tm.minute (0 : K) < 30 ∨ (tm.hour = 23 ∧ tm.minute = 59 ∧ D + 1 ∈ L ∧
        t.taiInstant - taiOf L b D tm.hour tm.minute (0 : K) < 31)) := by
  have hu : formatUnit (formatSource pieces) = .minute := by rw [C103_unit pieces hg, if_neg hf, if_neg hs, if_pos hm]
  obtain ⟨f, D, f1, f2⟩ := C08_strftime_minute t ht h
  have h0 : f.usec = 0 := by
    unfold Time.utcStrftime at f1
    cases hr : t.utcTuple (StrftimeUnit.offset .minute) with
    | none => rw [hr] at f1; simp at f1
    | some r =>
      rw [hr] at f1
      simp only [reduceCtorEq, if_false, Option.some.injEq] at f1
      rw [← f1]
  refine ⟨f.tm zone, D, ?_, f2⟩
  unfold Time.utcStrftimeText
  rw [hu, f1, Option.map_some, C103_pieces lib hl zone pieces hg f, h0]

/-- C103 (UTC, coarser).  With a format that has neither seconds nor minutes, `utc_strftime` shows the pieces for the second of UTC in
which the instant lies: hours, days, months and years are cut off, not rounded. -/
theorem C103_utc_coarse {L : List ℤ} {b : ℤ} (lib : Library) (hl : Posix lib) (zone : List Char) (pieces : List FormatPiece)
    (hg : GoodFormat pieces) (hf : ¬ Mentions ['f'] pieces) (hs : ¬ Mentions ['S', 'T', 'X', 'c'] pieces)
    (hm : ¬ Mentions ['M', 'R'] pieces) (t : Time K) (ht : t.Coherent) (h : IsLeapTable t.ts L b) :
    ∃ (tm : TmTuple) (D : ℤ), t.utcStrftimeText lib zone (formatSource pieces) =
        some (pieces.flatMap (FormatPiece.shows lib tm 0)) ∧
      CivilDate t.ts.cutoff tm.year tm.month tm.day D ∧ ValidUtc L D tm.hour tm.minute (tm.second : K) ∧
      taiOf L b D tm.hour tm.minute (tm.second : K) ≤ t.taiInstant ∧
      t.taiInstant < taiOf L b D tm.hour tm.minute (tm.second : K) + 1 := by
  have hu : formatUnit (formatSource pieces) = .other := by rw [C103_unit pieces hg, if_neg hf, if_neg hs, if_neg hm]
  obtain ⟨r, r1, r2, r3, r4⟩ := utcTuple_spec t ht h 0
  have hr0 := r2.2.2.2.2.1
  have hfl := Int.floor_le r.second
  have hfl' := Int.lt_floor_add_one r.second
  have e1 : ∀ s : K, taiOf L b r.jd r.hour r.minute s = taiOf L b r.jd r.hour r.minute r.second + (s - r.second) := by
    intro s; unfold taiOf; ring
  refine ⟨StrftimeFields.tm ⟨r.year, r.month, r.day, r.hour, r.minute, ⌊r.second⌋, 0, r.jd % 7,
    r.jd + 1 - julianDay r.year 1 1 t.ts.cutoff⟩ zone, r.jd, ?_, (C03_reads_civil_date _ _ _ _ _).1 r4, ?_, ?_, ?_⟩
  · unfold Time.utcStrftimeText Time.utcStrftime
    rw [hu]
    simp only [StrftimeUnit.offset, r1, reduceCtorEq, if_false, Option.map_some]
    rw [astypeInt_of_nonneg hr0, C103_pieces lib hl zone pieces hg]
  · exact validUtc_cut r2 (by exact_mod_cast Int.floor_nonneg.2 hr0) hfl
  · show taiOf L b r.jd r.hour r.minute (⌊r.second⌋ : K) ≤ _
    rw [e1, r3]; linarith
  · show _ < taiOf L b r.jd r.hour r.minute (⌊r.second⌋ : K) + 1
    rw [e1, r3]; linarith

/-- Finding (C103): a literal percent sign before an `f` goes wrong: `t.utc_strftime('%%f')` prints `%Z`, not `%f`. -/
theorem C103_percent_f_wrong {L : List ℤ} {b : ℤ} (lib : Library) (zone : List Char) (t : Time K) (ht : t.Coherent)
    (h : IsLeapTable t.ts L b) :
    formatSource [.percent, .text 'f'] = "%%f".toList ∧
      t.utcStrftimeText lib zone "%%f".toList = some "%Z".toList ∧
      ∀ tm micro, [FormatPiece.percent, .text 'f'].flatMap (FormatPiece.shows lib tm micro) = "%f".toList := by
  refine ⟨rfl, ?_, fun _ _ => rfl⟩
  obtain ⟨r, r1, -⟩ := utcTuple_spec t ht h (1 / 10 ^ 16)
  have hu : formatUnit "%%f".toList = .micro := by decide
  unfold Time.utcStrftimeText Time.utcStrftime
  rw [hu]
  simp only [StrftimeUnit.offset, r1, if_true, Option.map_some]
  rfl

/-- Finding (C103): only the first `%f` is replaced; a second one is left to the C library, which does not know it. -/
theorem C103_second_micro (lib : Library) (hl : Posix lib) (zone : List Char) (f : StrftimeFields) :
    formatFields lib zone "%f %f".toList f = padded 6 f.usec ++ ' ' :: lib [] 'f' (f.tm (padded 6 f.usec)) := by
  have e : formatFields lib zone "%f %f".toList f = lib [] 'Z' (f.tm (padded 6 f.usec)) ++ ' ' ::
      (lib [] 'f' (f.tm (padded 6 f.usec)) ++ []) := rfl
  rw [e, hl.zone, List.append_nil]
  rfl

/-- Finding (C103): `%r`, which C libraries show as the time with seconds, is not among the directives that Skyfield looks for, so the
time is cut off at the second and not rounded as the documentation promises. -/
theorem C103_r_cut_off {L : List ℤ} {b : ℤ} (lib : Library) (hl : Posix lib) (zone : List Char) (t : Time K) (ht : t.Coherent)
    (h : IsLeapTable t.ts L b) :
    ∃ (tm : TmTuple) (D : ℤ), t.utcStrftimeText lib zone "%r".toList = some (lib [] 'r' tm) ∧
      CivilDate t.ts.cutoff tm.year tm.month tm.day D ∧
      taiOf L b D tm.hour tm.minute (tm.second : K) ≤ t.taiInstant ∧
      t.taiInstant < taiOf L b D tm.hour tm.minute (tm.second : K) + 1 := by
  have no : ∀ letters : List Char, 'r' ∉ letters → ¬ Mentions letters [.directive [] 'r'] := by
    rintro letters hr ⟨p, hp, c, hc, e⟩
    rw [List.mem_singleton.1 hp] at e
    simp only [FormatPiece.letter?, Option.some.injEq] at e
    rw [← e] at hc
    exact hr hc
  obtain ⟨tm, D, h1, h2, -, h3⟩ := C103_utc_coarse lib hl zone [.directive [] 'r'] ⟨by
      intro p hp
      rw [List.mem_singleton.1 hp]
      exact ⟨by simp, by decide, by decide⟩, noPercent_noLookalike (by simp), by
      intro a b c fl fl' e
      have : FormatPiece.directive fl 'f' ∈ [FormatPiece.directive [] 'r'] := by rw [e]; simp
      simp at this, no _ (by decide)⟩ (no _ (by decide)) (no _ (by decide)) (no _ (by decide)) t ht h
  refine ⟨tm, D, ?_, h2, h3⟩
  have e : "%r".toList = formatSource [.directive [] 'r'] := rfl
  rw [e, h1]
  simp [FormatPiece.shows]

/-- The Mondays from January 1 to a day, given the weekday (Monday = 0) and the day of the year (January 1 = 1) of that day. -/
def mondaysSoFar (weekday yday : ℤ) : ℕ := ((List.range yday.toNat).filter fun k : ℕ => (weekday - (k : ℤ)) % 7 = 0).length

private theorem two_mondays (w y : ℤ) (hy : 14 ≤ y) : 2 ≤ mondaysSoFar w y := by
  unfold mondaysSoFar
  have hw : ∀ k : ℕ, (decide ((w - (k : ℤ)) % 7 = 0)) = decide ((w % 7 - (k : ℤ)) % 7 = 0) := by
    intro k; rw [Int.emod_sub_emod]
  obtain ⟨r, hr⟩ : ∃ r, r = w % 7 := ⟨_, rfl⟩
  obtain ⟨n, hn⟩ : ∃ n : ℕ, y.toNat = 14 + n := ⟨y.toNat - 14, by omega⟩
  simp only [hw, ← hr, hn, List.range_add, List.filter_append, List.length_append]
  have : 2 ≤ ((List.range 14).filter fun k : ℕ => decide ((r - (k : ℤ)) % 7 = 0)).length := by
    have h0 : 0 ≤ r := by omega
    have h6 : r ≤ 6 := by omega
    interval_cases r <;> decide
  omega

/-- Finding (C103): in the other time scales the week of the year is wrong on every day after January 13.  `t.tt_strftime('%W')`
prints `00` or `01`, since the day of the year is only worked out if the format has a `%j`. -/
theorem C103_week_wrong (lib : Library) (hl : Posix lib) (zone : List Char) (ts : Timescale K) (jd fraction : K) :
    (ts.strftimeText lib zone "%W".toList jd fraction = "00".toList ∨
      ts.strftimeText lib zone "%W".toList jd fraction = "01".toList) ∧
    (14 ≤ (ts.strftime .other jd fraction).yday →
      ts.strftimeText lib zone "%W".toList jd fraction ≠
        padded 2 (mondaysSoFar (ts.strftime .other jd fraction).weekday (ts.strftime .other jd fraction).yday)) := by
  have hu : formatUnit "%W".toList = .other := by decide
  have hj : searchDirective ['j'] "%W".toList = none := by decide
  obtain ⟨f, hf⟩ : ∃ f, f = ts.strftime .other jd fraction := ⟨_, rfl⟩
  have e : ts.strftimeText lib zone "%W".toList jd fraction = "00".toList ∨
      ts.strftimeText lib zone "%W".toList jd fraction = "01".toList := by
    have e1 : ts.strftimeText lib zone "%W".toList jd fraction =
        lib [] 'W' (StrftimeFields.tm { f with yday := 0 } zone) ++ [] := by
      unfold Timescale.strftimeText
      simp only [hu, hj, ← hf]
      rfl
    rw [e1, List.append_nil, hl.mondays _ (le_refl _) (by show (0:ℤ) ≤ 366; norm_num)]
    have e2 : (max (StrftimeFields.tm { f with yday := 0 } zone).yday 1).toNat = 1 := rfl
    rw [e2]
    by_cases hw : (f.weekday - ((0:ℕ):ℤ)) % 7 = 0
    · right
      have : ((List.range 1).filter fun k : ℕ => decide (((StrftimeFields.tm { f with yday := 0 } zone).weekday - (k : ℤ)) % 7 = 0)) =
          [0] := by
        show (List.filter _ [0]) = [0]
        rw [List.filter_cons_of_pos (by simpa [StrftimeFields.tm] using hw), List.filter_nil]
      rw [this]; rfl
    · left
      have : ((List.range 1).filter fun k : ℕ => decide (((StrftimeFields.tm { f with yday := 0 } zone).weekday - (k : ℤ)) % 7 = 0)) =
          [] := by
        show (List.filter _ [0]) = []
        rw [List.filter_cons_of_neg (by simpa [StrftimeFields.tm] using hw), List.filter_nil]
      rw [this]; rfl
  refine ⟨e, fun hy hw => ?_⟩
  rw [← hf] at hy hw
  have h2 := two_mondays f.weekday f.yday hy
  have hv := (zeroPad_spec 2 (mondaysSoFar f.weekday f.yday : ℤ) (by positivity)).1
  have hz : zeroPad 2 (mondaysSoFar f.weekday f.yday : ℤ) = padded 2 (mondaysSoFar f.weekday f.yday : ℤ) := rfl
  rw [hz, ← hw] at hv
  rcases e with e | e
  · rw [e] at hv
    have : Nat.ofDigitChars 10 "00".toList 0 = 0 := by decide
    rw [this] at hv
    omega
  · rw [e] at hv
    have : Nat.ofDigitChars 10 "01".toList 0 = 1 := by decide
    rw [this] at hv
    omega

/-- A C library that keeps to POSIX. -/
def exampleLibrary : Library := fun _ letter tm =>
  match letter with
  | 'Y' => padded 4 tm.year
  | 'm' => padded 2 tm.month
  | 'd' => padded 2 tm.day
  | 'H' => padded 2 tm.hour
  | 'M' => padded 2 tm.minute
  | 'S' => padded 2 tm.second
  | 'j' => padded 3 (max tm.yday 1)
  | 'U' => padded 2 (((List.range (max tm.yday 1).toNat).filter fun k : ℕ => (tm.weekday - (k : ℤ)) % 7 = 6).length : ℤ)
  | 'W' => padded 2 (((List.range (max tm.yday 1).toNat).filter fun k : ℕ => (tm.weekday - (k : ℤ)) % 7 = 0).length : ℤ)
  | 'Z' => tm.zone
  | _ => []

theorem exampleLibrary_posix : Posix exampleLibrary where
  year _ _ _ := rfl
  month _ _ _ := rfl
  day _ _ _ := rfl
  hour _ _ _ := rfl
  minute _ _ _ := rfl
  second _ _ _ := rfl
  yearDay _ _ _ := rfl
  sundays _ _ _ := rfl
  mondays _ _ _ := rfl
  zone _ := rfl
  zoneOnly flags letter tm z h := by
    unfold exampleLibrary
    split <;> first | rfl | exact absurd rfl h

private theorem only_percent (a b l m : List FormatPiece) (h1 : FormatPiece.percent ∉ l) (h2 : FormatPiece.percent ∉ m)
    (e : l ++ .percent :: m = a ++ .percent :: b) : b = m := by
  induction l generalizing a with
  | nil =>
    cases a with
    | nil => simpa using e.symm
    | cons x xs =>
      simp only [List.nil_append, List.cons_append, List.cons.injEq] at e
      exact absurd (by rw [e.2]; simp) h2
  | cons x xs ih =>
    cases a with
    | nil =>
      simp only [List.nil_append, List.cons_append, List.cons.injEq] at e
      exact absurd (by rw [e.1]; simp) h1
    | cons y ys =>
      simp only [List.cons_append, List.cons.injEq] at e
      exact ih ys (fun h => h1 (by simp [h])) e.2

/-- `'%H:%M:%-S.%f 50%% d'` is a good format: the `%%` is followed by a blank. -/
private theorem goodFormat_example : GoodFormat ([.directive [] 'H', .text ':', .directive [] 'M', .text ':', .directive ['-'] 'S',
    .text '.', .directive [] 'f', .text ' ', .text '5', .text '0', .percent, .text ' ', .text 'd']) where
  wellformed := by
    simp only [List.mem_cons, List.not_mem_nil, or_false]
    rintro p (rfl | rfl | rfl | rfl | rfl | rfl | rfl | rfl | rfl | rfl | rfl | rfl | rfl) <;>
      (simp only [FormatPiece.Wellformed]; try decide)
  noLookalike := by
    intro a b e
    have hb : b = [.text ' ', .text 'd'] := by
      exact only_percent a b [.directive [] 'H', .text ':', .directive [] 'M', .text ':', .directive ['-'] 'S',
        .text '.', .directive [] 'f', .text ' ', .text '5', .text '0'] [.text ' ', .text 'd'] (by simp) (by simp) e
    rw [hb]
    simp [LooksLikeDirective, isFlag]
  oneMicro := by
    intro a b c fl fl' e
    have := congrArg (fun l => (l.filter fun p : FormatPiece => p.letter? = some 'f').length) e
    simp [FormatPiece.letter?] at this
    omega
  noZone := by
    rintro ⟨p, hp, c, hc, e⟩
    rw [List.mem_singleton.1 hc] at e
    simp only [List.mem_cons, List.not_mem_nil, or_false] at hp
    rcases hp with rfl | rfl | rfl | rfl | rfl | rfl | rfl | rfl | rfl | rfl | rfl | rfl | rfl <;> simp [FormatPiece.letter?] at e

example (t : Time K) {L : List ℤ} {b : ℤ} (ht : t.Coherent) (h : IsLeapTable t.ts L b) :=
  C103_utc_micro exampleLibrary exampleLibrary_posix [] _ goodFormat_example ⟨.directive [] 'f', by simp, 'f', by simp, rfl⟩ t ht h

/-- 1972 June 30, 23:59:60.25, in the leap second, prints as 23:59:60. -/
example : ∃ t : Time ℚ, exampleTs.utc 1972 6 (30 : ℤ) (23 : ℤ) (59 : ℤ) (60 + 1/4) = some t ∧
    ∃ y m d hh mm ss : ℤ, NearestReading t.ts.cutoff [2441500, 2441684, 2442049] 10 1 t.taiInstant y m d hh mm (ss : ℚ) ∧
      (1000 ≤ y → y ≤ 9999 → t.utcStrftimeText exampleLibrary [] "%Y-%m-%d %H:%M:%S UTC".toList =
        some (padded 4 y ++ '-' :: padded 2 m ++ '-' :: padded 2 d ++ ' ' :: padded 2 hh ++ ':' :: padded 2 mm ++ ':' ::
          padded 2 ss ++ " UTC".toList)) := by
  have hd : CivilDate exampleTs.cutoff 1972 6 30 2441499 := (C03_reads_civil_date _ _ _ _ _).1 (by decide)
  obtain ⟨t, h1, h2, h3, h4⟩ := C05_utc_instant exampleTs_ok exampleTs_cutoff hd 23 59 (60 + 1/4 : ℚ)
  exact ⟨t, h1, C103_default exampleLibrary exampleLibrary_posix [] t h2 (h3 ▸ exampleTs_ok) (h3 ▸ exampleTs_cutoff)⟩

end Skyfield
