import Verif.Model.Download
import Mathlib.Data.List.TakeWhile
import Mathlib.Tactic.Common

/-
C25-C27: downloads under crashes and interleavings, backups.
-/
namespace Skyfield
variable {β ι : Type*} [DecidableEq ι]

/-! ### The names involved are different -/

theorem rsplitDot_append (a b : Path) (h : '.' ∉ b) : rsplitDot (a ++ '.' :: b) = some (a, b) := by
  unfold rsplitDot
  have e : (a ++ '.' :: b).reverse = b.reverse ++ '.' :: a.reverse := by simp
  have hb : ∀ c ∈ b.reverse, (decide (c ≠ '.')) = true := by
    intro c hc
    simp only [List.mem_reverse] at hc
    simp only [ne_eq, decide_eq_true_eq]
    rintro rfl
    exact h hc
  rw [e, List.dropWhile_append_of_pos hb, List.takeWhile_append_of_pos hb]
  simp

theorem rsplitDot_some {p a b : Path} (h : rsplitDot p = some (a, b)) : p = a ++ '.' :: b ∧ '.' ∉ b := by
  unfold rsplitDot at h
  split at h
  · cases h
  · rename_i x prefixRev hd
    simp only [Option.some.injEq, Prod.mk.injEq] at h
    obtain ⟨rfl, rfl⟩ := h
    have hx : x = '.' := by
      have h1 := List.head?_dropWhile_not (fun c : Char => decide (c ≠ '.')) p.reverse
      rw [hd] at h1
      simpa using h1
    have h2 := List.takeWhile_append_dropWhile (p := fun c : Char => decide (c ≠ '.')) (l := p.reverse)
    rw [hd, hx] at h2
    constructor
    · have := congrArg List.reverse h2
      simp only [List.reverse_append, List.reverse_cons, List.reverse_reverse] at this
      exact (this.symm.trans (by simp))
    · intro hc
      rw [List.mem_reverse] at hc
      have := List.mem_takeWhile_imp hc
      simp at this

theorem decimal_no_dot (n : ℕ) : '.' ∉ decimal n := by
  intro h
  have := Nat.isDigit_of_mem_toDigits (b := 10) (by decide) (by decide) h
  exact absurd this (by decide)

theorem rsplitDot_temp (p : Path) (i : ℕ) :
    rsplitDot (tempName p i) = some (p, "download".toList ++ if i = 1 then [] else decimal i) := by
  have : tempName p i = p ++ '.' :: ("download".toList ++ if i = 1 then [] else decimal i) := by
    simp [tempName]
  rw [this]
  apply rsplitDot_append
  intro h
  rw [List.mem_append] at h
  rcases h with h | h
  · revert h; decide
  · split at h
    · simp at h
    · exact decimal_no_dot _ h

theorem temp_ne_dest (p : Path) (i : ℕ) : tempName p i ≠ p := by
  intro h
  have := congrArg List.length h
  simp [tempName] at this

theorem backup_ne_dest {p b : Path} {n : ℕ} (h : backupName p n = some b) : b ≠ p := by
  unfold backupName at h
  rw [Option.map_eq_some_iff] at h
  obtain ⟨⟨a, s⟩, h1, rfl⟩ := h
  obtain ⟨e, -⟩ := rsplitDot_some h1
  intro hc
  have := congrArg List.length hc
  rw [e] at this
  simp at this
  omega

theorem temp_ne_backup {p b : Path} {n : ℕ} (h : backupName p n = some b) (i : ℕ) : tempName p i ≠ b := by
  unfold backupName at h
  rw [Option.map_eq_some_iff] at h
  obtain ⟨⟨a, s⟩, h1, rfl⟩ := h
  obtain ⟨e, hs⟩ := rsplitDot_some h1
  intro hc
  have h2 := rsplitDot_temp p i
  simp only at hc
  rw [hc, rsplitDot_append _ _ hs, Option.some.injEq, Prod.mk.injEq] at h2
  obtain ⟨h3, h4⟩ := h2
  have h5 : rsplitDot p = some (a, "old".toList ++ decimal n) := by
    rw [← h3]
    have : a ++ ".old".toList ++ decimal n = a ++ '.' :: ("old".toList ++ decimal n) := by simp
    rw [this]
    apply rsplitDot_append
    intro hd
    rw [List.mem_append] at hd
    rcases hd with hd | hd
    · revert hd; decide
    · exact decimal_no_dot _ hd
  rw [h1, Option.some.injEq, Prod.mk.injEq] at h5
  have h6 := h4.symm.trans h5.2
  simp at h6

/-! ### The invariant -/

/-- The temporary file a process has, if it has one. -/
def Phase.temp : Phase β → Option Path
  | .write t _ _ | .check t | .pick t _ | .rename t _ | .replace t => some t
  | _ => none

/-- What is in the temporary file of a process. -/
def Phase.TempOk (job : Job β) (fs : FileSystem β) : Phase β → Prop
  | .write t pending todo => ∃ c, fs t = some c ∧
      c ++ pending ++ (todo.takeWhile (· ≠ [])).flatten = job.received
  | .check t | .pick t _ | .replace t => fs t = some job.received
  | .rename t _ => fs t = some job.received
  | _ => True

/-- The invariant of any number of downloads to the destination `d`. -/
structure Inv (jobs : ι → Job β) (d : Path) (fs0 fs : FileSystem β) (ph : ι → Phase β) : Prop where
  other : ∀ x, x ≠ d → (∀ i, x ≠ tempName d i) → (∀ n, backupName d n ≠ some x) → fs x = fs0 x
  kept : ∀ x c, x ≠ d → fs0 x = some c → fs x = some c
  isTemp : ∀ p t, (ph p).temp = some t → (∃ i, t = tempName d i) ∧ fs0 t = none
  tempOk : ∀ p, (ph p).TempOk (jobs p) fs
  distinct : ∀ p q t, (ph p).temp = some t → (ph q).temp = some t → p = q
  target : ∀ p t b, ph p = .rename t b → (∃ n, backupName d n = some b) ∧ fs0 b = none ∧
    (jobs p).backup = true
  picking : ∀ p t n, ph p = .pick t n → (jobs p).backup = true
  dest : fs d = fs0 d ∨ (∃ p, fs d = some (jobs p).received) ∨ (fs d = none ∧ ∃ p, (jobs p).backup = true)

theorem TempOk_congr (job : Job β) (fs fs' : FileSystem β) (ph : Phase β)
    (h : ∀ t, ph.temp = some t → fs' t = fs t) (hok : ph.TempOk job fs) : ph.TempOk job fs' := by
  cases ph with
  | write t pending todo => simp only [Phase.TempOk] at *; rw [h t rfl]; exact hok
  | check t => simp only [Phase.TempOk] at *; rw [h t rfl]; exact hok
  | pick t n => simp only [Phase.TempOk] at *; rw [h t rfl]; exact hok
  | rename t b => simp only [Phase.TempOk] at *; rw [h t rfl]; exact hok
  | replace t => simp only [Phase.TempOk] at *; rw [h t rfl]; exact hok
  | _ => trivial

/-- A step that leaves the file system alone, keeps the temporary file and is fine by itself. -/
theorem inv_same_fs (jobs : ι → Job β) (d : Path) (fs0 fs : FileSystem β) (ph : ι → Phase β)
    (inv : Inv jobs d fs0 fs ph) (p : ι) (ph' : Phase β)
    (htemp : ∀ t, ph'.temp = some t → (ph p).temp = some t)
    (hok : ph'.TempOk (jobs p) fs)
    (htarget : ∀ t b, ph' = .rename t b → (∃ n, backupName d n = some b) ∧ fs0 b = none ∧
      (jobs p).backup = true)
    (hpick : ∀ t n, ph' = .pick t n → (jobs p).backup = true) :
    Inv jobs d fs0 fs (Function.update ph p ph') where
  other := inv.other
  kept := inv.kept
  isTemp := by
    intro q t hq
    by_cases h : q = p
    · subst h; rw [Function.update_self] at hq; exact inv.isTemp q t (htemp t hq)
    · rw [Function.update_of_ne h] at hq; exact inv.isTemp q t hq
  tempOk := by
    intro q
    by_cases h : q = p
    · subst h; rw [Function.update_self]; exact hok
    · rw [Function.update_of_ne h]; exact inv.tempOk q
  distinct := by
    intro q r t hq hr
    have hq' : (ph q).temp = some t := by
      by_cases h : q = p
      · subst h; rw [Function.update_self] at hq; exact htemp t hq
      · rwa [Function.update_of_ne h] at hq
    have hr' : (ph r).temp = some t := by
      by_cases h : r = p
      · subst h; rw [Function.update_self] at hr; exact htemp t hr
      · rwa [Function.update_of_ne h] at hr
    exact inv.distinct q r t hq' hr'
  target := by
    intro q t b hq
    by_cases h : q = p
    · subst h; rw [Function.update_self] at hq; exact htarget t b hq
    · rw [Function.update_of_ne h] at hq; exact inv.target q t b hq
  picking := by
    intro q t n hq
    by_cases h : q = p
    · subst h; rw [Function.update_self] at hq; exact hpick t n hq
    · rw [Function.update_of_ne h] at hq; exact inv.picking q t n hq
  dest := inv.dest

/-- A step that writes to the process's own temporary file and keeps it. -/
theorem inv_write_temp (jobs : ι → Job β) (d : Path) (fs0 fs : FileSystem β) (ph : ι → Phase β)
    (inv : Inv jobs d fs0 fs ph) (p : ι) (t : Path) (ht : (ph p).temp = some t) (c : List β) (ph' : Phase β)
    (htemp : ph'.temp = some t)
    (hok : ph'.TempOk (jobs p) (Function.update fs t (some c)))
    (htarget : ∀ t b, ph' ≠ .rename t b) (hpick : ∀ t n, ph' ≠ .pick t n) :
    Inv jobs d fs0 (Function.update fs t (some c)) (Function.update ph p ph') := by
  obtain ⟨⟨i, hi⟩, h0⟩ := inv.isTemp p t ht
  constructor
  · intro x hx h1 h2
    rw [Function.update_of_ne (by rw [hi]; exact h1 i)]
    exact inv.other x hx h1 h2
  · intro x c' hx hc
    have : x ≠ t := by rintro rfl; rw [h0] at hc; cases hc
    rw [Function.update_of_ne this]
    exact inv.kept x c' hx hc
  · intro q s hq
    by_cases h : q = p
    · subst h; rw [Function.update_self, htemp, Option.some.injEq] at hq; subst hq; exact ⟨⟨i, hi⟩, h0⟩
    · rw [Function.update_of_ne h] at hq; exact inv.isTemp q s hq
  · intro q
    by_cases h : q = p
    · subst h; rw [Function.update_self]; exact hok
    · rw [Function.update_of_ne h]
      apply TempOk_congr _ fs _ _ _ (inv.tempOk q)
      intro s hs
      rw [Function.update_of_ne]
      rintro rfl
      exact h (inv.distinct q p s hs ht)
  · intro q r s hq hr
    have key : ∀ q, (Function.update ph p ph' q).temp = some s → (ph q).temp = some s := by
      intro q hq
      by_cases h : q = p
      · subst h; rw [Function.update_self, htemp] at hq; rw [ht]; exact hq
      · rwa [Function.update_of_ne h] at hq
    exact inv.distinct q r s (key q hq) (key r hr)
  · intro q s b hq
    by_cases h : q = p
    · subst h; rw [Function.update_self] at hq; exact absurd hq (htarget s b)
    · rw [Function.update_of_ne h] at hq; exact inv.target q s b hq
  · intro q s n hq
    by_cases h : q = p
    · subst h; rw [Function.update_self] at hq; exact absurd hq (hpick s n)
    · rw [Function.update_of_ne h] at hq; exact inv.picking q s n hq
  · have : d ≠ t := by rw [hi]; exact (temp_ne_dest d i).symm
    rw [Function.update_of_ne this]
    exact inv.dest

theorem inv_step (jobs : ι → Job β) (d : Path) (hd : ∀ p, (jobs p).dest = d) (fs0 fs fs' : FileSystem β)
    (ph : ι → Phase β) (inv : Inv jobs d fs0 fs ph) (p : ι) (php ph' : Phase β) (hphp : ph p = php)
    (h : Step (jobs p) fs php fs' ph') :
    Inv jobs d fs0 fs' (Function.update ph p ph') := by
  have hok := inv.tempOk p
  rw [hphp] at hok
  have hdp := hd p
  cases h with
  | taken i c hc =>
    exact inv_same_fs jobs d fs0 fs ph inv p _ (by simp [Phase.temp]) trivial (by simp) (by simp)
  | claimed i hnone =>
    rw [hdp] at hnone ⊢
    have h0 : fs0 (tempName d i) = none := by
      by_contra hc
      obtain ⟨c, hc⟩ := Option.ne_none_iff_exists'.1 hc
      rw [inv.kept _ c (temp_ne_dest d i) hc] at hnone
      cases hnone
    have hfresh : ∀ q, (ph q).temp ≠ some (tempName d i) := by
      intro q hq
      have hokq := inv.tempOk q
      generalize ph q = phq at hq hokq
      cases phq with
      | write t pending todo =>
        simp only [Phase.temp, Option.some.injEq] at hq
        obtain ⟨c, h1, -⟩ := hokq
        rw [hq, hnone] at h1; cases h1
      | check t =>
        simp only [Phase.temp, Option.some.injEq] at hq
        simp only [Phase.TempOk] at hokq
        rw [hq, hnone] at hokq; cases hokq
      | pick t n =>
        simp only [Phase.temp, Option.some.injEq] at hq
        simp only [Phase.TempOk] at hokq
        rw [hq, hnone] at hokq; cases hokq
      | rename t b =>
        simp only [Phase.temp, Option.some.injEq] at hq
        simp only [Phase.TempOk] at hokq
        rw [hq, hnone] at hokq; cases hokq
      | replace t =>
        simp only [Phase.temp, Option.some.injEq] at hq
        simp only [Phase.TempOk] at hokq
        rw [hq, hnone] at hokq; cases hokq
      | _ => simp [Phase.temp] at hq
    constructor
    · intro x hx h1 h2
      rw [Function.update_of_ne (h1 i)]
      exact inv.other x hx h1 h2
    · intro x c' hx hc
      have : x ≠ tempName d i := by rintro rfl; rw [h0] at hc; cases hc
      rw [Function.update_of_ne this]
      exact inv.kept x c' hx hc
    · intro q s hq
      by_cases h : q = p
      · subst h; rw [Function.update_self] at hq
        simp only [Phase.temp, Option.some.injEq] at hq
        subst hq; exact ⟨⟨i, rfl⟩, h0⟩
      · rw [Function.update_of_ne h] at hq; exact inv.isTemp q s hq
    · intro q
      by_cases h : q = p
      · subst h; rw [Function.update_self]
        exact ⟨[], by simp, rfl⟩
      · rw [Function.update_of_ne h]
        apply TempOk_congr _ fs _ _ _ (inv.tempOk q)
        intro s hs
        rw [Function.update_of_ne]
        rintro rfl
        exact hfresh q hs
    · intro q r s hq hr
      by_cases h : q = p
      · by_cases h' : r = p
        · rw [h, h']
        · subst h
          rw [Function.update_self] at hq
          simp only [Phase.temp, Option.some.injEq] at hq
          rw [Function.update_of_ne h', ← hq] at hr
          exact absurd hr (hfresh r)
      · by_cases h' : r = p
        · subst h'
          rw [Function.update_self] at hr
          simp only [Phase.temp, Option.some.injEq] at hr
          rw [Function.update_of_ne h, ← hr] at hq
          exact absurd hq (hfresh q)
        · rw [Function.update_of_ne h] at hq
          rw [Function.update_of_ne h'] at hr
          exact inv.distinct q r s hq hr
    · intro q s b hq
      by_cases h : q = p
      · subst h; rw [Function.update_self] at hq; cases hq
      · rw [Function.update_of_ne h] at hq; exact inv.target q s b hq
    · intro q s n hq
      by_cases h : q = p
      · subst h; rw [Function.update_self] at hq; cases hq
      · rw [Function.update_of_ne h] at hq; exact inv.picking q s n hq
    · rw [Function.update_of_ne (temp_ne_dest d i).symm]
      exact inv.dest
  | read temp pending c todo hne =>
    refine inv_same_fs jobs d fs0 fs ph inv p _ (by simp [Phase.temp, hphp]) ?_ (by simp) (by simp)
    obtain ⟨content, h1, h2⟩ := hok
    refine ⟨content, h1, ?_⟩
    rw [← h2, List.takeWhile_cons_of_pos (by simpa using hne)]
    simp
  | flush temp a b todo content hc =>
    refine inv_write_temp jobs d fs0 fs ph inv p temp (by rw [hphp]; rfl) _ _ rfl ?_ (by simp) (by simp)
    obtain ⟨content', h1, h2⟩ := hok
    rw [hc, Option.some.injEq] at h1
    subst h1
    refine ⟨content ++ a, by simp, ?_⟩
    rw [← h2]; simp
  | close temp pending todo content hend hc =>
    refine inv_write_temp jobs d fs0 fs ph inv p temp (by rw [hphp]; rfl) _ _ rfl ?_ (by simp) (by simp)
    obtain ⟨content', h1, h2⟩ := hok
    rw [hc, Option.some.injEq] at h1
    subst h1
    simp only [Phase.TempOk, Function.update_self]
    rw [← h2]
    cases todo with
    | nil => simp
    | cons x l =>
      simp only [List.head?_cons, Option.some.injEq] at hend
      rcases hend with hend | hend
      · cases hend
      · subst hend; simp
  | backup temp c hc hb =>
    exact inv_same_fs jobs d fs0 fs ph inv p _ (by simp [Phase.temp, hphp]) hok (by simp) (fun _ _ _ => hb)
  | noBackup temp hc =>
    exact inv_same_fs jobs d fs0 fs ph inv p _ (by simp [Phase.temp, hphp]) hok (by simp) (by simp)
  | inUse temp n b c hb hc =>
    exact inv_same_fs jobs d fs0 fs ph inv p _ (by simp [Phase.temp, hphp]) hok (by simp)
      (fun _ _ _ => inv.picking p _ _ hphp)
  | free temp n b hb hc =>
    rw [hdp] at hb
    refine inv_same_fs jobs d fs0 fs ph inv p _ (by simp [Phase.temp, hphp]) hok ?_ (by simp)
    intro t b' e
    simp only [Phase.rename.injEq] at e
    obtain ⟨-, rfl⟩ := e
    refine ⟨⟨n, hb⟩, ?_, inv.picking p _ _ hphp⟩
    by_contra hx
    obtain ⟨c, hx⟩ := Option.ne_none_iff_exists'.1 hx
    rw [inv.kept _ c (backup_ne_dest hb) hx] at hc
    cases hc
  | noDot temp n hb =>
    exact inv_same_fs jobs d fs0 fs ph inv p _ (by simp [Phase.temp]) trivial (by simp) (by simp)
  | renamed temp target c hc =>
    rw [hdp] at hc ⊢
    obtain ⟨⟨n, hn⟩, h0, hb⟩ := inv.target p _ _ hphp
    have htd := backup_ne_dest hn
    have hval : ∀ x, x ≠ d → x ≠ target →
        Function.update (Function.update fs target (some c)) d none x = fs x := by
      intro x h1 h2
      rw [Function.update_of_ne h1, Function.update_of_ne h2]
    have htempval : ∀ q t, (ph q).temp = some t →
        Function.update (Function.update fs target (some c)) d none t = fs t := by
      intro q t ht
      obtain ⟨⟨i, rfl⟩, -⟩ := inv.isTemp q t ht
      exact hval _ (temp_ne_dest d i) (temp_ne_backup hn i)
    constructor
    · intro x hx h1 h2
      rw [hval x hx (by rintro rfl; exact h2 n hn)]
      exact inv.other x hx h1 h2
    · intro x c' hx hc'
      rw [hval x hx (by rintro rfl; rw [h0] at hc'; cases hc')]
      exact inv.kept x c' hx hc'
    · intro q s hq
      by_cases h : q = p
      · subst h; rw [Function.update_self] at hq
        exact inv.isTemp q s (by rw [hphp]; exact hq)
      · rw [Function.update_of_ne h] at hq; exact inv.isTemp q s hq
    · intro q
      by_cases h : q = p
      · subst h; rw [Function.update_self]
        simp only [Phase.TempOk] at hok ⊢
        rw [htempval q temp (by rw [hphp]; rfl)]
        exact hok
      · rw [Function.update_of_ne h]
        exact TempOk_congr _ fs _ _ (fun t ht => htempval q t ht) (inv.tempOk q)
    · intro q r s hq hr
      have key : ∀ q, (Function.update ph p (Phase.replace temp) q).temp = some s → (ph q).temp = some s := by
        intro q hq
        by_cases h : q = p
        · subst h; rw [Function.update_self] at hq; rw [hphp]; exact hq
        · rwa [Function.update_of_ne h] at hq
      exact inv.distinct q r s (key q hq) (key r hr)
    · intro q s b hq
      by_cases h : q = p
      · subst h; rw [Function.update_self] at hq; cases hq
      · rw [Function.update_of_ne h] at hq; exact inv.target q s b hq
    · intro q s n hq
      by_cases h : q = p
      · subst h; rw [Function.update_self] at hq; cases hq
      · rw [Function.update_of_ne h] at hq; exact inv.picking q s n hq
    · right; right
      exact ⟨by simp, p, hb⟩
  | replaced temp c hc =>
    rw [hdp]
    simp only [Phase.TempOk] at hok
    rw [hok, Option.some.injEq] at hc
    subst hc
    obtain ⟨⟨i, hi⟩, h0⟩ := inv.isTemp p temp (by rw [hphp]; rfl)
    have hval : ∀ x, x ≠ d → x ≠ temp →
        Function.update (Function.update fs d (some (jobs p).received)) temp none x = fs x := by
      intro x h1 h2
      rw [Function.update_of_ne h2, Function.update_of_ne h1]
    constructor
    · intro x hx h1 h2
      rw [hval x hx (by rw [hi]; exact h1 i)]
      exact inv.other x hx h1 h2
    · intro x c' hx hc'
      rw [hval x hx (by rintro rfl; rw [h0] at hc'; cases hc')]
      exact inv.kept x c' hx hc'
    · intro q s hq
      by_cases h : q = p
      · subst h; rw [Function.update_self] at hq; cases hq
      · rw [Function.update_of_ne h] at hq; exact inv.isTemp q s hq
    · intro q
      by_cases h : q = p
      · subst h; rw [Function.update_self]; trivial
      · rw [Function.update_of_ne h]
        apply TempOk_congr _ fs _ _ _ (inv.tempOk q)
        intro t ht
        apply hval
        · obtain ⟨⟨j, rfl⟩, -⟩ := inv.isTemp q t ht
          exact temp_ne_dest d j
        · rintro rfl
          exact h (inv.distinct q p t ht (by rw [hphp]; rfl))
    · intro q r s hq hr
      have key : ∀ q, (Function.update ph p Phase.done q).temp = some s → (ph q).temp = some s := by
        intro q hq
        by_cases h : q = p
        · subst h; rw [Function.update_self] at hq; cases hq
        · rwa [Function.update_of_ne h] at hq
      exact inv.distinct q r s (key q hq) (key r hr)
    · intro q s b hq
      by_cases h : q = p
      · subst h; rw [Function.update_self] at hq; cases hq
      · rw [Function.update_of_ne h] at hq; exact inv.target q s b hq
    · intro q s n hq
      by_cases h : q = p
      · subst h; rw [Function.update_self] at hq; cases hq
      · rw [Function.update_of_ne h] at hq; exact inv.picking q s n hq
    · right; left
      refine ⟨p, ?_⟩
      have : d ≠ temp := by rw [hi]; exact (temp_ne_dest d i).symm
      rw [Function.update_of_ne this, Function.update_self]
  | fail =>
    exact inv_same_fs jobs d fs0 fs ph inv p _ (by simp [Phase.temp]) trivial (by simp) (by simp)

theorem inv_runsAll (jobs : ι → Job β) (d : Path) (hd : ∀ p, (jobs p).dest = d) (fs0 fs : FileSystem β)
    (ph : ι → Phase β) (h : RunsAll jobs fs0 fs ph) : Inv jobs d fs0 fs ph := by
  induction h with
  | start =>
    constructor
    · intros; rfl
    · intro x c _ h; exact h
    · intro p t h; cases h
    · intro p; trivial
    · intro p q t h; cases h
    · intro p t b h; cases h
    · intro p t b h; cases h
    · left; rfl
  | step p fs ph fs' ph' _ hs ih => exact inv_step jobs d hd fs0 fs fs' ph ih p _ ph' rfl hs

/-! ### C26 -/

/-- **C26.** Any number of processes downloading to the same destination, in any interleaving of their steps
and stopped at any point: the destination holds what it held at the start, or the complete stream
received by one of the processes, or — only if some process was asked to make a backup — is
absent. -/
theorem C26_destination (jobs : ι → Job β) (d : Path) (hd : ∀ p, (jobs p).dest = d)
    (fs0 fs : FileSystem β) (ph : ι → Phase β) (h : RunsAll jobs fs0 fs ph) :
    fs d = fs0 d ∨ (∃ p, fs d = some (jobs p).received) ∨ (fs d = none ∧ ∃ p, (jobs p).backup = true) :=
  (inv_runsAll jobs d hd fs0 fs ph h).dest

/-- **C26.** Each process writes to a temporary file of its own, which did not exist at the start, and
holds only what that process has received. -/
theorem C26_own_files (jobs : ι → Job β) (d : Path) (hd : ∀ p, (jobs p).dest = d)
    (fs0 fs : FileSystem β) (ph : ι → Phase β) (h : RunsAll jobs fs0 fs ph) (p : ι) (t : Path)
    (ht : (ph p).temp = some t) :
    fs0 t = none ∧ t ≠ d ∧ (∀ q, q ≠ p → (ph q).temp ≠ some t) ∧
      ∃ c, fs t = some c ∧ c <+: (jobs p).received := by
  have inv := inv_runsAll jobs d hd fs0 fs ph h
  obtain ⟨⟨i, rfl⟩, h0⟩ := inv.isTemp p t ht
  refine ⟨h0, temp_ne_dest d i, fun q hq hc => hq (inv.distinct q p _ hc ht), ?_⟩
  have hok := inv.tempOk p
  generalize ph p = php at ht hok
  cases php with
  | write t pending todo =>
    simp only [Phase.temp, Option.some.injEq] at ht
    subst ht
    obtain ⟨c, h1, h2⟩ := hok
    refine ⟨c, h1, ?_⟩
    rw [← h2, List.append_assoc]
    exact List.prefix_append _ _
  | check t =>
    simp only [Phase.temp, Option.some.injEq] at ht
    subst ht; exact ⟨_, hok, List.prefix_refl _⟩
  | pick t n =>
    simp only [Phase.temp, Option.some.injEq] at ht
    subst ht; exact ⟨_, hok, List.prefix_refl _⟩
  | rename t b =>
    simp only [Phase.temp, Option.some.injEq] at ht
    subst ht; exact ⟨_, hok, List.prefix_refl _⟩
  | replace t =>
    simp only [Phase.temp, Option.some.injEq] at ht
    subst ht; exact ⟨_, hok, List.prefix_refl _⟩
  | _ => cases ht

/-- **C26.** No file other than the destination that existed at the start is ever changed or removed. -/
theorem C26_others_untouched (jobs : ι → Job β) (d : Path) (hd : ∀ p, (jobs p).dest = d)
    (fs0 fs : FileSystem β) (ph : ι → Phase β) (h : RunsAll jobs fs0 fs ph) (x : Path) (c : List β)
    (hx : x ≠ d) (hc : fs0 x = some c) : fs x = some c :=
  (inv_runsAll jobs d hd fs0 fs ph h).kept x c hx hc

/-! ### C25 -/

/-- What is known of a process running alone, by the place it has reached. -/
def AloneInv (job : Job β) (fs0 fs : FileSystem β) : Phase β → Prop
  | .claim _ => fs = fs0
  | .write t _ _ | .check t => fs0 t = none ∧ t ≠ job.dest ∧ ∀ x, x ≠ t → fs x = fs0 x
  | .pick t _ => fs0 t = none ∧ t ≠ job.dest ∧ (∃ c, fs0 job.dest = some c) ∧ job.backup = true ∧
      ∀ x, x ≠ t → fs x = fs0 x
  | .rename t b => fs0 t = none ∧ t ≠ job.dest ∧ (∃ c, fs0 job.dest = some c) ∧ job.backup = true ∧
      fs0 b = none ∧ b ≠ job.dest ∧ b ≠ t ∧ ∀ x, x ≠ t → fs x = fs0 x
  | .replace t => fs0 t = none ∧ t ≠ job.dest ∧
      (((∀ x, x ≠ t → fs x = fs0 x) ∧ (fs0 job.dest = none ∨ job.backup = false)) ∨
        ∃ b, job.backup = true ∧ fs0 b = none ∧ b ≠ job.dest ∧ b ≠ t ∧ fs job.dest = none ∧
          fs b = fs0 job.dest ∧ ∀ x, x ≠ t → x ≠ b → x ≠ job.dest → fs x = fs0 x)
  | .done => fs job.dest = some job.received ∧
      (((∀ x, x ≠ job.dest → fs x = fs0 x) ∧ (fs0 job.dest = none ∨ job.backup = false)) ∨
        ∃ b, job.backup = true ∧ fs0 b = none ∧ b ≠ job.dest ∧ fs b = fs0 job.dest ∧
          ∀ x, x ≠ b → x ≠ job.dest → fs x = fs0 x)
  | .failed => fs = fs0 ∨ (∃ t, fs0 t = none ∧ t ≠ job.dest ∧ ∀ x, x ≠ t → fs x = fs0 x) ∨
      (fs job.dest = some job.received ∧
      (((∀ x, x ≠ job.dest → fs x = fs0 x) ∧ (fs0 job.dest = none ∨ job.backup = false)) ∨
        ∃ b, job.backup = true ∧ fs0 b = none ∧ b ≠ job.dest ∧ fs b = fs0 job.dest ∧
          ∀ x, x ≠ b → x ≠ job.dest → fs x = fs0 x)) ∨
      ∃ t b, fs0 t = none ∧ job.backup = true ∧ fs0 b = none ∧ b ≠ job.dest ∧ b ≠ t ∧ t ≠ job.dest ∧
        fs job.dest = none ∧ fs b = fs0 job.dest ∧ ∀ x, x ≠ t → x ≠ b → x ≠ job.dest → fs x = fs0 x

theorem runs_runsAll (job : Job β) (fs0 fs : FileSystem β) (ph : Phase β) (h : Runs job fs0 fs ph) :
    RunsAll (ι := Unit) (fun _ => job) fs0 fs (fun _ => ph) := by
  induction h with
  | start => exact RunsAll.start
  | step fs ph fs' ph' _ hs ih =>
    have := RunsAll.step () fs (fun _ => ph) fs' ph' ih hs
    have e : Function.update (fun _ : Unit => ph) () ph' = fun _ => ph' := by
      funext u; simp [Function.update]
    rwa [e] at this

theorem alone_inv (job : Job β) (fs0 fs : FileSystem β) (ph : Phase β) (h : Runs job fs0 fs ph) :
    AloneInv job fs0 fs ph := by
  induction h with
  | start => rfl
  | step fs ph fs' ph' hr hs ih =>
    have inv := inv_runsAll (fun _ => job) job.dest (fun _ => rfl) fs0 fs _ (runs_runsAll job fs0 fs ph hr)
    have hok := inv.tempOk ()
    have htm := inv.isTemp ()
    have htg := inv.target ()
    cases hs with
    | taken i c hc => exact ih
    | claimed i hnone =>
      have e : fs = fs0 := ih
      subst e
      exact ⟨hnone, temp_ne_dest _ _, fun x hx => by rw [Function.update_of_ne hx]⟩
    | read temp pending c todo hne => exact ih
    | flush temp a b todo content hc =>
      obtain ⟨h1, h2, h3⟩ := ih
      exact ⟨h1, h2, fun x hx => by rw [Function.update_of_ne hx]; exact h3 x hx⟩
    | close temp pending todo content hend hc =>
      obtain ⟨h1, h2, h3⟩ := ih
      exact ⟨h1, h2, fun x hx => by rw [Function.update_of_ne hx]; exact h3 x hx⟩
    | backup temp c hc hb =>
      obtain ⟨h1, h2, h3⟩ := ih
      exact ⟨h1, h2, ⟨c, by rw [← h3 _ h2.symm]; exact hc⟩, hb, h3⟩
    | noBackup temp hc =>
      obtain ⟨h1, h2, h3⟩ := ih
      exact ⟨h1, h2, Or.inl ⟨h3, by rwa [h3 _ h2.symm] at hc⟩⟩
    | inUse temp n b c hb hc => exact ih
    | free temp n b hb hc =>
      obtain ⟨h1, h2, h3, h4, h5⟩ := ih
      obtain ⟨⟨i, hi⟩, -⟩ := htm temp rfl
      have hbt : b ≠ temp := by rw [hi]; exact (temp_ne_backup hb i).symm
      exact ⟨h1, h2, h3, h4, by rw [← h5 b hbt]; exact hc, backup_ne_dest hb, hbt, h5⟩
    | noDot temp n hb =>
      obtain ⟨h1, h2, -, -, h5⟩ := ih
      exact Or.inr (Or.inl ⟨temp, h1, h2, h5⟩)
    | renamed temp target c hc =>
      obtain ⟨h1, h2, -, h4, h5, h6, h7, h8⟩ := ih
      refine ⟨h1, h2, Or.inr ⟨target, h4, h5, h6, h7, by simp, ?_, ?_⟩⟩
      · rw [Function.update_of_ne h6, Function.update_self, ← h8 _ h2.symm]; exact hc.symm
      · intro x hx hx' hx''
        rw [Function.update_of_ne hx'', Function.update_of_ne hx']; exact h8 x hx
    | replaced temp c hc =>
      simp only [Phase.TempOk] at hok
      rw [hok, Option.some.injEq] at hc
      subst hc
      obtain ⟨h1, h2, h3⟩ := ih
      refine ⟨by rw [Function.update_of_ne h2.symm, Function.update_self], ?_⟩
      rcases h3 with ⟨h3, h4⟩ | ⟨b, k1, k2, k3, k4, k5, k6, k7⟩
      · left
        refine ⟨?_, h4⟩
        intro x hx
        by_cases hxt : x = temp
        · subst hxt; rw [Function.update_self, h1]
        · rw [Function.update_of_ne hxt, Function.update_of_ne hx]; exact h3 x hxt
      · right
        refine ⟨b, k1, k2, k3, ?_, ?_⟩
        · rw [Function.update_of_ne k4, Function.update_of_ne k3]; exact k6
        · intro x hx hx'
          by_cases hxt : x = temp
          · subst hxt; rw [Function.update_self, h1]
          · rw [Function.update_of_ne hxt, Function.update_of_ne hx']; exact k7 x hxt hx hx'
    | fail =>
      cases ph with
      | claim i =>
        exact Or.inl ih
      | write t pending todo => exact Or.inr (Or.inl ⟨t, ih.1, ih.2.1, ih.2.2⟩)
      | check t => exact Or.inr (Or.inl ⟨t, ih.1, ih.2.1, ih.2.2⟩)
      | pick t n => exact Or.inr (Or.inl ⟨t, ih.1, ih.2.1, ih.2.2.2.2⟩)
      | rename t b => exact Or.inr (Or.inl ⟨t, ih.1, ih.2.1, ih.2.2.2.2.2.2.2⟩)
      | replace t =>
        obtain ⟨h1, h2, h3⟩ := ih
        rcases h3 with ⟨h3, h4⟩ | ⟨b, k1, k2, k3, k4, k5, k6, k7⟩
        · exact Or.inr (Or.inl ⟨t, h1, h2, h3⟩)
        · exact Or.inr (Or.inr (Or.inr ⟨t, b, h1, k1, k2, k3, k4, h2, k5, k6, k7⟩))
      | done => exact Or.inr (Or.inr (Or.inl ih))
      | failed => exact ih

/-- **C25.** Whatever point a download has reached when it crashes or fails: the destination holds exactly what
it held before, or everything that was received up to the end of the stream, or — only when a backup
was asked for — is absent while its old content is under a name that was free before. -/
theorem C25_atomic (job : Job β) (fs0 fs : FileSystem β) (ph : Phase β) (h : Runs job fs0 fs ph) :
    fs job.dest = fs0 job.dest ∨ fs job.dest = some job.received ∨
      (job.backup = true ∧ fs job.dest = none ∧
        ∃ b, b ≠ job.dest ∧ fs0 b = none ∧ fs b = fs0 job.dest) := by
  have ai := alone_inv job fs0 fs ph h
  cases ph with
  | claim i => left; rw [show fs = fs0 from ai]
  | write t pending todo => left; exact ai.2.2 _ ai.2.1.symm
  | check t => left; exact ai.2.2 _ ai.2.1.symm
  | pick t n => left; exact ai.2.2.2.2 _ ai.2.1.symm
  | rename t b => left; exact ai.2.2.2.2.2.2.2 _ ai.2.1.symm
  | replace t =>
    obtain ⟨h1, h2, h3⟩ := ai
    rcases h3 with ⟨h3, -⟩ | ⟨b, k1, k2, k3, k4, k5, k6, k7⟩
    · left; exact h3 _ h2.symm
    · right; right; exact ⟨k1, k5, b, k3, k2, k6⟩
  | done => right; left; exact ai.1
  | failed =>
    rcases ai with e | ⟨t, h1, h2, h3⟩ | ⟨h1, -⟩ | ⟨t, b, h1, k1, k2, k3, k4, h2, k5, k6, k7⟩
    · left; rw [e]
    · left; exact h3 _ h2.symm
    · right; left; exact h1
    · right; right; exact ⟨k1, k5, b, k3, k2, k6⟩

/-- **C25.** A download that returns has put everything it received at the destination and left nothing else
changed, except that with a backup the old content is under one name that was free before. -/
theorem C25_returns (job : Job β) (fs0 fs : FileSystem β) (h : Runs job fs0 fs .done) :
    fs job.dest = some job.received ∧
      ((∀ x, x ≠ job.dest → fs x = fs0 x) ∨
        (job.backup = true ∧ ∃ b, b ≠ job.dest ∧ fs0 b = none ∧ fs b = fs0 job.dest ∧
          ∀ x, x ≠ b → x ≠ job.dest → fs x = fs0 x)) := by
  obtain ⟨h1, h2⟩ := alone_inv job fs0 fs _ h
  refine ⟨h1, ?_⟩
  rcases h2 with ⟨h2, -⟩ | ⟨b, k1, k2, k3, k4, k5⟩
  · left; exact h2
  · right; exact ⟨k1, b, k3, k2, k4, k5⟩

/-- **C25.** No other file is touched, at any point. -/
theorem C25_others_untouched (job : Job β) (fs0 fs : FileSystem β) (ph : Phase β) (h : Runs job fs0 fs ph)
    (x : Path) (c : List β) (hx : x ≠ job.dest) (hc : fs0 x = some c) : fs x = some c :=
  C26_others_untouched (fun _ : Unit => job) job.dest (fun _ => rfl) fs0 fs _ (runs_runsAll job fs0 fs ph h)
    x c hx hc

/-- In an empty directory a download can run to its end. -/
theorem runs_to_end (d : Path) (a : List β) (ha : a ≠ []) (backup : Bool) (n : Option ℕ) :
    ∃ fs, Runs ⟨d, [a], backup, n⟩ (fun _ => none) fs .done := by
  have r0 : Runs ⟨d, [a], backup, n⟩ (fun _ => none) (fun _ => none) (.claim 1) := Runs.start
  have r1 := Runs.step _ _ _ _ r0 (Step.claimed _ 1 rfl)
  have r2 := Runs.step _ _ _ _ r1 (Step.read _ _ _ a [] ha)
  have r3 := Runs.step _ _ _ _ r2 (Step.close _ _ _ [] [] (Or.inl rfl) (by simp))
  have r4 := Runs.step _ _ _ _ r3 (Step.noBackup _ _ (Or.inl (by
    simp [(temp_ne_dest d 1).symm])))
  have r5 := Runs.step _ _ _ _ r4 (Step.replaced _ _ _ (by rw [Function.update_self]))
  exact ⟨_, r5⟩

/-- **C25, limitation.** The end of the stream is taken at its word: if the connection is closed
early, after `a` of a body `a ++ b` whose full length was announced, the download returns normally with
the truncated `a` at the destination. -/
theorem C25_truncated_stream (d : Path) (a b : List β) (ha : a ≠ []) (hb : b ≠ []) :
    ∃ (job : Job β) (fs : FileSystem β), job.dest = d ∧ job.contentLength = some (a ++ b).length ∧
      Runs job (fun _ => none) fs .done ∧ fs d = some a ∧ a ≠ a ++ b := by
  obtain ⟨fs, h⟩ := runs_to_end d a ha false (some (a ++ b).length)
  refine ⟨_, fs, rfl, rfl, h, ?_, ?_⟩
  · rw [(C25_returns _ _ _ h).1]
    simp [Job.received, ha]
  · intro e
    have := congrArg List.length e
    rw [List.length_append] at this
    exact hb (List.length_eq_zero_iff.1 (by omega))

/-- **C25, limitation.** A download that fails leaves its partial temporary file behind. -/
theorem C25_leftover (d : Path) (a b : List β) (ha : a ≠ []) (hb : b ≠ []) :
    ∃ (job : Job β) (fs : FileSystem β) (t : Path), job.dest = d ∧ job.received = a ++ b ∧
      Runs job (fun _ => none) fs .failed ∧ t ≠ d ∧ fs t = some a := by
  have r0 : Runs ⟨d, [a, b], false, none⟩ (fun _ => none) (fun _ => none) (.claim 1) := Runs.start
  have r1 := Runs.step _ _ _ _ r0 (Step.claimed _ 1 rfl)
  have r2 := Runs.step _ _ _ _ r1 (Step.read _ _ _ a [b] ha)
  rw [show [] ++ a = a ++ [] by simp] at r2
  have r3 := Runs.step _ _ _ _ r2 (Step.flush _ _ a [] [b] [] (by simp))
  have r4 := Runs.step _ _ _ _ r3 (Step.fail _ _)
  exact ⟨_, _, tempName d 1, rfl, by simp [Job.received, ha, hb], r4, temp_ne_dest _ _, by simp⟩

/-! ### C27 -/

/-- **C27.** A download with `backup=True`, stopped at any point: the content that was at the destination is at
the destination or under a name that was free before. -/
theorem C27_backup (job : Job β) (hb : job.backup = true) (fs0 fs : FileSystem β) (ph : Phase β)
    (h : Runs job fs0 fs ph) (c : List β) (hc : fs0 job.dest = some c) :
    fs job.dest = some c ∨ ∃ b, fs0 b = none ∧ fs b = some c := by
  have ai := alone_inv job fs0 fs ph h
  rw [← hc]
  cases ph with
  | claim i => left; rw [show fs = fs0 from ai]
  | write t pending todo => left; exact ai.2.2 _ ai.2.1.symm
  | check t => left; exact ai.2.2 _ ai.2.1.symm
  | pick t n => left; exact ai.2.2.2.2 _ ai.2.1.symm
  | rename t b => left; exact ai.2.2.2.2.2.2.2 _ ai.2.1.symm
  | replace t =>
    obtain ⟨h1, h2, h3⟩ := ai
    rcases h3 with ⟨h3, -⟩ | ⟨b, k1, k2, k3, k4, k5, k6, k7⟩
    · left; exact h3 _ h2.symm
    · right; exact ⟨b, k2, k6⟩
  | done =>
    rcases ai.2 with ⟨-, h2⟩ | ⟨b, k1, k2, k3, k4, k5⟩
    · rw [hb, hc] at h2; simp at h2
    · right; exact ⟨b, k2, k4⟩
  | failed =>
    rcases ai with e | ⟨t, h1, h2, h3⟩ | ⟨-, h2⟩ | ⟨t, b, h1, k1, k2, k3, k4, h2, k5, k6, k7⟩
    · left; rw [e]
    · left; exact h3 _ h2.symm
    · rcases h2 with ⟨-, h2⟩ | ⟨b, k1, k2, k3, k4, k5⟩
      · rw [hb, hc] at h2; simp at h2
      · right; exact ⟨b, k2, k4⟩
    · right; exact ⟨b, k2, k6⟩

/-- **C27.** After any sequence of downloads with `backup=True`, to any destinations, each completed,
failed or killed at any point, every content that was in the directory is still there under some name. -/
theorem C27_nothing_lost (jobs : List (Job β)) (hb : ∀ job ∈ jobs, job.backup = true)
    (fs0 fs : FileSystem β) (h : Sequence jobs fs0 fs) (x : Path) (c : List β) (hc : fs0 x = some c) :
    ∃ y, fs y = some c := by
  induction h generalizing x with
  | nil fs => exact ⟨x, hc⟩
  | cons job jobs fs fs' fs'' ph hr hs ih =>
    have key : ∃ y, fs' y = some c := by
      by_cases hx : x = job.dest
      · subst hx
        rcases C27_backup job (hb job (by simp)) fs fs' ph hr c hc with h | ⟨b, -, h⟩
        · exact ⟨_, h⟩
        · exact ⟨b, h⟩
      · exact ⟨x, C25_others_untouched job fs fs' ph hr x c hx hc⟩
    obtain ⟨y, hy⟩ := key
    exact ih (fun j hj => hb j (by simp [hj])) y hy

/-- **C27, limitation.** For a destination without a dot a backup cannot be made: the download never succeeds
(the original stays in place). -/
theorem C27_no_dot (job : Job β) (hb : job.backup = true) (hdot : '.' ∉ job.dest) (c : List β)
    (fs0 fs : FileSystem β) (hc : fs0 job.dest = some c) (ph : Phase β) (h : Runs job fs0 fs ph) :
    ph ≠ .done ∧ fs job.dest = some c := by
  have hnone : ∀ n, backupName job.dest n = none := by
    intro n
    unfold backupName
    cases e : rsplitDot job.dest with
    | none => rfl
    | some p =>
      obtain ⟨a, b⟩ := p
      obtain ⟨e', -⟩ := rsplitDot_some e
      rw [e'] at hdot; simp at hdot
  suffices (∀ t b, ph ≠ .rename t b) ∧ (∀ t, ph ≠ .replace t) ∧ ph ≠ .done ∧ fs job.dest = some c from
    this.2.2
  induction h with
  | start => simpa using hc
  | step fs ph fs' ph' hr hs ih =>
    obtain ⟨i1, i2, i3, i4⟩ := ih
    have ai := alone_inv job fs0 fs ph hr
    cases hs with
    | taken i c hc => simpa using i4
    | claimed i hn => simpa [Function.update_apply, (temp_ne_dest job.dest i).symm] using i4
    | read temp pending c todo hne => simpa using i4
    | flush temp a b todo content hcc =>
      simpa [Function.update_apply, ai.2.1.symm] using i4
    | close temp pending todo content hend hcc =>
      simpa [Function.update_apply, ai.2.1.symm] using i4
    | backup temp c hc hb => simpa using i4
    | noBackup temp h => rw [i4, hb] at h; simp at h
    | inUse temp n b c h hc => simpa using i4
    | free temp n b h hc => rw [hnone] at h; cases h
    | noDot temp n h => simpa using i4
    | renamed temp target c hc => exact absurd rfl (i1 _ _)
    | replaced temp c hc => exact absurd rfl (i2 _)
    | fail => simpa using i4

/-- **C27, limitation.** With two processes at once, both asked for a backup, the original can be lost: both pick
the same backup name, and the second rename overwrites the first. -/
theorem C27_concurrent_loss :
    ∃ (jobs : Bool → Job ℕ) (d : Path) (fs0 fs : FileSystem ℕ) (ph : Bool → Phase ℕ),
      (∀ p, (jobs p).dest = d ∧ (jobs p).backup = true) ∧ RunsAll jobs fs0 fs ph ∧
        fs0 d = some [7] ∧ ∀ x, fs x ≠ some [7] := by
  have hbak : backupName "a.b".toList 1 = some "a.old1.b".toList := by decide
  let jobs : Bool → Job ℕ := fun _ => ⟨"a.b".toList, [], true, none⟩
  let fs0 : FileSystem ℕ := Function.update (fun _ => none) "a.b".toList (some [7])
  have n1 : tempName "a.b".toList 1 = "a.b.download".toList := by decide
  have n2 : tempName "a.b".toList 2 = "a.b.download2".toList := by decide
  have r0 : RunsAll jobs fs0 fs0 (fun _ => .claim 1) := RunsAll.start
  have r1 := RunsAll.step true _ _ _ _ r0 (Step.claimed _ 1 (by decide))
  have r2 := RunsAll.step false _ _ _ _ r1 (Step.taken _ 1 [] (by decide))
  have r3 := RunsAll.step false _ _ _ _ r2 (Step.claimed _ 2 (by decide))
  have r4 := RunsAll.step true _ _ _ _ r3 (Step.close _ _ _ _ [] (Or.inl rfl) (by decide))
  have r5 := RunsAll.step false _ _ _ _ r4 (Step.close _ _ _ _ [] (Or.inl rfl) (by decide))
  have r6 := RunsAll.step true _ _ _ _ r5 (Step.backup _ _ [7] (by decide) rfl)
  have r7 := RunsAll.step false _ _ _ _ r6 (Step.backup _ _ [7] (by decide) rfl)
  have r8 := RunsAll.step true _ _ _ _ r7 (Step.free _ _ 1 "a.old1.b".toList hbak (by decide))
  have r9 := RunsAll.step false _ _ _ _ r8 (Step.free _ _ 1 "a.old1.b".toList hbak (by decide))
  have r10 := RunsAll.step true _ _ _ _ r9 (Step.renamed _ _ _ [7] (by decide))
  have r11 := RunsAll.step true _ _ _ _ r10 (Step.replaced _ _ [] (by decide))
  have r12 := RunsAll.step false _ _ _ _ r11 (Step.renamed _ _ _ [] (by decide))
  refine ⟨jobs, "a.b".toList, fs0, _, _, fun p => ⟨rfl, rfl⟩, r12, by decide, ?_⟩
  intro x
  simp only [fs0, jobs, n1, n2, Function.update_apply]
  split_ifs <;> simp_all

/-! ### Non-vacuity -/

/-- Three processes, one of which has completed while two are still writing. -/
example : ∃ fs ph, RunsAll (ι := Fin 3) (fun p => ⟨"de421.bsp".toList, [[p.val + 1]], false, none⟩)
    (fun _ => none) fs ph ∧ ph 0 = .done ∧ fs "de421.bsp".toList = some [1] ∧
      (ph 1).temp = some "de421.bsp.download2".toList := by
  let jobs : Fin 3 → Job ℕ := fun p => ⟨"de421.bsp".toList, [[p.val + 1]], false, none⟩
  have r0 : RunsAll jobs (fun _ => none) (fun _ => none) (fun _ => .claim 1) := RunsAll.start
  have r1 := RunsAll.step 0 _ _ _ _ r0 (Step.claimed _ 1 (by decide))
  have r2 := RunsAll.step 1 _ _ _ _ r1 (Step.taken _ 1 [] (by decide))
  have r3 := RunsAll.step 1 _ _ _ _ r2 (Step.claimed _ 2 (by decide))
  have r4 := RunsAll.step 0 _ _ _ _ r3 (Step.read _ _ _ [1] [] (by decide))
  have r5 := RunsAll.step 0 _ _ _ _ r4 (Step.close _ _ _ _ [] (Or.inl rfl) (by decide))
  have r6 := RunsAll.step 0 _ _ _ _ r5 (Step.noBackup _ _ (Or.inr rfl))
  have r7 := RunsAll.step 0 _ _ _ _ r6 (Step.replaced _ _ [1] (by decide))
  exact ⟨_, _, r7, rfl, by decide, by decide⟩

/-- A download that keeps a backup, killed between the two renamings: the destination is missing, and its content is under the backup's name. -/
example : ∃ (job : Job ℕ) (fs0 fs : FileSystem ℕ) (t : Path), job.backup = true ∧ fs0 job.dest = some [7] ∧ Runs job fs0 fs (.replace t) ∧
    fs job.dest = none ∧ fs "a.old1.b".toList = some [7] ∧ Sequence [job, job] fs0 fs := by
  let job : Job ℕ := ⟨"a.b".toList, [[8]], true, none⟩
  let fs0 : FileSystem ℕ := Function.update (fun _ => none) "a.b".toList (some [7])
  have r0 : Runs job fs0 fs0 (.claim 1) := Runs.start
  have r1 := Runs.step _ _ _ _ r0 (Step.claimed _ 1 (by decide))
  have r2 := Runs.step _ _ _ _ r1 (Step.read _ _ _ [8] [] (by decide))
  have r3 := Runs.step _ _ _ _ r2 (Step.close _ _ _ _ [] (Or.inl rfl) (by decide))
  have r4 := Runs.step _ _ _ _ r3 (Step.backup _ _ [7] (by decide) rfl)
  have r5 := Runs.step _ _ _ _ r4 (Step.free _ _ _ "a.old1.b".toList (by decide) (by decide))
  have r6 := Runs.step _ _ _ _ r5 (Step.renamed _ _ _ [7] (by decide))
  exact ⟨job, fs0, _, _, rfl, by decide, r6, by decide, by decide, .cons _ _ _ _ _ _ r6 (.cons _ _ _ _ _ _ .start (.nil _))⟩

/-- A download with a backup to a name without a dot, when there is such a file. -/
example : ∃ (job : Job ℕ) (fs0 fs : FileSystem ℕ), job.backup = true ∧ '.' ∉ job.dest ∧ fs0 job.dest = some [7] ∧ Runs job fs0 fs .failed ∧
    fs job.dest = some [7] := by
  let job : Job ℕ := ⟨"ab".toList, [[8]], true, none⟩
  let fs0 : FileSystem ℕ := Function.update (fun _ => none) "ab".toList (some [7])
  have r0 : Runs job fs0 fs0 (.claim 1) := Runs.start
  have r1 := Runs.step _ _ _ _ r0 (Step.claimed _ 1 (by decide))
  have r2 := Runs.step _ _ _ _ r1 (Step.read _ _ _ [8] [] (by decide))
  have r3 := Runs.step _ _ _ _ r2 (Step.close _ _ _ _ [] (Or.inl rfl) (by decide))
  have r4 := Runs.step _ _ _ _ r3 (Step.backup _ _ [7] (by decide) rfl)
  have r5 := Runs.step _ _ _ _ r4 (Step.noDot _ _ _ (by decide))
  exact ⟨job, fs0, _, rfl, by decide, by decide, r5, by decide⟩

end Skyfield
