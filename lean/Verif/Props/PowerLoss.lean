import Verif.Spec.PowerLoss
import Verif.Props.Download

/-
C119: downloads and power failures.
-/
namespace Skyfield
open _root_.Spec

variable {β : Type*}

/-- The calls are those of the code's steps: every step makes some, and what makes them is a step. -/
theorem step_iff_calls (job : Job β) (fs fs' : FileSystem β) (ph ph' : Phase β) :
    Step job fs ph fs' ph' ↔ ∃ calls, StepCalls job fs ph calls fs' ph' := by
  constructor
  · intro h
    cases h with
    | taken i c h => exact ⟨_, .taken _ _ _ h⟩
    | claimed i h => exact ⟨_, .claimed _ _ h⟩
    | read temp pending c todo h => exact ⟨_, .read _ _ _ _ _ h⟩
    | flush temp a b todo content h => exact ⟨_, .flush _ _ _ _ _ _ h⟩
    | close temp pending todo content h h' => exact ⟨_, .close _ _ _ _ _ h h'⟩
    | backup temp c h h' => exact ⟨_, .backup _ _ _ h h'⟩
    | noBackup temp h => exact ⟨_, .noBackup _ _ h⟩
    | inUse temp n b c h h' => exact ⟨_, .inUse _ _ _ _ _ h h'⟩
    | free temp n b h h' => exact ⟨_, .free _ _ _ _ h h'⟩
    | noDot temp n h => exact ⟨_, .noDot _ _ _ h⟩
    | renamed temp target c h => exact ⟨_, .renamed _ _ _ _ h⟩
    | replaced temp c h => exact ⟨_, .replaced _ _ _ h⟩
    | fail => exact ⟨_, .fail _ _⟩
  · rintro ⟨calls, h⟩
    cases h with
    | taken i c h => exact .taken _ _ _ h
    | claimed i h => exact .claimed _ _ h
    | read temp pending c todo h => exact .read _ _ _ _ _ h
    | flush temp a b todo content h => exact .flush _ _ _ _ _ _ h
    | close temp pending todo content h h' => exact .close _ _ _ _ _ h h'
    | backup temp c h h' => exact .backup _ _ _ h h'
    | noBackup temp h => exact .noBackup _ _ h
    | inUse temp n b c h h' => exact .inUse _ _ _ _ _ h h'
    | free temp n b h h' => exact .free _ _ _ _ h h'
    | noDot temp n h => exact .noDot _ _ _ h
    | renamed temp target c h => exact .renamed _ _ _ _ h
    | replaced temp c h => exact .replaced _ _ _ h
    | fail => exact .fail _ _

/-- What a step does to the file system is what its calls do. -/
theorem stepCalls_run {job : Job β} {fs fs' : FileSystem β} {ph ph' : Phase β} {calls : List (Call β)} (h : StepCalls job fs ph calls fs' ph') :
    fs' = runCalls calls fs := by
  cases h <;> simp_all [runCalls, Call.run]

theorem runsCalling_runs {job : Job β} {fs0 fs : FileSystem β} {ph : Phase β} {calls : List (Call β)} (h : RunsCalling job fs0 calls fs ph) :
    Runs job fs0 fs ph ∧ fs = runCalls calls fs0 := by
  induction h with
  | start => exact ⟨.start, rfl⟩
  | step calls more fs ph fs' ph' _ hs ih =>
    refine ⟨.step _ _ _ _ ih.1 ((step_iff_calls ..).2 ⟨_, hs⟩), ?_⟩
    rw [stepCalls_run hs, ih.2]
    simp [runCalls]

/-- Every execution makes some calls. -/
theorem runs_calling {job : Job β} {fs0 fs : FileSystem β} {ph : Phase β} (h : Runs job fs0 fs ph) : ∃ calls, RunsCalling job fs0 calls fs ph := by
  induction h with
  | start => exact ⟨_, .start⟩
  | step fs ph fs' ph' _ hs ih =>
    obtain ⟨calls, ih⟩ := ih
    obtain ⟨more, hm⟩ := (step_iff_calls ..).1 hs
    exact ⟨_, .step _ _ _ _ _ _ ih hm⟩

/-! ### What the calls of a download are -/

/-- A temporary file, and the data written to it. -/
private def Wrote (job : Job β) (fs0 : FileSystem β) (t : Path) (chunks : List (List β)) (rest : List (Call β)) (calls : List (Call β)) : Prop :=
  t ≠ job.dest ∧ fs0 t = none ∧ calls = .create t :: chunks.map (.append t) ++ rest

private def Renames (job : Job β) (fs0 : FileSystem β) (t : Path) (rest : List (Call β)) : Prop :=
  rest = [] ∨ ((fs0 job.dest = none ∨ job.backup = false) ∧ rest = [.rename t job.dest]) ∨
    (job.backup = true ∧ ∃ b c, b ≠ t ∧ b ≠ job.dest ∧ fs0 b = none ∧ fs0 job.dest = some c ∧
      (rest = [.rename job.dest b] ∨ rest = [.rename job.dest b, .rename t job.dest]))

/-- The calls of a download, at any point of it. -/
private def Made (job : Job β) (fs0 : FileSystem β) (calls : List (Call β)) : Prop :=
  calls = [] ∨ ∃ t chunks rest, Wrote job fs0 t chunks rest calls ∧ chunks.flatten <+: job.received ∧ (chunks.flatten = job.received ∨ rest = []) ∧
    Renames job fs0 t rest

private def MadeAt (job : Job β) (fs0 : FileSystem β) (calls : List (Call β)) : Phase β → Prop
  | .claim _ => calls = []
  | .write t pending todo => ∃ chunks, Wrote job fs0 t chunks [] calls ∧ chunks.flatten ++ pending ++ (todo.takeWhile (· ≠ [])).flatten = job.received
  | .check t => ∃ chunks, Wrote job fs0 t chunks [] calls ∧ chunks.flatten = job.received
  | .pick t _ => (∃ chunks, Wrote job fs0 t chunks [] calls ∧ chunks.flatten = job.received) ∧ job.backup = true ∧ ∃ c, fs0 job.dest = some c
  | .rename t b => (∃ chunks, Wrote job fs0 t chunks [] calls ∧ chunks.flatten = job.received) ∧ job.backup = true ∧ b ≠ t ∧ b ≠ job.dest ∧ fs0 b = none ∧
      ∃ c, fs0 job.dest = some c
  | .replace t => ∃ chunks, chunks.flatten = job.received ∧ (((fs0 job.dest = none ∨ job.backup = false) ∧ Wrote job fs0 t chunks [] calls) ∨ (job.backup = true ∧ ∃ b c, b ≠ t ∧ b ≠ job.dest ∧ fs0 b = none ∧
      fs0 job.dest = some c ∧ Wrote job fs0 t chunks [.rename job.dest b] calls))
  | .done => Made job fs0 calls
  | .failed => Made job fs0 calls

private theorem run_appends (t : Path) (fs : FileSystem β) : ∀ (chunks : List (List β)) (content : List β), fs t = some content →
    runCalls (chunks.map (.append t)) fs = Function.update fs t (some (content ++ chunks.flatten))
  | [], content, h => by simp [runCalls, ← h]
  | a :: chunks, content, h => by
    have e : runCalls ((a :: chunks).map (.append t)) fs = runCalls (chunks.map (.append t)) (Function.update fs t (some (content ++ a))) := by
      simp [runCalls, Call.run, h]
    rw [e, run_appends t _ chunks (content ++ a) (by simp)]
    simp

private theorem run_wrote (fs0 : FileSystem β) (t : Path) (chunks : List (List β)) (rest : List (Call β)) :
    runCalls (.create t :: chunks.map (.append t) ++ rest) fs0 = runCalls rest (Function.update fs0 t (some chunks.flatten)) := by
  have e : runCalls (.create t :: chunks.map (.append t) ++ rest) fs0 =
      runCalls rest (runCalls (chunks.map (.append t)) (Function.update fs0 t (some []))) := by
    simp [runCalls, Call.run]
  rw [e, run_appends t _ chunks [] (by simp)]
  simp

private theorem made_of_at {job : Job β} {fs0 : FileSystem β} {calls : List (Call β)} : ∀ {ph : Phase β}, MadeAt job fs0 calls ph → Made job fs0 calls
  | .claim _, h => Or.inl h
  | .write t _ _, ⟨chunks, h, e⟩ => Or.inr ⟨t, chunks, [], h, ⟨_, by rw [← e, List.append_assoc]⟩, Or.inr rfl, Or.inl rfl⟩
  | .check t, ⟨chunks, h, e⟩ => Or.inr ⟨t, chunks, [], h, e ▸ List.prefix_rfl, Or.inr rfl, Or.inl rfl⟩
  | .pick t _, ⟨⟨chunks, h, e⟩, _⟩ => Or.inr ⟨t, chunks, [], h, e ▸ List.prefix_rfl, Or.inr rfl, Or.inl rfl⟩
  | .rename t _, ⟨⟨chunks, h, e⟩, _⟩ => Or.inr ⟨t, chunks, [], h, e ▸ List.prefix_rfl, Or.inr rfl, Or.inl rfl⟩
  | .replace t, ⟨chunks, e, Or.inl ⟨_, h⟩⟩ => Or.inr ⟨t, chunks, [], h, e ▸ List.prefix_rfl, Or.inr rfl, Or.inl rfl⟩
  | .replace t, ⟨chunks, e, Or.inr ⟨hb, b, c, h1, h2, h3, h4, h⟩⟩ =>
    Or.inr ⟨t, chunks, _, h, e ▸ List.prefix_rfl, Or.inl e, Or.inr (Or.inr ⟨hb, b, c, h1, h2, h3, h4, Or.inl rfl⟩)⟩
  | .done, h => h
  | .failed, h => h

private theorem made_at {job : Job β} {fs0 fs : FileSystem β} {ph : Phase β} {calls : List (Call β)} (h : RunsCalling job fs0 calls fs ph) :
    MadeAt job fs0 calls ph := by
  induction h with
  | start => exact rfl
  | step calls more fs ph fs' ph' hr hs ih =>
    have hfs := (runsCalling_runs hr).2
    have at_t : ∀ {t chunks}, Wrote job fs0 t chunks [] calls → fs = Function.update fs0 t (some chunks.flatten) := by
      rintro t chunks ⟨-, -, rfl⟩
      rw [hfs, run_wrote]
      rfl
    cases hs with
    | taken i c h => rw [List.append_nil]; exact ih
    | claimed i h =>
      have hc : calls = [] := ih
      subst hc
      have h0 : fs = fs0 := hfs
      refine ⟨[], ⟨temp_ne_dest _ _, h0 ▸ h, by simp⟩, by simp [Job.received]⟩
    | read temp pending c todo h =>
      obtain ⟨chunks, h1, h2⟩ := ih
      rw [List.append_nil]
      refine ⟨chunks, h1, ?_⟩
      rw [← h2]
      simp [h]
    | flush temp a b todo content h =>
      obtain ⟨chunks, ⟨k1, k2, rfl⟩, h2⟩ := ih
      refine ⟨chunks ++ [a], ⟨k1, k2, by simp⟩, ?_⟩
      rw [← h2]
      simp
    | close temp pending todo content h h' =>
      obtain ⟨chunks, ⟨k1, k2, rfl⟩, h2⟩ := ih
      refine ⟨chunks ++ [pending], ⟨k1, k2, by simp⟩, ?_⟩
      rw [← h2]
      cases todo with
      | nil => simp
      | cons x todo =>
        have : x = [] := by simpa using h
        simp [this]
    | backup temp c h h' =>
      obtain ⟨chunks, h1, h2⟩ := ih
      rw [List.append_nil]
      refine ⟨⟨chunks, h1, h2⟩, h', c, ?_⟩
      rw [at_t h1] at h
      rwa [Function.update_of_ne h1.1.symm] at h
    | noBackup temp h =>
      obtain ⟨chunks, h1, h2⟩ := ih
      rw [List.append_nil]
      rw [at_t h1, Function.update_of_ne h1.1.symm] at h
      exact ⟨chunks, h2, Or.inl ⟨h, h1⟩⟩
    | inUse temp n b c h h' => rw [List.append_nil]; exact ih
    | free temp n b h h' =>
      obtain ⟨⟨chunks, h1, h2⟩, hb, c, hc⟩ := ih
      rw [List.append_nil]
      have hbt : b ≠ temp := by
        rintro rfl
        rw [at_t h1] at h'
        simp at h'
      rw [at_t h1, Function.update_of_ne hbt] at h'
      refine ⟨⟨chunks, h1, h2⟩, hb, hbt, ?_, h', c, hc⟩
      rintro rfl
      rw [h'] at hc
      cases hc
    | noDot temp n h => rw [List.append_nil]; exact made_of_at ih
    | renamed temp target c h =>
      obtain ⟨⟨chunks, ⟨k1, k2, rfl⟩, h2⟩, hb, hbt, hbd, hn, c', hc⟩ := ih
      exact ⟨chunks, h2, Or.inr ⟨hb, target, c', hbt, hbd, hn, hc, k1, k2, by simp⟩⟩
    | replaced temp c h =>
      obtain ⟨chunks, h2, ⟨hn, k1, k2, rfl⟩ | ⟨hb, b, c', hbt, hbd, hn, hc, k1, k2, rfl⟩⟩ := ih
      · exact Or.inr ⟨temp, chunks, [.rename temp job.dest], ⟨k1, k2, by simp⟩, h2 ▸ List.prefix_rfl, Or.inl h2, Or.inr (Or.inl ⟨hn, rfl⟩)⟩
      · exact Or.inr ⟨temp, chunks, [.rename job.dest b, .rename temp job.dest], ⟨k1, k2, by simp⟩, h2 ▸ List.prefix_rfl, Or.inl h2,
          Or.inr (Or.inr ⟨hb, b, c', hbt, hbd, hn, hc, Or.inr rfl⟩)⟩
    | fail => rw [List.append_nil]; exact made_of_at ih

/-! ### What is left of them -/

/-- A disk that works in the order of the calls writes data before it renames. -/
theorem keptInOrder_dataFirst {calls kept : List (Call β)} (h : KeptInOrder calls kept) : KeptDataFirst calls kept := by
  have app : ∀ (before after kept' : List (Call β)), KeptDataFirst after kept' → KeptDataFirst (before ++ after) (before ++ kept') := by
    intro before after kept' h
    induction before with
    | nil => exact h
    | cons c before ih => exact .keep _ _ _ ih
  rcases h with ⟨lost, rfl⟩ | ⟨before, lost, p, a, b, rfl, rfl⟩
  · simpa using app kept lost [] (.rest _)
  · exact app _ _ _ (.lose _ _ _ _ _ (.rest _) (by simp) (by simp))

private theorem kept_appends {df : Prop} (t : Path) : ∀ (chunks : List (List β)) (tail kept : List (Call β)), Kept df (chunks.map (.append t) ++ tail) kept →
    ∃ (chunks' : List (List β)) (rest : List (Call β)), kept = chunks'.map (.append t) ++ rest ∧ chunks'.flatten <+: chunks.flatten ∧ Kept df tail rest ∧
      (chunks'.flatten = chunks.flatten ∨ (df → ∀ q, .rename t q ∉ rest))
  | [], tail, kept, h => ⟨[], kept, by simp, by simp, by simpa using h, Or.inl rfl⟩
  | x :: chunks, tail, kept, h => by
    rw [List.map_cons, List.cons_append] at h
    generalize e : (Call.append t x :: (chunks.map (.append t) ++ tail)) = all at h
    cases h with
    | rest => exact ⟨[], [], by simp, by simp, .rest _, Or.inr (by simp)⟩
    | keep c calls kept h =>
      obtain ⟨rfl, rfl⟩ := List.cons.inj e
      obtain ⟨chunks', rest, rfl, h2, h3, h4⟩ := kept_appends t chunks tail kept h
      refine ⟨x :: chunks', rest, by simp, ?_, h3, ?_⟩
      · simpa using h2
      · rcases h4 with h4 | h4
        · left; simp [h4]
        · exact Or.inr h4
    | lose p a b calls kept h hd hr =>
      obtain ⟨e1, rfl⟩ := List.cons.inj e
      obtain ⟨rfl, rfl⟩ := Call.append.inj e1
      obtain ⟨chunks', rest, rfl, h2, h3, h4⟩ := kept_appends t chunks tail kept h
      have h0 : chunks' = [] := by
        cases chunks' with
        | nil => rfl
        | cons y ys => exact absurd (by simp) (hd y)
      subst h0
      refine ⟨[a], rest, by simp, ⟨b ++ chunks.flatten, by simp⟩, h3, Or.inr ?_⟩
      intro hdf q hq
      exact hr hdf q (by simpa using hq)

private theorem kept_rename {df : Prop} {p q : Path} {calls kept : List (Call β)} (h : Kept df (.rename p q :: calls) kept) :
    kept = [] ∨ ∃ rest, kept = .rename p q :: rest ∧ Kept df calls rest := by
  cases h with
  | rest => exact Or.inl rfl
  | keep _ _ kept h => exact Or.inr ⟨kept, rfl, h⟩

private theorem kept_nil {df : Prop} {kept : List (Call β)} (h : Kept df [] kept) : kept = [] := by
  cases h; rfl

/-- The state of the disk after a power failure, in full: nothing was done; or there is a temporary file with some of the data, and perhaps the destination has been
renamed; or the download is complete. -/
private theorem after_loss {df : Prop} {job : Job β} {fs0 fs : FileSystem β} {ph : Phase β} {calls kept : List (Call β)} (h : RunsCalling job fs0 calls fs ph)
    (hk : Kept df calls kept) :
    runCalls kept fs0 = fs0 ∨ ∃ t data, t ≠ job.dest ∧ fs0 t = none ∧ data <+: job.received ∧
      (runCalls kept fs0 = Function.update fs0 t (some data) ∨
       ((df → data = job.received) ∧ (fs0 job.dest = none ∨ job.backup = false) ∧ runCalls kept fs0 = Function.update fs0 job.dest (some data)) ∨
       (job.backup = true ∧ ∃ b c, b ≠ t ∧ b ≠ job.dest ∧ fs0 b = none ∧ fs0 job.dest = some c ∧
        (runCalls kept fs0 = Function.update (Function.update (Function.update fs0 t (some data)) b (some c)) job.dest none ∨
         ((df → data = job.received) ∧ runCalls kept fs0 = Function.update (Function.update fs0 b (some c)) job.dest (some data))))) := by
  rcases made_of_at (made_at h) with rfl | ⟨t, chunks, rest, ⟨htd, ht, rfl⟩, hpre, hall, hren⟩
  · left; rw [kept_nil hk]; rfl
  generalize e : (Call.create t :: chunks.map (.append t) ++ rest) = all at hk
  cases hk with
  | rest => left; rfl
  | lose p a b calls kept h hd hr => cases e
  | keep c calls kept hk =>
    obtain ⟨rfl, rfl⟩ := List.cons.inj e
    obtain ⟨chunks', rest', rfl, h2, h3, h4⟩ := kept_appends t chunks rest kept hk
    have hrun := run_wrote fs0 t chunks' rest'
    rw [List.cons_append] at hrun
    have full : ∀ {q}, .rename t q ∈ rest' → rest ≠ [] → df → chunks'.flatten = job.received := by
      intro q hq hne hdf
      rcases h4 with h4 | h4
      · rw [h4]; exact hall.resolve_right hne
      · exact absurd hq (h4 hdf q)
    right
    refine ⟨t, chunks'.flatten, htd, ht, h2.trans hpre, ?_⟩
    have clear : ∀ v w, Function.update (Function.update (Function.update fs0 t v) job.dest w) t none = Function.update fs0 job.dest w := by
      intro v w
      funext x
      by_cases hx : x = t
      · subst hx; simp [htd, ht]
      · by_cases hy : x = job.dest
        · subst hy; simp [hx]
        · simp [hx, hy]
    rcases hren with rfl | ⟨hn, rfl⟩ | ⟨hb, b, c, hbt, hbd, hb0, hc, rfl | rfl⟩
    · left; rw [hrun, kept_nil h3]; rfl
    · rcases kept_rename h3 with rfl | ⟨r, rfl, h5⟩
      · left; rw [hrun]; rfl
      · obtain rfl := kept_nil h5
        have hf := full (q := job.dest) (by simp) (by simp)
        right; left
        refine ⟨hf, hn, ?_⟩
        rw [hrun, ← clear (some chunks'.flatten)]
        simp [runCalls, Call.run]
    · rcases kept_rename h3 with rfl | ⟨r, rfl, h5⟩
      · left; rw [hrun]; rfl
      · obtain rfl := kept_nil h5
        right; right
        refine ⟨hb, b, c, hbt, hbd, hb0, hc, Or.inl ?_⟩
        rw [hrun]
        simp [runCalls, Call.run, htd.symm, hc]
    · rcases kept_rename h3 with rfl | ⟨r, rfl, h5⟩
      · left; rw [hrun]; rfl
      rcases kept_rename h5 with rfl | ⟨r, rfl, h6⟩
      · right; right
        refine ⟨hb, b, c, hbt, hbd, hb0, hc, Or.inl ?_⟩
        rw [hrun]
        simp [runCalls, Call.run, htd.symm, hc]
      · obtain rfl := kept_nil h6
        have hf := full (q := job.dest) (by simp) (by simp)
        right; right
        refine ⟨hb, b, c, hbt, hbd, hb0, hc, Or.inr ⟨hf, ?_⟩⟩
        rw [hrun]
        generalize chunks'.flatten = data
        have e1 : Call.run (Function.update fs0 t (some data)) (.rename job.dest b) =
            Function.update (Function.update (Function.update fs0 t (some data)) b (some c)) job.dest none := by
          simp [Call.run, htd.symm, hc]
        have e2 : runCalls [.rename job.dest b, .rename t job.dest] (Function.update fs0 t (some data)) =
            Call.run (Call.run (Function.update fs0 t (some data)) (.rename job.dest b)) (.rename t job.dest) := rfl
        rw [e2, e1]
        simp only [Call.run, Function.update_of_ne htd, Function.update_of_ne hbt.symm, Function.update_self]
        funext x
        by_cases hx : x = t
        · subst hx; simp [htd, ht, hbt.symm]
        · by_cases hy : x = job.dest
          · subst hy; simp [hx]
          · by_cases hz : x = b
            · subst hz; simp [hx, hy]
            · simp [hx, hy, hz]

/-! ### The theorems -/

/-- **C119.**  On a disk that does not rename a file before it has written its data — in particular on one that works in order, `keptInOrder_dataFirst` — a power failure at
any moment of a download leaves at the destination what was there before, or all that was received; or, only if a backup was asked for, nothing, and then what was there is at
a name that was free. -/
theorem C119_data_first (job : Job β) (fs0 fs : FileSystem β) (ph : Phase β) (calls kept : List (Call β)) (h : RunsCalling job fs0 calls fs ph)
    (hk : KeptDataFirst calls kept) :
    runCalls kept fs0 job.dest = fs0 job.dest ∨ runCalls kept fs0 job.dest = some job.received ∨
      (job.backup = true ∧ runCalls kept fs0 job.dest = none ∧ ∃ b, b ≠ job.dest ∧ fs0 b = none ∧ runCalls kept fs0 b = fs0 job.dest) := by
  rcases after_loss h hk with e | ⟨t, data, htd, ht, hpre, e | ⟨hf, -, e⟩ | ⟨hb, b, c, hbt, hbd, hb0, hc, e | ⟨hf, e⟩⟩⟩
  · left; rw [e]
  · left; rw [e, Function.update_of_ne htd.symm]
  · right; left; rw [e]; simp [hf trivial]
  · right; right
    refine ⟨hb, by rw [e]; simp, b, hbd, hb0, ?_⟩
    rw [e, hc]
    simp [hbd]
  · right; left; rw [e]; simp [hf trivial]

/-- **C119, in order.**  In particular on a disk that works in order. -/
theorem C119_in_order (job : Job β) (fs0 fs : FileSystem β) (ph : Phase β) (calls kept : List (Call β)) (h : RunsCalling job fs0 calls fs ph)
    (hk : KeptInOrder calls kept) :
    runCalls kept fs0 job.dest = fs0 job.dest ∨ runCalls kept fs0 job.dest = some job.received ∨
      (job.backup = true ∧ runCalls kept fs0 job.dest = none ∧ ∃ b, b ≠ job.dest ∧ fs0 b = none ∧ runCalls kept fs0 b = fs0 job.dest) :=
  C119_data_first job fs0 fs ph calls kept h (keptInOrder_dataFirst hk)

/-- **C119, other files.**  On every disk a power failure leaves every other file as it was. -/
theorem C119_others (dataFirst : Prop) (job : Job β) (fs0 fs : FileSystem β) (ph : Phase β) (calls kept : List (Call β)) (h : RunsCalling job fs0 calls fs ph)
    (hk : Kept dataFirst calls kept) (x : Path) (c : List β) (hx : x ≠ job.dest) (hc : fs0 x = some c) : runCalls kept fs0 x = some c := by
  have ne : ∀ {y}, fs0 y = none → x ≠ y := by
    rintro y hy rfl
    rw [hc] at hy
    cases hy
  rcases after_loss h hk with e | ⟨t, data, htd, ht, hpre, e | ⟨-, -, e⟩ | ⟨hb, b, c, hbt, hbd, hb0, hc', e | ⟨-, e⟩⟩⟩
  · rw [e, hc]
  · rw [e, Function.update_of_ne (ne ht), hc]
  · rw [e, Function.update_of_ne hx, hc]
  · rw [e, Function.update_of_ne hx, Function.update_of_ne (ne hb0), Function.update_of_ne (ne ht), hc]
  · rw [e, Function.update_of_ne hx, Function.update_of_ne (ne hb0), hc]

/-- **C119, backups.**  With `backup=True`, on every disk, what was at the destination is after a power failure still there, or at a name that was free. -/
theorem C119_backup (dataFirst : Prop) (job : Job β) (hb : job.backup = true) (fs0 fs : FileSystem β) (ph : Phase β) (calls kept : List (Call β))
    (h : RunsCalling job fs0 calls fs ph) (hk : Kept dataFirst calls kept) (c : List β) (hc : fs0 job.dest = some c) :
    runCalls kept fs0 job.dest = some c ∨ ∃ b, fs0 b = none ∧ runCalls kept fs0 b = some c := by
  rcases after_loss h hk with e | ⟨t, data, htd, ht, hpre, e | ⟨-, hn, e⟩ | ⟨hb, b, c', hbt, hbd, hb0, hc', e | ⟨-, e⟩⟩⟩
  · left; rw [e, hc]
  · left; rw [e, Function.update_of_ne htd.symm, hc]
  · simp [hc, hb] at hn
  · obtain rfl : c = c' := Option.some.inj (hc.symm.trans hc')
    exact Or.inr ⟨b, hb0, by rw [e]; simp [hbd]⟩
  · obtain rfl : c = c' := Option.some.inj (hc.symm.trans hc')
    exact Or.inr ⟨b, hb0, by rw [e]; simp [hbd]⟩

/-- **C119, finding.**  On a disk that may rename a file before it has written its data, `download` can return and a power failure then leave an empty file at the
destination: what was there is gone, and so is what was received, for it never asks for the data to be written (`fsync`). -/
theorem C119_renamed_before_data (d : Path) (c a : List β) (ha : a ≠ []) :
    ∃ (job : Job β) (fs0 fs : FileSystem β) (calls kept : List (Call β)), job.dest = d ∧ job.received = a ∧ fs0 d = some c ∧
      RunsCalling job fs0 calls fs .done ∧ fs d = some a ∧ KeptSeparately calls kept ∧ runCalls kept fs0 d = some [] ∧
      ∀ x e, runCalls kept fs0 x = some e → x = d ∧ e = [] := by
  set fs0 : FileSystem β := Function.update (fun _ => none) d (some c) with hfs0
  have ht : tempName d 1 ≠ d := temp_ne_dest _ _
  have r0 : RunsCalling ⟨d, [a], false, none⟩ fs0 [] fs0 (.claim 1) := .start
  have r1 := RunsCalling.step _ _ _ _ _ _ r0 (.claimed _ 1 (by simp [hfs0, ht]))
  have r2 := RunsCalling.step _ _ _ _ _ _ r1 (.read _ _ _ a [] ha)
  have r3 := RunsCalling.step _ _ _ _ _ _ r2 (.close _ _ _ _ [] (by simp) (by simp))
  have r4 := RunsCalling.step _ _ _ _ _ _ r3 (.noBackup _ _ (by simp))
  have r5 := RunsCalling.step _ _ _ _ _ _ r4 (.replaced _ _ a (by simp))
  refine ⟨_, fs0, _, _, [.create (tempName d 1), .append (tempName d 1) [], .rename (tempName d 1) d], rfl, by simp [Job.received, ha], by simp [hfs0], r5, ?_, ?_, ?_, ?_⟩
  · simp [ht.symm]
  · simp only [List.nil_append, List.append_nil, List.cons_append]
    exact .keep _ _ _ (.lose _ [] a _ _ (.keep _ _ _ (.rest _)) (by simp) (fun h => h.elim))
  · simp [runCalls, Call.run, ht.symm]
  · intro x e hx
    have hrun : runCalls [.create (tempName d 1), .append (tempName d 1) [], .rename (tempName d 1) d] fs0 =
        Function.update (Function.update (Function.update fs0 (tempName d 1) (some [])) d (some [])) (tempName d 1) none := by
      simp [runCalls, Call.run]
    rw [hrun] at hx
    by_cases h1 : x = tempName d 1
    · subst h1; simp at hx
    · by_cases h2 : x = d
      · subst h2; simp [h1] at hx; exact ⟨rfl, hx⟩
      · simp [h1, h2, hfs0] at hx

/-- Even then the destination has what was there, or the first of what was received. -/
theorem C119_separately (job : Job β) (fs0 fs : FileSystem β) (ph : Phase β) (calls kept : List (Call β)) (h : RunsCalling job fs0 calls fs ph)
    (hk : KeptSeparately calls kept) :
    runCalls kept fs0 job.dest = fs0 job.dest ∨ (∃ data, data <+: job.received ∧ runCalls kept fs0 job.dest = some data) ∨
      (job.backup = true ∧ runCalls kept fs0 job.dest = none ∧ ∃ b, b ≠ job.dest ∧ fs0 b = none ∧ runCalls kept fs0 b = fs0 job.dest) := by
  rcases after_loss h hk with e | ⟨t, data, htd, ht, hpre, e | ⟨hf, -, e⟩ | ⟨hb, b, c, hbt, hbd, hb0, hc, e | ⟨hf, e⟩⟩⟩
  · left; rw [e]
  · left; rw [e, Function.update_of_ne htd.symm]
  · exact Or.inr (Or.inl ⟨data, hpre, by rw [e]; simp⟩)
  · right; right
    refine ⟨hb, by rw [e]; simp, b, hbd, hb0, ?_⟩
    rw [e, hc]
    simp [hbd]
  · exact Or.inr (Or.inl ⟨data, hpre, by rw [e]; simp⟩)

/-- A case that meets the hypotheses: a download with a backup that has returned, of which the disk has kept the renaming of the old file and, of the data, the first half. -/
example : ∃ (job : Job ℕ) (fs0 fs : FileSystem ℕ) (calls kept : List (Call ℕ)), job.backup = true ∧ job.received = [1, 2] ∧ fs0 job.dest = some [7] ∧
    RunsCalling job fs0 calls fs .done ∧ KeptDataFirst calls kept ∧ kept.length = 3 ∧ runCalls kept fs0 job.dest = none := by
  set d : Path := "a.b".toList with hd
  set fs0 : FileSystem ℕ := Function.update (fun _ => none) d (some [7]) with hfs0
  have ht : tempName d 1 ≠ d := temp_ne_dest _ _
  have hb : backupName d 1 = some "a.old1.b".toList := by decide
  have hbd : "a.old1.b".toList ≠ d := by decide
  have hbt : "a.old1.b".toList ≠ tempName d 1 := by decide
  have r0 : RunsCalling ⟨d, [[1, 2]], true, none⟩ fs0 [] fs0 (.claim 1) := .start
  have r1 := RunsCalling.step _ _ _ _ _ _ r0 (.claimed _ 1 (by simp [hfs0, ht]))
  have r2 := RunsCalling.step _ _ _ _ _ _ r1 (.read _ _ _ [1, 2] [] (by simp))
  have r3 := RunsCalling.step _ _ _ _ _ _ r2 (.close _ _ _ _ [] (by simp) (by simp))
  have r4 := RunsCalling.step _ _ _ _ _ _ r3 (.backup _ _ [7] (by simp [ht.symm, hfs0]) rfl)
  have r5 := RunsCalling.step _ _ _ _ _ _ r4 (.free _ _ 1 _ hb (by rw [Function.update_of_ne hbt, Function.update_of_ne hbt, hfs0, Function.update_of_ne hbd]))
  have r6 := RunsCalling.step _ _ _ _ _ _ r5 (.renamed _ _ _ [7] (by simp [ht.symm, hfs0]))
  have r7 := RunsCalling.step _ _ _ _ _ _ r6 (.replaced _ _ [1, 2] (by simp only [Function.update_of_ne ht, Function.update_of_ne hbt.symm, Function.update_self]; rfl))
  refine ⟨_, fs0, _, _, [.create (tempName d 1), .append (tempName d 1) [1], .rename d "a.old1.b".toList], rfl, by simp [Job.received], by simp [hfs0], r7, ?_, rfl, ?_⟩
  · simp only [List.nil_append, List.append_nil, List.cons_append]
    exact .keep _ _ _ (.lose _ [1] [2] _ _ (.keep _ _ _ (.rest _)) (by simp) (by simp [ht]))
  · simp [runCalls, Call.run, ht.symm, hfs0]

/-! ### Several processes -/

variable {ι : Type*} [DecidableEq ι]

theorem runsAllCalling_runs {jobs : ι → Job β} {fs0 fs : FileSystem β} {ph : ι → Phase β} {calls : List (Call β)} (h : RunsAllCalling jobs fs0 calls fs ph) :
    RunsAll jobs fs0 fs ph ∧ fs = runCalls calls fs0 := by
  induction h with
  | start => exact ⟨.start, rfl⟩
  | step p calls more fs ph fs' ph' _ hs ih =>
    refine ⟨.step _ _ _ _ _ ih.1 ((step_iff_calls ..).2 ⟨_, hs⟩), ?_⟩
    rw [stepCalls_run hs, ih.2]
    simp [runCalls]

/-- Every execution of several processes makes some calls. -/
theorem runsAll_calling {jobs : ι → Job β} {fs0 fs : FileSystem β} {ph : ι → Phase β} (h : RunsAll jobs fs0 fs ph) : ∃ calls, RunsAllCalling jobs fs0 calls fs ph := by
  induction h with
  | start => exact ⟨_, .start⟩
  | step p fs ph fs' ph' _ hs ih =>
    obtain ⟨calls, ih⟩ := ih
    obtain ⟨more, hm⟩ := (step_iff_calls ..).1 hs
    exact ⟨_, .step _ _ _ _ _ _ _ ih hm⟩

/-- A step makes at most one call, and if that writes data then the writer could have passed on less. -/
private theorem stepCalls_one {job : Job β} {fs fs' : FileSystem β} {ph ph' : Phase β} {calls : List (Call β)} (h : StepCalls job fs ph calls fs' ph') :
    calls = [] ∨ ∃ c, calls = [c] ∧ ∀ p a b, c = .append p (a ++ b) → ∃ ph'', Step job fs ph (Call.run fs (.append p a)) ph'' := by
  cases h with
  | claimed i h => exact Or.inr ⟨_, rfl, by intro p a b e; cases e⟩
  | flush temp x y todo content h =>
    refine Or.inr ⟨_, rfl, ?_⟩
    intro p a b e
    obtain ⟨rfl, rfl⟩ := Call.append.inj e
    refine ⟨.write temp (b ++ y) todo, ?_⟩
    have hs := Step.flush (job := job) fs temp a (b ++ y) todo content h
    simpa [Call.run, h] using hs
  | close temp pending todo content h h' =>
    refine Or.inr ⟨_, rfl, ?_⟩
    intro p a b e
    obtain ⟨rfl, rfl⟩ := Call.append.inj e
    refine ⟨.write temp b todo, ?_⟩
    have hs := Step.flush (job := job) fs temp a b todo content h'
    simpa [Call.run, h'] using hs
  | renamed temp target c h => exact Or.inr ⟨_, rfl, by intro p a b e; cases e⟩
  | replaced temp c h => exact Or.inr ⟨_, rfl, by intro p a b e; cases e⟩
  | _ => exact Or.inl rfl

/-- **C119, a power failure is a crash.**  On a disk that works in order, what a power failure leaves of any number of downloads at once is a state that they might have
reached: the failure is then no worse than if all processes had been killed at some earlier moment. -/
theorem C119_crash (jobs : ι → Job β) (fs0 fs : FileSystem β) (ph : ι → Phase β) (calls kept : List (Call β)) (h : RunsAllCalling jobs fs0 calls fs ph)
    (hk : KeptInOrder calls kept) : ∃ ph', RunsAll jobs fs0 (runCalls kept fs0) ph' := by
  induction h generalizing kept with
  | start =>
    rcases hk with ⟨lost, e⟩ | ⟨before, lost, p, a, b, e, -⟩
    · obtain ⟨rfl, -⟩ := List.append_eq_nil_iff.1 e.symm
      exact ⟨_, .start⟩
    · simp at e
  | step q calls more fs ph fs' ph' hr hs ih =>
    have hfs := (runsAllCalling_runs hr).2
    have whole : ∃ ph', RunsAll jobs fs0 (runCalls (calls ++ more) fs0) ph' := by
      have := runsAllCalling_runs (.step q _ _ _ _ _ _ hr hs)
      exact ⟨_, this.2 ▸ this.1⟩
    rcases stepCalls_one hs with rfl | ⟨c, rfl, hc⟩
    · rw [List.append_nil] at hk
      exact ih kept hk
    rcases hk with ⟨lost, e⟩ | ⟨before, lost, p, a, b, e, rfl⟩
    · rcases List.eq_nil_or_concat lost with rfl | ⟨lost, x, rfl⟩
      · rw [List.append_nil] at e
        rwa [← e]
      · rw [List.concat_eq_append, ← List.append_assoc] at e
        obtain ⟨e1, -⟩ := List.append_inj' e rfl
        exact ih kept (Or.inl ⟨lost, e1⟩)
    · rcases List.eq_nil_or_concat lost with rfl | ⟨lost, x, rfl⟩
      · obtain ⟨rfl, e2⟩ := List.append_inj' e rfl
        obtain ⟨ph'', hp⟩ := hc p a b (List.cons.inj e2).1
        refine ⟨Function.update ph q ph'', ?_⟩
        rw [show runCalls (calls ++ [.append p a]) fs0 = Call.run fs (.append p a) by rw [hfs]; simp [runCalls]]
        exact .step q _ _ _ _ (runsAllCalling_runs hr).1 hp
      · rw [List.concat_eq_append, ← List.cons_append, ← List.append_assoc] at e
        obtain ⟨e1, -⟩ := List.append_inj' e rfl
        exact ih _ (Or.inr ⟨before, lost, p, a, b, e1, rfl⟩)

/-- **C119, several processes.**  In particular the destination of any number of downloads at once holds after a power failure what was there before, or all that one of them
received; or nothing, only if one of them was to make a backup. -/
theorem C119_concurrent (jobs : ι → Job β) (d : Path) (hd : ∀ p, (jobs p).dest = d) (fs0 fs : FileSystem β) (ph : ι → Phase β) (calls kept : List (Call β))
    (h : RunsAllCalling jobs fs0 calls fs ph) (hk : KeptInOrder calls kept) :
    (runCalls kept fs0 d = fs0 d ∨ (∃ p, runCalls kept fs0 d = some (jobs p).received) ∨ (runCalls kept fs0 d = none ∧ ∃ p, (jobs p).backup = true)) ∧
    ∀ x c, x ≠ d → fs0 x = some c → runCalls kept fs0 x = some c := by
  obtain ⟨ph', hr⟩ := C119_crash jobs fs0 fs ph calls kept h hk
  exact ⟨C26_destination jobs d hd fs0 _ ph' hr, C26_others_untouched jobs d hd fs0 _ ph' hr⟩

/-- A case that meets the hypotheses: two downloads at once, of which one has written three bytes and the disk has kept two. -/
example (d : Path) : ∃ (jobs : Bool → Job ℕ) (fs : FileSystem ℕ) (ph : Bool → Phase ℕ) (calls kept : List (Call ℕ)), (∀ p, (jobs p).dest = d) ∧
    RunsAllCalling jobs (fun _ => none) calls fs ph ∧ KeptInOrder calls kept ∧ calls.length = 3 ∧ runCalls kept (fun _ => none) (tempName d 1) = some [1, 2] := by
  have ne : tempName d 2 ≠ tempName d 1 := by
    intro e
    have := congrArg List.length e
    simp [tempName, decimal] at this
  let jobs : Bool → Job ℕ := fun b => ⟨d, [if b then [1, 2, 3] else [4]], false, none⟩
  have r0 : RunsAllCalling jobs (fun _ => none) [] (fun _ => none) (fun _ => .claim 1) := .start
  have r1 := RunsAllCalling.step true _ _ _ _ _ _ r0 (.claimed _ 1 rfl)
  have r2 := RunsAllCalling.step false _ _ _ _ _ _ r1 (.taken _ 1 [] (by simp [jobs]))
  have r3 := RunsAllCalling.step false _ _ _ _ _ _ r2 (by rw [Function.update_self]; exact .claimed _ 2 (by simp [jobs, ne]))
  have r4 := RunsAllCalling.step true _ _ _ _ _ _ r3 (by
    rw [Function.update_of_ne (by decide), Function.update_of_ne (by decide), Function.update_self]; exact .read _ _ _ [1, 2, 3] [] (by simp))
  have r5 := RunsAllCalling.step true _ _ _ _ _ _ r4 (by
    rw [Function.update_self]; exact .close _ _ _ _ [] (by simp) (by simp [jobs, ne.symm]))
  refine ⟨jobs, _, _, _, [.create (tempName d 1), .create (tempName d 2), .append (tempName d 1) [1, 2]], fun _ => rfl, r5, Or.inr ?_, rfl, ?_⟩
  · exact ⟨[.create (tempName d 1), .create (tempName d 2)], [], tempName d 1, [1, 2], [3], rfl, rfl⟩
  · simp [runCalls, Call.run, ne.symm]

end Skyfield
