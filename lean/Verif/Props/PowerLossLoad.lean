import Verif.Props.PowerLoss
import Verif.Props.DefaultLoader

/-
C119: loading a file after the power failed while it was downloaded.
-/
namespace Skyfield
open _root_.Spec

variable {β P O : Type*}

/-- **C119.**  Let the power fail at any moment of the download that `load(arg)` makes, the file being absent before, on a disk that does not rename a file before it has
written its data.  The next `load(arg)`, whenever it is made, does not open part of a file: it opens all that was received before the failure, without a request, or makes one
request and opens what the server then delivers, or raises. -/
theorem C119_next_load (L : Loader P O) (serves : Url → List β → Prop) (arg : FileName) (url : Url) (name : FileName) (how : How P O)
    (hres : L.resolve arg = .ok (some url, name, how)) (job : Job β) (hdest : job.dest = L.pathTo name) (fs0 fs : FileSystem β) (habsent : fs0 (L.pathTo name) = none)
    (ph : Phase β) (calls kept : List (Call β)) (h : RunsCalling job fs0 calls fs ph) (hk : KeptDataFirst calls kept) (requests : List Url) (backup : Bool)
    (out : Outcome β P O) (s' : LoaderState β) (ha : Answer L serves (.call arg false backup) ⟨runCalls kept fs0, requests⟩ out s') :
    (s'.requests = requests ∧ out = .opened how job.received) ∨
      (s'.requests = requests ++ [url] ∧ ((∃ c, serves url c ∧ out = .opened how c) ∨ out = .error .network)) := by
  have key : runCalls kept fs0 (L.pathTo name) = none ∨ runCalls kept fs0 (L.pathTo name) = some job.received := by
    rw [← hdest] at habsent ⊢
    rcases C119_data_first job fs0 fs ph calls kept h hk with e | e | ⟨-, e, -⟩
    · exact Or.inl (e.trans habsent)
    · exact Or.inr e
    · exact Or.inl e
  rcases key with e | e
  · obtain ⟨h1, -, h2⟩ := C28_absent L serves arg false backup url name how hres ⟨runCalls kept fs0, requests⟩ s' out e ha
    refine Or.inr ⟨h1, ?_⟩
    rcases h2 with ⟨c, hc, -, ho⟩ | ⟨ho, -⟩
    · exact Or.inl ⟨c, hc, ho⟩
    · exact Or.inr ho
  · obtain ⟨rfl, ho⟩ := C28_present L serves arg backup (some url) name how hres ⟨runCalls kept fs0, requests⟩ s' out _ e ha
    exact Or.inl ⟨rfl, ho⟩

/-- **C119, finding.**  On a disk that may rename a file before it has written its data, a download that finished can be left by a power failure as an empty file, which every
later `load(arg)` then opens, without a request, however many other files are loaded before it, until a reload is asked for. -/
theorem C119_empty_until_reload (L : Loader P O) (serves : Url → List β → Prop) (arg : FileName) (url : Option Url) (name : FileName) (how : How P O)
    (hres : L.resolve arg = .ok (url, name, how)) (c a : List β) (hne : a ≠ []) :
    ∃ (job : Job β) (fs0 fs : FileSystem β) (calls kept : List (Call β)), job.dest = L.pathTo name ∧ job.received = a ∧ fs0 (L.pathTo name) = some c ∧
      RunsCalling job fs0 calls fs .done ∧ fs (L.pathTo name) = some a ∧ KeptSeparately calls kept ∧
      ∀ (requests : List Url) (rs : List Request), (∀ r ∈ rs, r.reload = false) → ∀ s, Session L serves rs ⟨runCalls kept fs0, requests⟩ s →
        ∀ backup out s', Answer L serves (.call arg false backup) s out s' → s' = s ∧ out = .opened how [] := by
  obtain ⟨job, fs0, fs, calls, kept, h1, h2, h3, h4, h5, h6, h7, -⟩ := C119_renamed_before_data (L.pathTo name) c a hne
  refine ⟨job, fs0, fs, calls, kept, h1, h2, h3, h4, h5, h6, ?_⟩
  intro requests rs hr s hs backup out s' ha
  have hx := C28_never_replaced L serves rs hr ⟨runCalls kept fs0, requests⟩ s hs (L.pathTo name) [] h7
  exact C28_present L serves arg backup url name how hres s s' out [] hx ha

/-- The download of an ephemeris into an empty directory, cut off after its first part, all of which the disk keeps: the hypotheses of `C119_next_load` are met, part of the
file is on the disk under another name, and a call that downloads it again is possible. -/
example (directory : Path) : ∃ (job : Job ℕ) (fs : FileSystem ℕ) (ph : Phase ℕ) (calls kept : List (Call ℕ)) (s' : LoaderState ℕ) (url : Url) (how : How _ _),
    (defaultLoader directory).resolve "de421.bsp".toList = .ok (some url, "de421.bsp".toList, how) ∧
      job.dest = (defaultLoader directory).pathTo "de421.bsp".toList ∧ RunsCalling job (fun _ => none) calls fs ph ∧ KeptDataFirst calls kept ∧
      runCalls kept (fun _ => none) (tempName job.dest 1) = some [1, 2] ∧
      Answer (defaultLoader directory) (fun _ c => c = [1, 2, 3]) (.call "de421.bsp".toList false false) ⟨runCalls kept (fun _ => none), []⟩ (.error .network) s' := by
  have hres := C98_ephemeris directory "de421.bsp".toList (by decide +kernel) ⟨[], "de421".toList, rfl, Or.inl rfl, by decide, by decide⟩
  set d := (defaultLoader directory).pathTo "de421.bsp".toList with hd
  have ht : tempName d 1 ≠ d := temp_ne_dest _ _
  have r0 : RunsCalling ⟨d, [[1, 2], [3]], false, none⟩ (fun _ => none) [] (fun _ => none) (.claim 1) := .start
  have r1 := RunsCalling.step _ _ _ _ _ _ r0 (.claimed _ 1 (by simp))
  have r2 := RunsCalling.step _ _ _ _ _ _ r1 (.read _ _ _ [1, 2] [[3]] (by simp))
  have r3 := RunsCalling.step _ _ _ _ _ _ r2 (.flush _ _ [1, 2] [] [[3]] [] (by simp))
  refine ⟨_, _, _, _, [.create (tempName d 1), .append (tempName d 1) [1, 2]], _, _, _, hres, hd, r3, ?_, by simp [runCalls, Call.run],
    .raised _ _ _ _ _ _ _ _ _ hres (.bad _ _ _ (Or.inl ?_) rfl (.refused _))⟩
  · simp only [List.nil_append, List.append_nil, List.cons_append]
    exact .keep _ _ _ (.keep _ _ _ (.rest _))
  · rw [← hd]
    simp [runCalls, Call.run, ht.symm]

end Skyfield
