import Verif.Model.Download

/-
The calls on the file system that `download` makes, skyfield/iokit.py:472-560, in the order in which it makes them, so that a power failure can be modelled: the machine
stops, and of the calls made so far some have reached the disk.  `Verif.Spec.PowerLoss` says which.  The code makes no `fsync` call.
-/
namespace Skyfield

/-- A call on the file system, with the effect of changing it. Used at skyfield/iokit.py:508-560. -/
inductive Call (β : Type*)
  /-- `os.open` with `O_CREAT | O_EXCL`, which succeeds — skyfield/iokit.py:515 -/
  | create (path : Path)
  /-- `write` on the open file: its path is that under which it was opened, since the file is not renamed while it is open — skyfield/iokit.py:533, 537 -/
  | append (path : Path) (data : List β)
  /-- `os.replace` and `os.rename` — skyfield/iokit.py:549, 560 -/
  | rename (source target : Path)

/-- The effect of a call. Used at skyfield/iokit.py:508-560. -/
def Call.run {β : Type*} (fs : FileSystem β) : Call β → FileSystem β
  | .create p => Function.update fs p (some [])
  | .append p a =>
    match fs p with
    | some content => Function.update fs p (some (content ++ a))
    | none => fs
  | .rename p q =>
    match fs p with
    | some content => Function.update (Function.update fs q (some content)) p none
    | none => fs

/-- The effect of several calls, one after the other. Used at skyfield/iokit.py:508-560. -/
def runCalls {β : Type*} (calls : List (Call β)) (fs : FileSystem β) : FileSystem β := calls.foldl Call.run fs

/-- The steps of `download`, as in `Step`, each with the calls that it makes: those that change nothing make none of these.
Used at skyfield/iokit.py:508-560. -/
inductive StepCalls {β : Type*} (job : Job β) : FileSystem β → Phase β → List (Call β) → FileSystem β → Phase β → Prop
  | taken (fs i c) : fs (tempName job.dest i) = some c → StepCalls job fs (.claim i) [] fs (.claim (i + 1))
  | claimed (fs i) : fs (tempName job.dest i) = none →
      StepCalls job fs (.claim i) [.create (tempName job.dest i)] (Function.update fs (tempName job.dest i) (some [])) (.write (tempName job.dest i) [] job.reads)
  | read (fs temp pending c todo) : c ≠ [] → StepCalls job fs (.write temp pending (c :: todo)) [] fs (.write temp (pending ++ c) todo)
  | flush (fs temp a b todo content) : fs temp = some content →
      StepCalls job fs (.write temp (a ++ b) todo) [.append temp a] (Function.update fs temp (some (content ++ a))) (.write temp b todo)
  | close (fs temp pending todo content) : todo.head? = none ∨ todo.head? = some [] → fs temp = some content →
      StepCalls job fs (.write temp pending todo) [.append temp pending] (Function.update fs temp (some (content ++ pending))) (.check temp)
  | backup (fs temp c) : fs job.dest = some c → job.backup = true → StepCalls job fs (.check temp) [] fs (.pick temp 1)
  | noBackup (fs temp) : fs job.dest = none ∨ job.backup = false → StepCalls job fs (.check temp) [] fs (.replace temp)
  | inUse (fs temp n b c) : backupName job.dest n = some b → fs b = some c → StepCalls job fs (.pick temp n) [] fs (.pick temp (n + 1))
  | free (fs temp n b) : backupName job.dest n = some b → fs b = none → StepCalls job fs (.pick temp n) [] fs (.rename temp b)
  | noDot (fs temp n) : backupName job.dest n = none → StepCalls job fs (.pick temp n) [] fs .failed
  | renamed (fs temp target c) : fs job.dest = some c →
      StepCalls job fs (.rename temp target) [.rename job.dest target] (Function.update (Function.update fs target (some c)) job.dest none) (.replace temp)
  | replaced (fs temp c) : fs temp = some c →
      StepCalls job fs (.replace temp) [.rename temp job.dest] (Function.update (Function.update fs job.dest (some c)) temp none) .done
  | fail (fs ph) : StepCalls job fs ph [] fs .failed

/-- The executions of one `download`, as in `Runs`, with the calls made so far. Used at skyfield/iokit.py:508-560. -/
inductive RunsCalling {β : Type*} (job : Job β) (fs0 : FileSystem β) : List (Call β) → FileSystem β → Phase β → Prop
  | start : RunsCalling job fs0 [] fs0 (.claim 1)
  | step (calls more fs ph fs' ph') : RunsCalling job fs0 calls fs ph → StepCalls job fs ph more fs' ph' → RunsCalling job fs0 (calls ++ more) fs' ph'

/-- Several processes at once, as in `RunsAll`, with the calls all of them have made so far.
Used at skyfield/iokit.py:508-560. -/
inductive RunsAllCalling {β ι : Type*} [DecidableEq ι] (jobs : ι → Job β) (fs0 : FileSystem β) : List (Call β) → FileSystem β → (ι → Phase β) → Prop
  | start : RunsAllCalling jobs fs0 [] fs0 (fun _ => .claim 1)
  | step (p : ι) (calls more fs ph fs' ph') : RunsAllCalling jobs fs0 calls fs ph → StepCalls (jobs p) fs (ph p) more fs' ph' →
      RunsAllCalling jobs fs0 (calls ++ more) fs' (Function.update ph p ph')

end Skyfield
