import Mathlib.Data.List.Basic
import Mathlib.Logic.Function.Basic

/-
Model of `download` and `_rename_original`, skyfield/iokit.py:472-560, as a step machine over a file
system, so that it can be stopped ("crash") at any point and interleaved with other processes.

The file system is a map from path names to contents; opening with `O_CREAT | O_EXCL`, `os.path.exists`,
`os.rename` and `os.replace` are single atomic steps, as POSIX has it.  Writing through the open
descriptor is modelled as writing to the file of that name, which nobody else renames (this is part
of what is proved).  A crash is the end of the process, not of the machine: what the operating system
does to unsynced data in a power failure is not modelled (the code calls no `fsync`).  Directories,
permissions and the progress bar are not modelled; any operation may fail at any time for reasons
of this kind (`Step.fail`).
-/
namespace Skyfield

/-- A path name. Used at skyfield/iokit.py:472-560. -/
abbrev Path := List Char

/-- Path name ↦ content of the file of that name. Used at skyfield/iokit.py:510-560. -/
abbrev FileSystem (β : Type*) := Path → Option (List β)

/-- The decimal digits of a number, `str(n)`. Used at skyfield/iokit.py:510-520. -/
def decimal (n : ℕ) : List Char := Nat.toDigits 10 n

/-- The `i`-th temporary name tried: `path + '.download'`, then with `2`, `3`, ... appended —
skyfield/iokit.py:510-520. -/
def tempName (path : Path) (i : ℕ) : Path :=
  path ++ ".download".toList ++ (if i = 1 then [] else decimal i)

/-- `path.rsplit('.', 1)` unpacked into two parts; `none` is the `ValueError` when there is no dot.
Used at skyfield/iokit.py:556-557. -/
def rsplitDot (path : Path) : Option (Path × Path) :=
  match path.reverse.dropWhile (· ≠ '.') with
  | [] => none
  | _ :: prefixRev => some (prefixRev.reverse, (path.reverse.takeWhile (· ≠ '.')).reverse)

/-- The `n`-th backup name — skyfield/iokit.py:556-557. -/
def backupName (path : Path) (n : ℕ) : Option Path :=
  (rsplitDot path).map fun p => p.1 ++ ".old".toList ++ decimal n ++ '.' :: p.2

/-- One call of `download(url, path, backup=backup)`.  `reads` are the successive results of
`connection.read(blocksize)`; an empty one (or the end of the list) is the end of the stream.
`contentLength` is the header of that name. Used at skyfield/iokit.py:510-560. -/
structure Job (β : Type*) where
  dest : Path
  reads : List (List β)
  backup : Bool
  contentLength : Option ℕ

/-- What the connection delivered before it signalled the end of the stream. Used at skyfield/iokit.py:528-540. -/
def Job.received {β : Type*} (job : Job β) : List β := (job.reads.takeWhile (· ≠ [])).flatten

/-- Where in the function a process is. Used at skyfield/iokit.py:510-560. -/
inductive Phase (β : Type*)
  /-- about to try the `i`-th temporary name -/
  | claim (i : ℕ)
  /-- the temporary file is open; `pending` bytes are still in the writer's buffer -/
  | write (temp : Path) (pending : List β) (todo : List (List β))
  /-- the temporary file is complete and closed; about to look whether a backup is wanted -/
  | check (temp : Path)
  /-- about to see whether the `n`-th backup name is free -/
  | pick (temp : Path) (n : ℕ)
  /-- about to rename the original to `target` -/
  | rename (temp : Path) (target : Path)
  /-- about to rename the temporary file to the destination -/
  | replace (temp : Path)
  | done
  | failed

/-- The atomic steps of `download` — skyfield/iokit.py:510-560. -/
inductive Step {β : Type*} (job : Job β) : FileSystem β → Phase β → FileSystem β → Phase β → Prop
  /-- `os.open` raises `EEXIST`: lines 516-520 -/
  | taken (fs i c) : fs (tempName job.dest i) = some c → Step job fs (.claim i) fs (.claim (i + 1))
  /-- `os.open` creates the file: lines 515, 521-522 -/
  | claimed (fs i) : fs (tempName job.dest i) = none →
      Step job fs (.claim i) (Function.update fs (tempName job.dest i) (some []))
        (.write (tempName job.dest i) [] job.reads)
  /-- a non-empty read, handed to the buffered writer: lines 530-534 -/
  | read (fs temp pending c todo) : c ≠ [] →
      Step job fs (.write temp pending (c :: todo)) fs (.write temp (pending ++ c) todo)
  /-- the writer passes some of its buffer on to the file, at any time it likes -/
  | flush (fs temp a b todo content) : fs temp = some content →
      Step job fs (.write temp (a ++ b) todo) (Function.update fs temp (some (content ++ a)))
        (.write temp b todo)
  /-- the end of the stream: flush and close: lines 531-532, 537, leaving the `with` -/
  | close (fs temp pending todo content) : todo.head? = none ∨ todo.head? = some [] →
      fs temp = some content →
      Step job fs (.write temp pending todo) (Function.update fs temp (some (content ++ pending))) (.check temp)
  /-- line 543: a backup is wanted and there is something to back up -/
  | backup (fs temp c) : fs job.dest = some c → job.backup = true →
      Step job fs (.check temp) fs (.pick temp 1)
  /-- line 543: otherwise -/
  | noBackup (fs temp) : fs job.dest = none ∨ job.backup = false →
      Step job fs (.check temp) fs (.replace temp)
  /-- lines 555-559: the backup name is in use -/
  | inUse (fs temp n b c) : backupName job.dest n = some b → fs b = some c →
      Step job fs (.pick temp n) fs (.pick temp (n + 1))
  /-- lines 558-559: the backup name is free -/
  | free (fs temp n b) : backupName job.dest n = some b → fs b = none →
      Step job fs (.pick temp n) fs (.rename temp b)
  /-- line 556: a path without a dot -/
  | noDot (fs temp n) : backupName job.dest n = none → Step job fs (.pick temp n) fs .failed
  /-- line 560: `os.rename(path, backup_path)` -/
  | renamed (fs temp target c) : fs job.dest = some c →
      Step job fs (.rename temp target)
        (Function.update (Function.update fs target (some c)) job.dest none) (.replace temp)
  /-- line 549: `os.replace(tempname, path)` -/
  | replaced (fs temp c) : fs temp = some c →
      Step job fs (.replace temp)
        (Function.update (Function.update fs job.dest (some c)) temp none) .done
  /-- any exception: a failing read, a full disk, a missing file -/
  | fail (fs ph) : Step job fs ph fs .failed

/-- States reachable by one process running alone from `fs0`; each of them is a point at which it may crash.
Used at skyfield/iokit.py:472-560. -/
inductive Runs {β : Type*} (job : Job β) (fs0 : FileSystem β) : FileSystem β → Phase β → Prop
  | start : Runs job fs0 fs0 (.claim 1)
  | step (fs ph fs' ph') : Runs job fs0 fs ph → Step job fs ph fs' ph' → Runs job fs0 fs' ph'

/-- Several processes at once: any of them makes the next step. Used at skyfield/iokit.py:472-560. -/
inductive RunsAll {β ι : Type*} [DecidableEq ι] (jobs : ι → Job β) (fs0 : FileSystem β) :
    FileSystem β → (ι → Phase β) → Prop
  | start : RunsAll jobs fs0 fs0 (fun _ => .claim 1)
  | step (p : ι) (fs ph fs' ph') : RunsAll jobs fs0 fs ph → Step (jobs p) fs (ph p) fs' ph' →
      RunsAll jobs fs0 fs' (Function.update ph p ph')

/-- One download after another, each of which may end, fail or be killed at any point.
Used at skyfield/iokit.py:472-560. -/
inductive Sequence {β : Type*} : List (Job β) → FileSystem β → FileSystem β → Prop
  | nil (fs) : Sequence [] fs fs
  | cons (job jobs fs fs' fs'' ph) : Runs job fs fs' ph → Sequence jobs fs' fs'' →
      Sequence (job :: jobs) fs fs''

end Skyfield
