import Mathlib.Algebra.Order.Field.Rat
import Verif.Model.Download

/-
Model of `ProgressBar` — skyfield/iokit.py:562-577 — and of the calls `download` makes on it — skyfield/iokit.py:
482-486, 507-517.  Times are exact rational numbers of seconds since the epoch.
-/
namespace Skyfield

/-- `'{0:n}'.format(s)` for a string: pad with blanks on the right. Used at skyfield/iokit.py:574-576. -/
def padRight (n : ℕ) (s : List Char) : List Char := s ++ List.replicate (n - s.length) ' '

/-- `'{0:n}'.format(k)` for a number: pad with blanks on the left. Used at skyfield/iokit.py:574-576. -/
def padLeft (n : ℕ) (s : List Char) : List Char := List.replicate (n - s.length) ' ' ++ s

/-- What is printed for a percentage — skyfield/iokit.py:574-576. -/
def barLine (filename : List Char) (percent : ℕ) : List Char :=
  '\r' :: '[' :: padRight 33 (List.replicate (percent / 3) '#') ++ ']' :: ' ' :: padLeft 3 (decimal percent) ++
    '%' :: ' ' :: filename ++ if percent = 100 then ['\n'] else []

/-- One call of `report`: the number of bytes so far, and the two readings of the clock (the second is taken only
when something is printed). Used at skyfield/iokit.py:567-577. -/
structure Report where
  soFar : ℕ
  clock : ℚ
  clock' : ℚ

/-- What `report` does. Used at skyfield/iokit.py:567-577. -/
inductive BarOutcome
  /-- nothing is printed -/
  | quiet
  /-- this text is printed, and `t0` set -/
  | prints (text : List Char) (t0 : ℚ)
  /-- `ZeroDivisionError` -/
  | divisionByZero

/-- `ProgressBar.report(bytes_so_far, bytes_total)` — skyfield/iokit.py:567-577. -/
def barReport (filename : List Char) (t0 : ℚ) (total : ℤ) (r : Report) : BarOutcome :=
  if total < 0 then .quiet
  else if total = 0 then .divisionByZero
  else
    let percent := 100 * r.soFar / total.toNat
    if percent ≠ 100 ∧ r.clock - t0 < 1 / 2 then .quiet
    else .prints (barLine filename percent) r.clock'

/-- The reports of one download, in order, from a bar whose `t0` is given: what is printed, each with the clock reading
stored in `t0`; `none` when a division by zero ends the download with `IOError` — skyfield/iokit.py:512-517. -/
def barRun (filename : List Char) (total : ℤ) : ℚ → List Report → Option (List (List Char × ℚ))
  | _, [] => some []
  | t0, r :: rs =>
      match barReport filename t0 total r with
      | .quiet => barRun filename total t0 rs
      | .prints text t => (barRun filename total t rs).map ((text, t) :: ·)
      | .divisionByZero => none

/-- The whole download: `report` is called after every block with the number of bytes so far; `t0` is 0 at first —
skyfield/iokit.py:482-486, 506-515, 563-565. -/
def barDownload (filename : List Char) (total : ℤ) (blocks : List (ℕ × ℚ × ℚ)) : Option (List (List Char × ℚ)) :=
  let rec reports : ℕ → List (ℕ × ℚ × ℚ) → List Report
    | _, [] => []
    | n, (k, c, c') :: bs => ⟨n + k, c, c'⟩ :: reports (n + k) bs
  barRun filename total 0 (reports 0 blocks)

end Skyfield
