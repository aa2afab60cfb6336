import Verif.Model.Loader

/-
Model of what a freshly made `Loader` knows — skyfield/iokit.py:58-66, 119-153 — of the name it gives to a
downloaded file — skyfield/iokit.py:58-60, 166-168, 294-300 — and of `load_file` — skyfield/iokit.py:399-413.
Paths are POSIX paths.
-/
namespace Skyfield

/-- The parsers of skyfield/iokit.py:130-134. -/
inductive DefaultParser
  | deltatData
  | deltatPreds
  | leapSeconds
  deriving DecidableEq

/-- The openers of skyfield/iokit.py:135-147. -/
inductive DefaultOpener
  | spiceKernel
  | binary
  deriving DecidableEq

/-- `self.parsers` — skyfield/iokit.py:130-134. -/
def defaultParsers : Table DefaultParser := fun key =>
  if key = "deltat.data".toList then some (.direct .deltatData)
  else if key = "deltat.preds".toList then some (.direct .deltatPreds)
  else if key = "Leap_Second.dat".toList then some (.direct .leapSeconds)
  else none

/-- `self.openers` — skyfield/iokit.py:135-147. -/
def defaultOpeners : Table DefaultOpener := fun key =>
  if key = ".bsp".toList then some (.rules [("*.bsp".toList, .spiceKernel)])
  else if key = ".bpc".toList then some (.rules [("*".toList, .binary)])
  else if key = ".tpc".toList then some (.rules [("*".toList, .binary)])
  else if key = ".tf".toList then some (.rules [("*".toList, .binary)])
  else none

/-- What follows the first `://`, if there is one. Used at skyfield/iokit.py:58-60, 168, 297, 327. -/
def afterScheme : List Char → List Char
  | [] => []
  | c :: s => if "://".toList.isPrefixOf (c :: s) then s.drop 2 else afterScheme s

/-- `urlparse(url).path.split('/')[-1]` — skyfield/iokit.py:58-60, 168, 297, 327 — for a URL of the form
`scheme://host...` with a scheme that `urlparse` knows to have parameters (`http`, `https`, `ftp`).  The
fragment, the query and the parameters (`;...` in the last component) are cut off, in this order, then the
host.  Simplification: `urlparse` also deletes tabs and newlines and leading blanks, and does not recognise a
scheme with letters outside ASCII; URLs are taken not to have these. -/
def urlLastName (url : Url) : FileName :=
  let rest := afterScheme url
  let noFragment := rest.takeWhile (· ≠ '#')
  let noQuery := noFragment.takeWhile (· ≠ '?')
  let path := noQuery.dropWhile (· ≠ '/')
  let last := (path.reverse.takeWhile (· ≠ '/')).reverse
  last.takeWhile (· ≠ ';')

/-- `os.path.join(directory, name)` (POSIX). Used at skyfield/iokit.py:149-153. -/
def joinPath (directory name : Path) : Path :=
  if name.head? = some '/' then name
  else if directory = [] ∨ directory.getLast? = some '/' then directory ++ name
  else directory ++ '/' :: name

/-- `Loader.path_to` — skyfield/iokit.py:149-153. -/
def pathIn (directory : Path) (filename : FileName) : Path :=
  if directory = ['.'] then filename else joinPath directory filename

/-- `Loader(directory)` — skyfield/iokit.py:105-147 (`directory` after `expanduser`). -/
def defaultLoader (directory : Path) : Loader DefaultParser DefaultOpener where
  urls := defaultUrls
  parsers := defaultParsers
  openers := defaultOpeners
  glob := fnmatch
  urlName := urlLastName
  pathTo := pathIn directory
  join := joinPath directory

/-- `Loader.download(url, filename)`: the URL requested and the path written — skyfield/iokit.py:294-300. -/
def Loader.downloadPlan {P O : Type*} (L : Loader P O) (arg : FileName) (filename : Option FileName) :
    Except LoaderError (Url × Path) :=
  match (if isUrl arg then .ok arg else L.buildUrl arg) with
  | .error e => .error e
  | .ok url => .ok (url, L.pathTo (filename.getD (L.urlName url)))

/-- `load_file(path)` — skyfield/iokit.py:399-413: the path handed to `SpiceKernel`, or `ValueError`.
`expanduser` is `os.path.expanduser`. -/
def loadFile (expanduser : Path → Path) (path : Path) : Except LoaderError Path :=
  if extension (expanduser path) = ".bsp".toList then .ok (expanduser path) else .error .unknownFormat

end Skyfield
