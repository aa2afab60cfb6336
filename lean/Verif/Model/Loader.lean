import Verif.Model.Download

/-
Model of `Loader`, skyfield/iokit.py:71-397: which file is opened, how, and when the network is used.
Names and URLs are lists of characters.  `fnmatch`, `urlparse` and `os.path.join` are parameters; the
parsers and openers themselves are opaque (what they are given is modelled, not what they make of
it).  Log messages are not modelled, nor are bundled files (`builtin=True`) or the age of files.
-/
namespace Skyfield

/-- A file name. Used at skyfield/iokit.py:394-396. -/
abbrev FileName := List Char
/-- A URL. Used at skyfield/iokit.py:119-147. -/
abbrev Url := List Char

/-- A value in one of the loader's dictionaries: a result, or a list of patterns and results.
Used at skyfield/iokit.py:386-397. -/
inductive Entry (V : Type*)
  | direct (v : V)
  | rules (l : List (List Char × V))

/-- A dictionary: `mapping.get(key)`. Used at skyfield/iokit.py:386-397. -/
abbrev Table (V : Type*) := FileName → Option (Entry V)

/-- `os.path.splitext(filename)[1]` (POSIX): the last dot of the last component and what follows, unless only
dots precede it. Used at skyfield/iokit.py:386-397. -/
def extension (filename : FileName) : FileName :=
  match rsplitDot ((filename.reverse.takeWhile (· ≠ '/')).reverse) with
  | some (a, b) => if a.any (· ≠ '.') then '.' :: b else []
  | none => []

/-- The `for` loop of `_search` — skyfield/iokit.py:394-396. -/
def searchRules {V : Type*} (glob : FileName → List Char → Bool) (filename : FileName) :
    List (List Char × V) → Option V
  | [] => none
  | (pattern, result) :: rest =>
      if glob filename pattern then some result else searchRules glob filename rest

/-- `_search(mapping, filename)` — skyfield/iokit.py:386-397.  Simplification: a name that is itself the key of
a rule list (`'.bsp'`) makes Python return the list, on which the callers then fail; here it is not
found. -/
def search {V : Type*} (glob : FileName → List Char → Bool) (mapping : Table V) (filename : FileName) :
    Option V :=
  match mapping filename with
  | some (.direct v) => some v
  | some (.rules _) => none
  | none =>
      match mapping (extension filename) with
      | some (.rules l) => searchRules glob filename l
      | _ => none

/-- A loader: its three dictionaries — skyfield/iokit.py:119-147 — and the library functions it uses.
`P` and `O` are the parsers and openers. -/
structure Loader (P O : Type*) where
  urls : Table Url
  parsers : Table P
  openers : Table O
  glob : FileName → List Char → Bool
  /-- `urlparse(url).path.split('/')[-1]` -/
  urlName : Url → FileName
  /-- `self.path_to(filename)` — skyfield/iokit.py:149-153 -/
  pathTo : FileName → Path
  /-- `os.path.join(self.directory, path)` in `open` — skyfield/iokit.py:323 -/
  join : FileName → Path

/-- `'://' in filename`. Used at skyfield/iokit.py:166-185. -/
def isUrl (s : List Char) : Bool := s.tails.any fun t => "://".toList.isPrefixOf t

/-- How a file is read: `parser(open(path, 'rb'))`, `opener(path)`, or just `open(path, mode)`.
Used at skyfield/iokit.py:166-185. -/
inductive How (P O : Type*)
  | parse (p : P)
  | opener (o : O)
  | plain

/-- The exceptions of a loader. Used at skyfield/iokit.py:166-185. -/
inductive LoaderError
  /-- "Skyfield does not know how to open a file named ..." -/
  | unknownFormat
  /-- "Skyfield does not know where to download ..." -/
  | unknownUrl
  /-- the download failed -/
  | network
  /-- `open` of a missing local file -/
  | missing

/-- What to fetch, where to put it and how to read it — skyfield/iokit.py:166-185. -/
def Loader.resolve {P O : Type*} (L : Loader P O) (arg : FileName) :
    Except LoaderError (Option Url × FileName × How P O) :=
  let url : Option Url :=
    if isUrl arg then some arg
    else (search L.glob L.urls arg).map fun base => if base = [] then base else base ++ arg
  let filename := if isUrl arg then L.urlName arg else arg
  match search L.glob L.parsers filename, search L.glob L.openers filename with
  | none, none => .error .unknownFormat
  | some p, _ => .ok (url, filename, .parse p)
  | none, some o => .ok (url, filename, .opener o)

/-- `Loader.build_url` — skyfield/iokit.py:220-231. -/
def Loader.buildUrl {P O : Type*} (L : Loader P O) (filename : FileName) : Except LoaderError Url :=
  match search L.glob L.urls filename with
  | some base => if base = [] then .error .unknownUrl else .ok (base ++ filename)
  | none => .error .unknownUrl

/-- The files on disk and the requests made so far. Used at skyfield/iokit.py:203-215. -/
structure LoaderState (β : Type*) where
  files : FileSystem β
  requests : List Url

/-- What a call did: opened a file with this content in this way, or raised. Used at skyfield/iokit.py:164-201. -/
inductive Outcome (β P O : Type*)
  | opened (how : How P O) (content : List β)
  | error (e : LoaderError)

section
variable {β P O : Type*}

/-- `download(url, path, ..., backup=backup)`; `serves url c` says that the server may deliver `c` for `url`.
The request is recorded; then the connection is refused (nothing changes), or the step machine of
`Model/Download.lean` runs to its end or to a failure. Used at skyfield/iokit.py:203-215. -/
inductive Fetch (serves : Url → List β → Prop) (url : Url) (path : Path) (backup : Bool) :
    LoaderState β → Bool → LoaderState β → Prop
  | refused (s) : Fetch serves url path backup s false ⟨s.files, s.requests ++ [url]⟩
  | failed (s fs' job) : job.dest = path → job.backup = backup → serves url job.received →
      Runs job s.files fs' .failed → Fetch serves url path backup s false ⟨fs', s.requests ++ [url]⟩
  | ok (s fs' job) : job.dest = path → job.backup = backup → serves url job.received →
      Runs job s.files fs' .done → Fetch serves url path backup s true ⟨fs', s.requests ++ [url]⟩

/-- `Loader._assure(url, filename, reload, backup)` — skyfield/iokit.py:203-215. -/
inductive Assure (serves : Url → List β → Prop) (url : Option Url) (path : Path) (reload backup : Bool) :
    LoaderState β → Option LoaderError → LoaderState β → Prop
  | present (s c) : s.files path = some c → reload = false → Assure serves url path reload backup s none s
  | noUrl (s) : s.files path = none ∨ reload = true → url = none →
      Assure serves url path reload backup s (some .unknownUrl) s
  | ok (s u s') : s.files path = none ∨ reload = true → url = some u →
      Fetch serves u path backup s true s' → Assure serves url path reload backup s none s'
  | bad (s u s') : s.files path = none ∨ reload = true → url = some u →
      Fetch serves u path backup s false s' → Assure serves url path reload backup s (some .network) s'

/-- The calls on a loader. Used at skyfield/iokit.py:164-201. -/
inductive Request
  /-- `loader(arg, reload=..., backup=...)` -/
  | call (arg : FileName) (reload backup : Bool)
  /-- `loader.open(url, filename=..., reload=..., backup=...)` -/
  | openFile (url : FileName) (filename : Option FileName) (reload backup : Bool)

/-- The argument `reload` of a call. Used at skyfield/iokit.py:302-330. -/
def Request.reload : Request → Bool
  | .call _ r _ => r
  | .openFile _ _ r _ => r

/-- `Loader.__call__` — skyfield/iokit.py:164-201 — and `Loader.open` — skyfield/iokit.py:302-330. -/
inductive Answer (L : Loader P O) (serves : Url → List β → Prop) :
    Request → LoaderState β → Outcome β P O → LoaderState β → Prop
  | unresolved (arg reload backup s e) : L.resolve arg = .error e →
      Answer L serves (.call arg reload backup) s (.error e) s
  | called (arg reload backup url filename how s s' c) : L.resolve arg = .ok (url, filename, how) →
      Assure serves url (L.pathTo filename) reload backup s none s' →
      s'.files (L.pathTo filename) = some c →
      Answer L serves (.call arg reload backup) s (.opened how c) s'
  | raised (arg reload backup url filename how s s' e) : L.resolve arg = .ok (url, filename, how) →
      Assure serves url (L.pathTo filename) reload backup s (some e) s' →
      Answer L serves (.call arg reload backup) s (.error e) s'
  | openLocal (url filename reload backup s c) : isUrl url = false → s.files (L.join url) = some c →
      Answer L serves (.openFile url filename reload backup) s (.opened .plain c) s
  | openMissing (url filename reload backup s) : isUrl url = false → s.files (L.join url) = none →
      Answer L serves (.openFile url filename reload backup) s (.error .missing) s
  | openUrl (url filename reload backup s s' c) : isUrl url = true →
      Assure serves (some url) (L.pathTo (filename.getD (L.urlName url))) reload backup s none s' →
      s'.files (L.pathTo (filename.getD (L.urlName url))) = some c →
      Answer L serves (.openFile url filename reload backup) s (.opened .plain c) s'
  | openRaised (url filename reload backup s s' e) : isUrl url = true →
      Assure serves (some url) (L.pathTo (filename.getD (L.urlName url))) reload backup s (some e) s' →
      Answer L serves (.openFile url filename reload backup) s (.error e) s'

/-- Any number of calls, one after the other. Used at skyfield/iokit.py:155-330. -/
inductive Session (L : Loader P O) (serves : Url → List β → Prop) :
    List Request → LoaderState β → LoaderState β → Prop
  | nil (s) : Session L serves [] s s
  | cons (r rs s out s' s'') : Answer L serves r s out s' → Session L serves rs s' s'' →
      Session L serves (r :: rs) s s''

end

/-- `fnmatch` restricted to the wildcards `*` and `?`, for the patterns of the loader's own tables.
Used at skyfield/iokit.py:105-147. -/
def fnmatch : FileName → List Char → Bool
  | [], [] => true
  | _ :: _, [] => false
  | [], p :: ps => if p = '*' then fnmatch [] ps else false
  | c :: cs, p :: ps =>
      if p = '*' then fnmatch (c :: cs) ps || fnmatch cs (p :: ps)
      else if p = '?' || p = c then fnmatch cs ps else false
termination_by name pattern => name.length + pattern.length

/-- The loader's own table of URLs — skyfield/iokit.py:119-129, with the constants of lines 62-66. -/
def defaultUrls : Table Url := fun key =>
  if key = ".bsp".toList then
    some (.rules [("jup*.bsp".toList, "https://naif.jpl.nasa.gov/pub/naif/generic_kernels/spk/satellites/".toList),
      ("*.bsp".toList, "https://ssd.jpl.nasa.gov/ftp/eph/planets/bsp/".toList)])
  else if key = "finals2000A.all".toList then some (.direct "https://datacenter.iers.org/products/eop/rapid/standard/".toList)
  else if key = "Leap_Second.dat".toList then
    some (.direct "https://hpiers.obspm.fr/iers/bul/bulc/".toList)
  else if key = "moon_080317.tf".toList then
    some (.direct "https://naif.jpl.nasa.gov/pub/naif/generic_kernels/fk/satellites/".toList)
  else if key = "moon_pa_de421_1900-2050.bpc".toList then
    some (.direct "https://naif.jpl.nasa.gov/pub/naif/generic_kernels/pck/".toList)
  else if key = "pck00008.tpc".toList then
    some (.direct "https://naif.jpl.nasa.gov/pub/naif/generic_kernels/pck/a_old_versions/".toList)
  else none

end Skyfield
