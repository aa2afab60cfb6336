import Verif.Model.Reify

/-
Threads that share Skyfield objects: cached attributes read by several threads at once — skyfield/descriptorlib.py:9-14 — and the
lock of `parse_leap_seconds` — skyfield/io_timescale.py:8 and 83-89.

An execution is a list of thread numbers: at each place in the list the named thread takes one step.  A step is one operation on
what the threads share (a look into the instance dictionary, a store in it, taking or releasing the lock, setting the locale);
CPython runs such an operation as a whole.
-/
namespace Skyfield

/-! ### Cached attributes -/

section
variable {N V : Type} [DecidableEq N]

/-- The callers of the computation in progress, innermost first: each is the method of an attribute, waiting for a value.
Used at skyfield/descriptorlib.py:9-12. -/
abbrev Callers (N V : Type) := List (N × (V → Comp N V))

/-- What a thread is doing: nothing; about to look for an attribute in the instance dictionary; or in the body of a method.
Used at skyfield/descriptorlib.py:9-12. -/
inductive Control (N V : Type) where
  | idle
  | looking (n : N) (callers : Callers N V)
  | running (n : N) (body : Comp N V) (callers : Callers N V)

/-- A thread that reads a list of attributes: those still to be read, the values it has got so far, and what it is doing.  `ran` lists
the methods it has run to their end. Used at skyfield/descriptorlib.py:9-12. -/
structure Reader (N V : Type) where
  todo : List N
  got : List V
  control : Control N V
  ran : List N

/-- A value is returned: to the innermost caller, or, if there is none, to the program.
Used at skyfield/descriptorlib.py:9-12. -/
def Reader.deliver (r : Reader N V) (v : V) : Callers N V → Reader N V
  | [] => { r with got := r.got ++ [v], control := .idle }
  | (m, k) :: callers => { r with control := .running m (k v) callers }

/-- One step of a thread that reads attributes, given the instance dictionary.
Looking: Python looks in the instance dictionary first; if the name is not there `reify.__get__` calls the method —
skyfield/descriptorlib.py:9-12.  Returning from a method: the value is stored, whether or not another thread stored one in the
meantime, and the computed value is returned — skyfield/descriptorlib.py:13-14.  There is no lock. -/
def Reader.step (method : N → Comp N V) (r : Reader N V) (c : Cache N V) : Reader N V × Cache N V :=
  match r.control with
  | .idle =>
    match r.todo with
    | [] => (r, c)
    | n :: rest => ({ r with todo := rest, control := .looking n [] }, c)
  | .looking n callers =>
    match c n with
    | some v => (r.deliver v callers, c)
    | none => ({ r with control := .running n (method n) callers }, c)
  | .running n (.ret v) callers => ({ r with ran := r.ran ++ [n] }.deliver v callers, c.set n v)
  | .running n (.read m k) callers => ({ r with control := .looking m ((n, k) :: callers) }, c)
  | .running n (.peek m k) callers => ({ r with control := .running n (k (c m)) callers }, c)

/-- The threads, numbered, and the dictionary of the object they share. Used at skyfield/descriptorlib.py:9-14. -/
structure Readers (N V : Type) where
  thread : ℕ → Reader N V
  cache : Cache N V

/-- Thread `i` takes a step. Used at skyfield/descriptorlib.py:9-14. -/
def Readers.step (method : N → Comp N V) (s : Readers N V) (i : ℕ) : Readers N V :=
  let (r, c) := (s.thread i).step method s.cache
  { thread := fun j => if j = i then r else s.thread j, cache := c }

/-- An execution. Used at skyfield/descriptorlib.py:9-14. -/
def Readers.run (method : N → Comp N V) (s : Readers N V) (schedule : List ℕ) : Readers N V :=
  schedule.foldl (Readers.step method) s

/-- Before any thread has started: thread `i` is going to read the attributes `wants i`, and the object's dictionary is `c0`.
Used at skyfield/descriptorlib.py:9-14. -/
def Readers.start (wants : ℕ → List N) (c0 : Cache N V) : Readers N V :=
  { thread := fun i => ⟨wants i, [], .idle, []⟩, cache := c0 }

end

/-! ### The lock of `parse_leap_seconds` -/

section
variable {L D : Type}

/-- Where a call of `parse_leap_seconds` stands — skyfield/io_timescale.py:83-89; `D` is the type of dates, `none` the `ValueError`
of `strptime`.  The first constructor is a thread that has its line and is about to take the lock. -/
inductive ParsePc (L D : Type) where
  | before
  | locked
  | saved (original : L)
  | inC (original : L)
  | parsed (original : L) (result : Option D)
  | restored (result : Option D)
  | done (result : Option D)

/-- What the threads share: the lock's holder, and the locale of the process.
Used at skyfield/io_timescale.py:8 and 83-89. -/
structure Parsers (L D : Type) where
  pc : ℕ → ParsePc L D
  holder : Option ℕ
  locale : L

/-- One step of thread `i`, which parses `line i`.  `strptime` depends on the locale of the process.  A thread that finds the lock taken
waits: its step changes nothing.  The `finally` restores the locale whether or not `strptime` raised, and so does the end of the
`with` block for the lock. Used at skyfield/io_timescale.py:83-89. -/
def Parsers.step {X : Type} (strptime : L → X → Option D) (cLocale : L) (line : ℕ → X) (s : Parsers L D) (i : ℕ) : Parsers L D :=
  let go (pc : ParsePc L D) : ℕ → ParsePc L D := fun j => if j = i then pc else s.pc j
  match s.pc i with
  -- `with _lock:` (83)
  | .before => if s.holder.isSome then s else { s with pc := go .locked, holder := some i }
  -- `original_locale = locale.setlocale(locale.LC_ALL)` (84)
  | .locked => { s with pc := go (.saved s.locale) }
  -- `locale.setlocale(locale.LC_ALL, 'C')` (85)
  | .saved o => { s with pc := go (.inC o), locale := cLocale }
  -- `dt = datetime.strptime(...)` (87)
  | .inC o => { s with pc := go (.parsed o (strptime s.locale (line i))) }
  -- `locale.setlocale(locale.LC_ALL, original_locale)` (89)
  | .parsed o r => { s with pc := go (.restored r), locale := o }
  -- the end of the `with` block
  | .restored r => { s with pc := go (.done r), holder := none }
  | .done _ => s

/-- An execution. Used at skyfield/io_timescale.py:83-89. -/
def Parsers.run {X : Type} (strptime : L → X → Option D) (cLocale : L) (line : ℕ → X) (s : Parsers L D) (schedule : List ℕ) :
    Parsers L D :=
  schedule.foldl (Parsers.step strptime cLocale line) s

/-- Before any thread has started, in a process whose locale is `locale`. Used at skyfield/io_timescale.py:83-89. -/
def Parsers.start (locale : L) : Parsers L D := { pc := fun _ => .before, holder := none, locale := locale }

end
end Skyfield
