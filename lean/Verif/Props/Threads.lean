import Verif.Model.Threads
import Verif.Props.Reify
import Mathlib.Algebra.BigOperators.Group.Finset.Basic
import Mathlib.Algebra.Order.BigOperators.Group.Finset
import Mathlib.Tactic.Linarith

/-
C85: threads.
-/
namespace Skyfield

section
variable {N V : Type} [DecidableEq N]

/-- The number of steps a method body takes at most, if reading attribute `n` takes `a n` at most. -/
def Comp.cost (a : N → ℕ) (val : N → V) (c0 : Cache N V) : Comp N V → ℕ
  | .ret _ => 1
  | .read n k => 1 + a n + (k (val n)).cost a val c0
  | .peek n k => 1 + max ((k (c0 n)).cost a val c0) ((k (some (val n))).cost a val c0)

omit [DecidableEq N] in
theorem Comp.cost_congr {a a' : N → ℕ} {val : N → V} {c0 : Cache N V} {rank : N → ℕ} {r : ℕ} (h : ∀ n, rank n < r → a n = a' n)
    (b : Comp N V) : b.ReadsBelow rank r → b.cost a val c0 = b.cost a' val c0 := by
  induction b with
  | ret v => intro _; rfl
  | read n k ih =>
    intro hb
    simp only [Comp.cost, h n hb.1, ih _ (hb.2 _)]
  | peek n k ih =>
    intro hb
    simp only [Comp.cost, ih _ (hb _)]

/-- The number of steps a read takes at most, `fuel` levels deep. -/
def attrCost (method : N → Comp N V) (val : N → V) (c0 : Cache N V) : ℕ → N → ℕ
  | 0, _ => 0
  | f + 1, n => 1 + (method n).cost (attrCost method val c0 f) val c0

omit [DecidableEq N] in
theorem attrCost_stable (method : N → Comp N V) (val : N → V) (c0 : Cache N V) {rank : N → ℕ}
    (hr : ∀ n, (method n).ReadsBelow rank (rank n)) (f : ℕ) :
    ∀ f' n, rank n < f → rank n < f' → attrCost method val c0 f n = attrCost method val c0 f' n := by
  induction f with
  | zero => intro f' n h; omega
  | succ f ih =>
    intro f' n h h'
    obtain ⟨g, rfl⟩ : ∃ g, f' = g + 1 := ⟨f' - 1, by omega⟩
    simp only [attrCost]
    rw [Comp.cost_congr (rank := rank) (r := rank n) (fun m hm => ih g m (by omega) (by omega)) (method n) (hr n)]

omit [DecidableEq N] in
theorem exists_attrCost (method : N → Comp N V) (val : N → V) (c0 : Cache N V) {rank : N → ℕ}
    (hr : ∀ n, (method n).ReadsBelow rank (rank n)) : ∃ a : N → ℕ, ∀ n, a n = 1 + (method n).cost a val c0 := by
  refine ⟨fun n => attrCost method val c0 (rank n + 1) n, fun n => ?_⟩
  simp only [attrCost]
  rw [Comp.cost_congr (rank := rank) (r := rank n)
    (fun m hm => attrCost_stable method val c0 hr (rank n) (rank m + 1) m hm (by omega)) (method n) (hr n)]
  simp only [attrCost]

/-- The callers that wait for the value of `n` will compute what they should. -/
def CallersOk (val : N → V) (c0 : Cache N V) (rank : N → ℕ) (ran : List N) : N → Callers N V → Prop
  | _, [] => True
  | n, (m, k) :: ks => rank n < rank m ∧ c0 m = none ∧ m ∉ ran ∧ (k (val n)).denote val c0 = val m ∧ (k (val n)).PeeksAgree val c0 ∧
      (k (val n)).ReadsBelow rank (rank m) ∧ CallersOk val c0 rank ran m ks

omit [DecidableEq N] in
theorem CallersOk.append {val : N → V} {c0 : Cache N V} {rank : N → ℕ} {ran : List N} {x : N} (ks : Callers N V) :
    ∀ {n}, CallersOk val c0 rank ran n ks → rank x ≤ rank n → CallersOk val c0 rank (ran ++ [x]) n ks := by
  induction ks with
  | nil => intro n _ _; trivial
  | cons p ks ih =>
    obtain ⟨m, k⟩ := p
    rintro n ⟨h1, h2, h3, h4, h5, h6, h7⟩ hx
    refine ⟨h1, h2, ?_, h4, h5, h6, ih h7 (by omega)⟩
    rw [List.mem_append, List.mem_singleton]
    rintro (h | rfl)
    · exact h3 h
    · omega

/-- The attribute the program asked for, at the bottom of the callers. -/
def rootOf : N → Callers N V → N
  | n, [] => n
  | _, (m, _) :: ks => rootOf m ks

def Control.Ok (val : N → V) (c0 : Cache N V) (rank : N → ℕ) (ran : List N) : Control N V → Prop
  | .idle => True
  | .looking n ks => CallersOk val c0 rank ran n ks
  | .running n b ks => c0 n = none ∧ n ∉ ran ∧ b.denote val c0 = val n ∧ b.PeeksAgree val c0 ∧ b.ReadsBelow rank (rank n) ∧
      CallersOk val c0 rank ran n ks

/-- The attribute the program is waiting for. -/
def Control.pending : Control N V → List N
  | .idle => []
  | .looking n ks => [rootOf n ks]
  | .running n _ ks => [rootOf n ks]

structure Reader.Ok (val : N → V) (c0 : Cache N V) (rank : N → ℕ) (wants : List N) (c : Cache N V) (r : Reader N V) : Prop where
  control : r.control.Ok val c0 rank r.ran
  sofar : r.got ++ (r.control.pending ++ r.todo).map val = wants.map val
  nodup : r.ran.Nodup
  ran : ∀ n ∈ r.ran, c n ≠ none
  new : ∀ n ∈ r.ran, c0 n = none

def callersCost (a : N → ℕ) (val : N → V) (c0 : Cache N V) : N → Callers N V → ℕ
  | _, [] => 0
  | n, (m, k) :: ks => (k (val n)).cost a val c0 + callersCost a val c0 m ks

def Control.cost (a : N → ℕ) (val : N → V) (c0 : Cache N V) : Control N V → ℕ
  | .idle => 0
  | .looking n ks => a n + callersCost a val c0 n ks
  | .running n b ks => b.cost a val c0 + callersCost a val c0 n ks

def Reader.cost (a : N → ℕ) (val : N → V) (c0 : Cache N V) (r : Reader N V) : ℕ :=
  (r.todo.map fun n => 1 + a n).sum + r.control.cost a val c0

omit [DecidableEq N] in
theorem Reader.deliver_spec {val : N → V} {c0 : Cache N V} {rank : N → ℕ} {a : N → ℕ} (r : Reader N V) (n : N) (ks : Callers N V)
    (h : CallersOk val c0 rank r.ran n ks) :
    (r.deliver (val n) ks).control.Ok val c0 rank r.ran ∧ (r.deliver (val n) ks).ran = r.ran ∧
      (r.deliver (val n) ks).got ++ ((r.deliver (val n) ks).control.pending ++ r.todo).map val =
        r.got ++ (rootOf n ks :: r.todo).map val ∧ (r.deliver (val n) ks).todo = r.todo ∧
      (r.deliver (val n) ks).control.cost a val c0 = callersCost a val c0 n ks := by
  cases ks with
  | nil => exact ⟨trivial, rfl, by simp [Reader.deliver, Control.pending, rootOf], rfl, rfl⟩
  | cons p ks =>
    obtain ⟨m, k⟩ := p
    obtain ⟨h1, h2, h3, h4, h5, h6, h7⟩ := h
    exact ⟨⟨h2, h3, h4, h5, h6, h7⟩, rfl, rfl, rfl, rfl⟩

/-- Later dictionaries hold at least as much. -/
def CacheLe (c c' : Cache N V) : Prop := ∀ n, c n ≠ none → c' n ≠ none

theorem Reader.step_ok {val : N → V} {c0 : Cache N V} {rank : N → ℕ} {a : N → ℕ} (method : N → Comp N V) (hf : IsFresh method c0 val)
    (hr : ∀ n, (method n).ReadsBelow rank (rank n)) (hp : ∀ n, (method n).PeeksAgree val c0)
    (ha : ∀ n, a n = 1 + (method n).cost a val c0) {wants : List N} {c : Cache N V} (hc : CacheOk val c0 c) {r : Reader N V}
    (h : r.Ok val c0 rank wants c) :
    (r.step method c).1.Ok val c0 rank wants (r.step method c).2 ∧ CacheOk val c0 (r.step method c).2 ∧ CacheLe c (r.step method c).2 ∧
      (r.step method c).1.cost a val c0 ≤ r.cost a val c0 - 1 := by
  obtain ⟨todo, got, control, ran⟩ := r
  obtain ⟨h1, h2, h3, h4, h5⟩ := h
  simp only at h1 h2 h3 h4 h5
  cases control with
  | idle =>
    cases todo with
    | nil => exact ⟨⟨h1, h2, h3, h4, h5⟩, hc, fun _ => id, Nat.le_refl _⟩
    | cons n rest =>
      refine ⟨⟨trivial, ?_, h3, h4, h5⟩, hc, fun _ => id, ?_⟩
      · simpa [Reader.step, Control.pending, rootOf] using h2
      · simp only [Reader.step, Reader.cost, Control.cost, callersCost, List.map_cons, List.sum_cons]
        omega
  | looking n ks =>
    cases hcn : c n with
    | some v =>
      obtain rfl := hc.fresh n v hcn
      have e : (Reader.mk todo got (.looking n ks) ran).step method c =
          ((Reader.mk todo got (.looking n ks) ran).deliver (val n) ks, c) := by simp only [Reader.step, hcn]
      obtain ⟨d1, d2, d3, d4, d5⟩ := Reader.deliver_spec (a := a) (Reader.mk todo got (.looking n ks) ran) n ks h1
      rw [e]
      refine ⟨⟨by rw [d2]; exact d1, ?_, by rw [d2]; exact h3, by rw [d2]; exact h4, by rw [d2]; exact h5⟩, hc, fun _ => id, ?_⟩
      · rw [d4, d3]
        exact h2
      · rw [Reader.cost, d4, d5]
        simp only [Reader.cost, Control.cost]
        have := ha n
        omega
    | none =>
      have h0 : c0 n = none := by
        cases h : c0 n with
        | none => rfl
        | some v => rw [hc.keeps n v h] at hcn; cases hcn
      have hval : (method n).denote val c0 = val n := by rw [hf n, h0]
      have e : (Reader.mk todo got (.looking n ks) ran).step method c =
          (Reader.mk todo got (.running n (method n) ks) ran, c) := by simp only [Reader.step, hcn]
      rw [e]
      refine ⟨⟨⟨h0, fun hn => h4 n hn hcn, hval, hp n, hr n, h1⟩, h2, h3, h4, h5⟩, hc, fun _ => id, ?_⟩
      simp only [Reader.cost, Control.cost]
      have := ha n
      omega
  | running n b ks =>
    obtain ⟨k1, k2, k3, k4, k5, k6⟩ := h1
    cases b with
    | ret v =>
      have hv : v = val n := k3
      subst hv
      have e : (Reader.mk todo got (.running n (.ret (val n)) ks) ran).step method c =
          ((Reader.mk todo got (.running n (.ret (val n)) ks) (ran ++ [n])).deliver (val n) ks, c.set n (val n)) := rfl
      obtain ⟨d1, d2, d3, d4, d5⟩ := Reader.deliver_spec (a := a) (Reader.mk todo got (.running n (.ret (val n)) ks) (ran ++ [n])) n ks
        (k6.append ks (Nat.le_refl _))
      rw [e]
      have hle : CacheLe c (c.set n (val n)) := by
        intro m hm
        by_cases hmn : m = n
        · simp [Cache.set, hmn]
        · simpa [Cache.set, hmn] using hm
      refine ⟨⟨by rw [d2]; exact d1, ?_, ?_, ?_, ?_⟩, ⟨?_, ?_⟩, hle, ?_⟩
      · rw [d4, d3]
        exact h2
      · rw [d2, List.nodup_append]
        exact ⟨h3, by simp, by rintro a ha b hb rfl; simp at hb; subst hb; exact k2 ha⟩
      · rw [d2]
        intro m hm
        rcases List.mem_append.1 hm with hm | hm
        · exact hle m (h4 m hm)
        · rw [List.mem_singleton] at hm; subst hm; simp [Cache.set]
      · rw [d2]
        intro m hm
        rcases List.mem_append.1 hm with hm | hm
        · exact h5 m hm
        · rw [List.mem_singleton] at hm; subst hm; exact k1
      · intro m v hm
        have : m ≠ n := by rintro rfl; rw [k1] at hm; cases hm
        simp only [Cache.set, if_neg this]
        exact hc.keeps m v hm
      · intro m v hm
        by_cases hmn : m = n
        · subst hmn; simp [Cache.set] at hm; exact hm.symm
        · simp only [Cache.set, if_neg hmn] at hm; exact hc.fresh m v hm
      · rw [Reader.cost, d4, d5]
        simp only [Reader.cost, Control.cost, Comp.cost]
        omega
    | read m k =>
      refine ⟨⟨⟨k5.1, k1, k2, k3, k4, k5.2 _, k6⟩, h2, h3, h4, h5⟩, hc, fun _ => id, ?_⟩
      simp only [Reader.step, Reader.cost, Control.cost, Comp.cost, callersCost]
      omega
    | peek m k =>
      have key : (k (c m)).denote val c0 = val n ∧ (k (c m)).PeeksAgree val c0 ∧
          (k (c m)).cost a val c0 ≤ max ((k (c0 m)).cost a val c0) ((k (some (val m))).cost a val c0) := by
        cases h0 : c0 m with
        | some v =>
          rw [hc.keeps m v h0]
          have q := k4.1
          rw [h0] at q
          have q2 := k3
          simp only [Comp.denote, h0] at q2
          exact ⟨q2, q, Nat.le_max_left _ _⟩
        | none =>
          have q := k4.1
          rw [h0] at q
          have q2 := k3
          simp only [Comp.denote, h0] at q2
          cases h1 : c m with
          | none => exact ⟨q2, q, Nat.le_max_left _ _⟩
          | some v =>
            obtain rfl := hc.fresh m v h1
            obtain ⟨p1, p2⟩ := k4.2 h0
            exact ⟨by rw [p2]; exact q2, p1, Nat.le_max_right _ _⟩
      refine ⟨⟨⟨k1, k2, key.1, key.2.1, k5 _, k6⟩, h2, h3, h4, h5⟩, hc, fun _ => id, ?_⟩
      simp only [Reader.step, Reader.cost, Control.cost, Comp.cost]
      have := key.2.2
      omega

omit [DecidableEq N] in
theorem Reader.Ok.mono {val : N → V} {c0 : Cache N V} {rank : N → ℕ} {wants : List N} {c c' : Cache N V} {r : Reader N V}
    (h : r.Ok val c0 rank wants c) (hc : CacheLe c c') : r.Ok val c0 rank wants c' :=
  ⟨h.control, h.sofar, h.nodup, fun n hn => hc n (h.ran n hn), h.new⟩

theorem Readers.run_ok {val : N → V} {c0 : Cache N V} {rank : N → ℕ} {a : N → ℕ} (method : N → Comp N V) (hf : IsFresh method c0 val)
    (hr : ∀ n, (method n).ReadsBelow rank (rank n)) (hp : ∀ n, (method n).PeeksAgree val c0)
    (ha : ∀ n, a n = 1 + (method n).cost a val c0) {wants : ℕ → List N} (schedule : List ℕ) :
    ∀ s : Readers N V, CacheOk val c0 s.cache → (∀ i, (s.thread i).Ok val c0 rank (wants i) s.cache) →
      CacheOk val c0 (s.run method schedule).cache ∧
      ∀ i, ((s.run method schedule).thread i).Ok val c0 rank (wants i) (s.run method schedule).cache ∧
        ((s.run method schedule).thread i).cost a val c0 ≤ (s.thread i).cost a val c0 - schedule.count i := by
  induction schedule with
  | nil => intro s hc hs; exact ⟨hc, fun i => ⟨hs i, Nat.le_refl _⟩⟩
  | cons j rest ih =>
    intro s hc hs
    obtain ⟨q1, q2, q3, q4⟩ := Reader.step_ok (a := a) method hf hr hp ha hc (hs j)
    have hs' : ∀ i, ((s.step method j).thread i).Ok val c0 rank (wants i) (s.step method j).cache := by
      intro i
      by_cases hij : i = j
      · subst hij
        simpa [Readers.step] using q1
      · simpa [Readers.step, hij] using (hs i).mono q3
    obtain ⟨r1, r2⟩ := ih (s.step method j) q2 hs'
    refine ⟨r1, fun i => ⟨(r2 i).1, Nat.le_trans (r2 i).2 ?_⟩⟩
    by_cases hij : i = j
    · subst hij
      simp only [Readers.step, if_pos, List.count_cons_self]
      omega
    · rw [List.count_cons_of_ne (Ne.symm hij)]
      simp [Readers.step, hij]

omit [DecidableEq N] in
theorem Readers.start_ok {val : N → V} {c0 : Cache N V} {rank : N → ℕ} {method : N → Comp N V} (hf : IsFresh method c0 val)
    (wants : ℕ → List N) : CacheOk val c0 c0 ∧ ∀ i, ((Readers.start wants c0).thread i).Ok val c0 rank (wants i) c0 := by
  refine ⟨⟨fun _ _ => id, fun n v h => ?_⟩, fun i => ⟨trivial, by simp [Readers.start, Control.pending], by simp [Readers.start],
    by simp [Readers.start], by simp [Readers.start]⟩⟩
  rw [hf n, h]

/-- **C85.** Any number of threads read the cached attributes of one object, in any interleaving.  At every moment, what a thread has
got so far is the beginning of the list of freshly computed values of the attributes it asked for; the dictionary holds what
was set when the object was built and, besides, only freshly computed values; and no thread runs a method twice, nor one whose
value was set when the object was built. -/
theorem C85_values {val : N → V} {c0 : Cache N V} {rank : N → ℕ} (method : N → Comp N V) (hf : IsFresh method c0 val)
    (hr : ∀ n, (method n).ReadsBelow rank (rank n)) (hp : ∀ n, (method n).PeeksAgree val c0) (wants : ℕ → List N)
    (schedule : List ℕ) :
    let s := (Readers.start wants c0).run method schedule
    (∀ i, (s.thread i).got <+: (wants i).map val ∧ (s.thread i).ran.Nodup ∧ ∀ n ∈ (s.thread i).ran, c0 n = none) ∧
      (∀ n v, c0 n = some v → s.cache n = some v) ∧ (∀ n v, s.cache n = some v → v = val n) := by
  intro s
  obtain ⟨a, ha⟩ := exists_attrCost method val c0 hr
  obtain ⟨h1, h2⟩ := Readers.start_ok (rank := rank) hf wants
  obtain ⟨k1, k2⟩ := Readers.run_ok (a := a) method hf hr hp ha schedule (Readers.start wants c0) h1 h2
  exact ⟨fun i => ⟨⟨_, (k2 i).1.sofar⟩, (k2 i).1.nodup, (k2 i).1.new⟩, k1.keeps, k1.fresh⟩

/-- **C85.** No thread waits for another: for each list of attributes there is a number of steps after which a thread that reads them has
all their values, whatever the other threads read and however the steps are interleaved. -/
theorem C85_no_waiting {val : N → V} {c0 : Cache N V} {rank : N → ℕ} (method : N → Comp N V) (hf : IsFresh method c0 val)
    (hr : ∀ n, (method n).ReadsBelow rank (rank n)) (hp : ∀ n, (method n).PeeksAgree val c0) :
    ∃ steps : List N → ℕ, ∀ (wants : ℕ → List N) (schedule : List ℕ) (i : ℕ), steps (wants i) ≤ schedule.count i →
      (((Readers.start wants c0).run method schedule).thread i).got = (wants i).map val := by
  obtain ⟨a, ha⟩ := exists_attrCost method val c0 hr
  refine ⟨fun l => (l.map fun n => 1 + a n).sum, fun wants schedule i hi => ?_⟩
  obtain ⟨h1, h2⟩ := Readers.start_ok (rank := rank) hf wants
  obtain ⟨-, k2⟩ := Readers.run_ok (a := a) method hf hr hp ha schedule (Readers.start wants c0) h1 h2
  obtain ⟨k, hcost⟩ := k2 i
  have hz : (((Readers.start wants c0).run method schedule).thread i).cost a val c0 = 0 := by
    have : ((Readers.start wants c0).thread i).cost a val c0 = ((wants i).map fun n => 1 + a n).sum := by
      simp [Reader.cost, Readers.start, Control.cost]
    simp only at hi
    omega
  generalize ((Readers.start wants c0).run method schedule).thread i = r at k hz ⊢
  obtain ⟨todo, got, control, ran⟩ := r
  have hpos : ∀ b : Comp N V, 0 < b.cost a val c0 := by
    intro b
    cases b <;> simp only [Comp.cost] <;> omega
  have e1 : todo = [] := by
    cases todo with
    | nil => rfl
    | cons n l => simp only [Reader.cost, List.map_cons, List.sum_cons] at hz; omega
  have e2 : control = .idle := by
    cases control with
    | idle => rfl
    | looking n ks => simp only [Reader.cost, Control.cost] at hz; have := ha n; omega
    | running n b ks => simp only [Reader.cost, Control.cost] at hz; have := hpos b; omega
  subst e1; subst e2
  simpa [Control.pending] using k.sofar

end

/-- The attributes of `Time` meet the hypotheses. -/
theorem timeMethod_ok {V : Type} (f : TimeFns V) (c0 : Cache TimeAttr V) : IsFresh (timeMethod f) c0 (timeVal f c0) ∧
    (∀ n, (timeMethod f n).ReadsBelow timeRank (timeRank n)) ∧ ∀ n, (timeMethod f n).PeeksAgree (timeVal f c0) c0 := by
  refine ⟨?_, ?_, ?_⟩
  · intro n
    cases n <;> (cases h : c0 _ <;> simp only [timeVal, timeMethod, Comp.denote, h, Option.getD_none, Option.getD_some])
    cases h1 : c0 .P <;> simp only [Comp.denote, timeMBody, Option.getD_none, Option.getD_some] <;>
      (cases h2 : c0 .N <;> simp only [Comp.denote, Option.getD_none, Option.getD_some])
  · intro n
    cases n <;> simp [timeMethod, Comp.ReadsBelow, timeRank]
    rintro (_ | p) <;> simp [timeMBody, Comp.ReadsBelow, timeRank]
    · intro _
      rintro (_ | q) <;> simp [Comp.ReadsBelow, timeRank]
    · rintro (_ | q) <;> simp [Comp.ReadsBelow, timeRank]
  · intro n
    cases n <;> simp only [timeMethod, Comp.PeeksAgree]
    cases h1 : c0 .P <;> cases h2 : c0 .N <;> simp [timeMBody, Comp.PeeksAgree, Comp.denote, timeVal, h1, h2]

/-- **C85.** Threads that read attributes of one `Time`: all get the values of `timeVal`, in any interleaving, none waiting for another,
and none computing an attribute twice. -/
theorem C85_time {V : Type} (f : TimeFns V) (c0 : Cache TimeAttr V) :
    (∀ (wants : ℕ → List TimeAttr) (schedule : List ℕ) (i : ℕ),
      (((Readers.start wants c0).run (timeMethod f) schedule).thread i).got <+: (wants i).map (timeVal f c0) ∧
      (((Readers.start wants c0).run (timeMethod f) schedule).thread i).ran.Nodup) ∧
    ∃ steps : List TimeAttr → ℕ, ∀ (wants : ℕ → List TimeAttr) (schedule : List ℕ) (i : ℕ), steps (wants i) ≤ schedule.count i →
      (((Readers.start wants c0).run (timeMethod f) schedule).thread i).got = (wants i).map (timeVal f c0) := by
  obtain ⟨h1, h2, h3⟩ := timeMethod_ok f c0
  exact ⟨fun wants schedule i => ⟨((C85_values _ h1 h2 h3 wants schedule).1 i).1, ((C85_values _ h1 h2 h3 wants schedule).1 i).2.1⟩,
    C85_no_waiting _ h1 h2 h3⟩

/-- The threads of the next example: number 0 reads `dut1`, number 1 `utc`, step by step in turn. -/
def exampleReaders : Readers TimeAttr String :=
  (Readers.start (fun i => if i = 0 then [.dut1] else [.utc]) (fun _ => none)).run (timeMethod (V := String)
      { taiFraction := "a", tdbFraction := "b", deltaT := "dt", iau2000a := "n", J := "J", ut1Fraction := fun d => "u" ++ d,
        taiSeconds := fun t => "s" ++ t, meanObliquity := fun t => "o" ++ t, precession := fun t => "P" ++ t,
        nutation := fun a o => "N" ++ a ++ o, mxmxmB := fun n p => n ++ "*" ++ p ++ "*B", transpose := fun m => m ++ "T",
        utc := fun s => "utc" ++ s, dut1 := fun s d => s ++ "-" ++ d, gmst := fun u t => "g" ++ u ++ t,
        gast := fun a o g => "G" ++ a ++ o ++ g, cirs := fun u g m => "C" ++ u ++ g ++ m })
    (List.replicate 20 [0, 1]).flatten

/-- Both threads need `tai_seconds`, and here both compute it. -/
example : (exampleReaders.thread 0).got = ["sa-dt"] ∧ (exampleReaders.thread 1).got = ["utcsa"] ∧
    (exampleReaders.thread 0).ran = [.taiFraction, .taiSeconds, .deltaT, .dut1] ∧
    (exampleReaders.thread 1).ran = [.taiFraction, .taiSeconds, .utc] := by
  decide +kernel

/-! ### The lock of `parse_leap_seconds` -/

section
variable {L D X : Type}

/-- Specification: the thread is between taking the lock and releasing it. -/
def ParsePc.Inside : ParsePc L D → Prop
  | .before => False
  | .done _ => False
  | _ => True

/-- What holds of a thread, given the locale of the process at the start and now. -/
def ParsePc.Ok (res : Option D) (cLocale orig now : L) : ParsePc L D → Prop
  | .before => True
  | .locked => now = orig
  | .saved o => o = orig ∧ now = orig
  | .inC o => o = orig ∧ now = cLocale
  | .parsed o r => o = orig ∧ r = res
  | .restored r => r = res ∧ now = orig
  | .done r => r = res

structure Parsers.Ok (strptime : L → X → Option D) (cLocale : L) (line : ℕ → X) (orig : L) (s : Parsers L D) : Prop where
  inside : ∀ i, (s.pc i).Inside ↔ s.holder = some i
  free : s.holder = none → s.locale = orig
  each : ∀ i, (s.pc i).Ok (strptime cLocale (line i)) cLocale orig s.locale

theorem Parsers.step_ok {strptime : L → X → Option D} {cLocale : L} {line : ℕ → X} {orig : L} {s : Parsers L D}
    (h : s.Ok strptime cLocale line orig) (i : ℕ) : (s.step strptime cLocale line i).Ok strptime cLocale line orig := by
  obtain ⟨h1, h2, h3⟩ := h
  have hi := h3 i
  have hin := h1 i
  -- threads outside do not care about the locale
  have hout : ∀ j, j ≠ i → s.holder = some i → ∀ l, (s.pc j).Ok (strptime cLocale (line j)) cLocale orig l := by
    intro j hj hh l
    have a := h1 j
    have b := h3 j
    rw [hh] at a
    have hn : ¬ (s.pc j).Inside := fun hx => hj (Option.some.inj (a.1 hx)).symm
    cases hp : s.pc j <;> rw [hp] at hn b <;> simp_all [ParsePc.Inside, ParsePc.Ok]
  cases hp : s.pc i with
  | before =>
    rw [hp] at hi hin
    by_cases hh : s.holder.isSome
    · have e : s.step strptime cLocale line i = s := by simp [Parsers.step, hp, hh]
      rw [e]; exact ⟨h1, h2, h3⟩
    · have hn : s.holder = none := by simpa using hh
      have e : s.step strptime cLocale line i = { s with pc := fun j => if j = i then .locked else s.pc j, holder := some i } := by
        simp [Parsers.step, hp, hn]
      rw [e]
      refine ⟨fun j => ?_, fun hc => by simp at hc, fun j => ?_⟩
      · by_cases hj : j = i
        · simp [hj, ParsePc.Inside]
        · simp only [if_neg hj]
          rw [h1 j, hn]
          simp [Ne.symm hj]
      · by_cases hj : j = i
        · simp [hj, ParsePc.Ok, h2 hn]
        · simp only [if_neg hj]; exact h3 j
  | done r =>
    have e : s.step strptime cLocale line i = s := by simp [Parsers.step, hp]
    rw [e]; exact ⟨h1, h2, h3⟩
  | restored r =>
    rw [hp] at hi hin
    have hh : s.holder = some i := hin.1 trivial
    have e : s.step strptime cLocale line i = { s with pc := fun j => if j = i then .done r else s.pc j, holder := none } := by
      simp [Parsers.step, hp]
    rw [e]
    refine ⟨fun j => ?_, fun _ => hi.2, fun j => ?_⟩
    · by_cases hj : j = i
      · simp [hj, ParsePc.Inside]
      · simp only [if_neg hj]
        rw [h1 j, hh]
        simp [Ne.symm hj]
    · by_cases hj : j = i
      · subst hj; simp only [if_pos]; exact hi.1
      · simp only [if_neg hj]; exact h3 j
  | locked =>
    rw [hp] at hi hin
    have hh : s.holder = some i := hin.1 trivial
    have e : s.step strptime cLocale line i = { s with pc := fun j => if j = i then .saved s.locale else s.pc j } := by
      simp [Parsers.step, hp]
    rw [e]
    refine ⟨fun j => ?_, fun hc => by simp [hh] at hc, fun j => ?_⟩
    · by_cases hj : j = i
      · subst hj; simp [ParsePc.Inside, hh]
      · simp only [if_neg hj]; exact h1 j
    · by_cases hj : j = i
      · subst hj; simp only [if_pos]; exact ⟨hi, hi⟩
      · simp only [if_neg hj]; exact h3 j
  | saved o =>
    rw [hp] at hi hin
    have hh : s.holder = some i := hin.1 trivial
    have e : s.step strptime cLocale line i = { s with pc := fun j => if j = i then .inC o else s.pc j, locale := cLocale } := by
      simp [Parsers.step, hp]
    rw [e]
    refine ⟨fun j => ?_, fun hc => by simp [hh] at hc, fun j => ?_⟩
    · by_cases hj : j = i
      · subst hj; simp [ParsePc.Inside, hh]
      · simp only [if_neg hj]; exact h1 j
    · by_cases hj : j = i
      · subst hj; simp only [if_pos]; exact ⟨hi.1, rfl⟩
      · simp only [if_neg hj]; exact hout j hj hh _
  | inC o =>
    rw [hp] at hi hin
    have hh : s.holder = some i := hin.1 trivial
    have e : s.step strptime cLocale line i =
        { s with pc := fun j => if j = i then .parsed o (strptime s.locale (line i)) else s.pc j } := by
      simp [Parsers.step, hp]
    rw [e]
    refine ⟨fun j => ?_, fun hc => by simp [hh] at hc, fun j => ?_⟩
    · by_cases hj : j = i
      · subst hj; simp [ParsePc.Inside, hh]
      · simp only [if_neg hj]; exact h1 j
    · by_cases hj : j = i
      · subst hj; simp only [if_pos]; exact ⟨hi.1, by rw [hi.2]⟩
      · simp only [if_neg hj]; exact h3 j
  | parsed o r =>
    rw [hp] at hi hin
    have hh : s.holder = some i := hin.1 trivial
    have e : s.step strptime cLocale line i =
        { s with pc := fun j => if j = i then .restored r else s.pc j, locale := o } := by
      simp [Parsers.step, hp]
    rw [e]
    refine ⟨fun j => ?_, fun hc => by simp [hh] at hc, fun j => ?_⟩
    · by_cases hj : j = i
      · subst hj; simp [ParsePc.Inside, hh]
      · simp only [if_neg hj]; exact h1 j
    · by_cases hj : j = i
      · subst hj; simp only [if_pos]; exact ⟨hi.2, hi.1⟩
      · simp only [if_neg hj]; exact hout j hj hh _

theorem Parsers.run_ok {strptime : L → X → Option D} {cLocale : L} {line : ℕ → X} {orig : L} (schedule : List ℕ) :
    ∀ s : Parsers L D, s.Ok strptime cLocale line orig → (s.run strptime cLocale line schedule).Ok strptime cLocale line orig := by
  induction schedule with
  | nil => intro s h; exact h
  | cons i rest ih => intro s h; exact ih _ (Parsers.step_ok h i)

theorem Parsers.start_ok (strptime : L → X → Option D) (cLocale : L) (line : ℕ → X) (orig : L) :
    (Parsers.start (D := D) orig).Ok strptime cLocale line orig :=
  ⟨fun i => by simp [Parsers.start, ParsePc.Inside], fun _ => rfl, fun i => trivial⟩

/-- **C85.** Any number of threads read leap second files at once, in any interleaving and whether or not their lines can be parsed.  Each
line is parsed as in the locale 'C', whatever the locale of the process; at most one thread is inside the locked section; and
whenever none is, the locale is what it was at the start. -/
theorem C85_locale (strptime : L → X → Option D) (cLocale : L) (line : ℕ → X) (orig : L) (schedule : List ℕ) :
    let s := (Parsers.start orig).run strptime cLocale line schedule
    (∀ i r, s.pc i = .done r → r = strptime cLocale (line i)) ∧
    (∀ i j, (s.pc i).Inside → (s.pc j).Inside → i = j) ∧
    ((∀ i, ¬ (s.pc i).Inside) → s.locale = orig) := by
  intro s
  obtain ⟨h1, h2, h3⟩ := Parsers.run_ok schedule _ (Parsers.start_ok strptime cLocale line orig)
  refine ⟨fun i r h => ?_, fun i j hi hj => ?_, fun h => ?_⟩
  · have := h3 i
    rw [h] at this
    exact this
  · have a := (h1 i).1 hi
    rw [(h1 j).1 hj] at a
    exact (Option.some.inj a).symm
  · refine h2 ?_
    cases hh : ((Parsers.start orig).run strptime cLocale line schedule).holder with
    | none => rfl
    | some i => exact absurd ((h1 i).2 hh) (h i)

/-- The steps a thread still has to take. -/
def ParsePc.left : ParsePc L D → ℕ
  | .before => 6
  | .locked => 5
  | .saved _ => 4
  | .inC _ => 3
  | .parsed _ _ => 2
  | .restored _ => 1
  | .done _ => 0

def Parsers.left (n : ℕ) (s : Parsers L D) : ℕ := ∑ i ∈ Finset.range n, (s.pc i).left

theorem Parsers.step_other {strptime : L → X → Option D} {cLocale : L} {line : ℕ → X} {s : Parsers L D} {i j : ℕ} (h : j ≠ i) :
    (s.step strptime cLocale line i).pc j = s.pc j := by
  unfold Parsers.step
  cases s.pc i <;> simp [h]
  split <;> simp [h]

theorem Parsers.step_self {strptime : L → X → Option D} {cLocale : L} {line : ℕ → X} {s : Parsers L D} {i : ℕ} :
    (s.step strptime cLocale line i = s ∧ ((s.pc i).left = 0 ∨ ((s.pc i).left = 6 ∧ s.holder.isSome))) ∨
      ((s.step strptime cLocale line i).pc i).left < (s.pc i).left := by
  unfold Parsers.step
  cases h : s.pc i <;> simp [ParsePc.left]
  by_cases hh : s.holder.isSome
  · left
    obtain ⟨k, hk⟩ := Option.isSome_iff_exists.1 hh
    rw [hk]; simp
  · right; rw [if_neg hh]; simp

theorem Parsers.left_step {strptime : L → X → Option D} {cLocale : L} {line : ℕ → X} {n : ℕ} (s : Parsers L D) {i : ℕ} (hi : i < n) :
    (s.step strptime cLocale line i = s ∧ ((s.pc i).left = 0 ∨ ((s.pc i).left = 6 ∧ s.holder.isSome))) ∨
      (s.step strptime cLocale line i).left n < s.left n := by
  rcases Parsers.step_self (strptime := strptime) (cLocale := cLocale) (line := line) (s := s) (i := i) with h | h
  · exact Or.inl h
  · right
    refine Finset.sum_lt_sum (fun j _ => ?_) ⟨i, Finset.mem_range.2 hi, h⟩
    by_cases hj : j = i
    · subst hj; exact Nat.le_of_lt h
    · rw [Parsers.step_other hj]

theorem Parsers.left_run {strptime : L → X → Option D} {cLocale : L} {line : ℕ → X} {n : ℕ} (l : List ℕ) :
    ∀ s : Parsers L D, (∀ i ∈ l, i < n) → (s.run strptime cLocale line l).left n ≤ s.left n := by
  induction l with
  | nil => intro s _; exact Nat.le_refl _
  | cons i l ih =>
    intro s h
    refine Nat.le_trans (ih (s.step strptime cLocale line i) fun j hj => h j (by simp [hj])) ?_
    rcases Parsers.left_step (strptime := strptime) (cLocale := cLocale) (line := line) s (h i (by simp)) with h | h
    · rw [h.1]
    · exact Nat.le_of_lt h

/-- A round in which a thread inside the section takes a step makes progress. -/
theorem Parsers.round_inside {strptime : L → X → Option D} {cLocale : L} {line : ℕ → X} {n : ℕ} {k : ℕ} (l : List ℕ) :
    ∀ s : Parsers L D, (∀ i ∈ l, i < n) → k ∈ l → (s.pc k).left ≠ 0 → ((s.pc k).left = 6 → s.holder = none) →
      (s.run strptime cLocale line l).left n < s.left n := by
  induction l with
  | nil => intro s _ h; simp at h
  | cons i l ih =>
    intro s hl hk h0 h6
    have hrest : ∀ j ∈ l, j < n := fun j hj => hl j (by simp [hj])
    rcases Parsers.left_step (strptime := strptime) (cLocale := cLocale) (line := line) s (hl i (by simp)) with h | h
    · have hne : k ≠ i := by
        rintro rfl
        rcases h.2 with h2 | ⟨h2, h3⟩
        · exact h0 h2
        · rw [h6 h2] at h3; simp at h3
      have hk' : k ∈ l := by
        rcases List.mem_cons.1 hk with h | h
        · exact absurd h hne
        · exact h
      have := ih s hrest hk' h0 h6
      have e : s.run strptime cLocale line (i :: l) = s.run strptime cLocale line l := by
        show (s.step strptime cLocale line i).run strptime cLocale line l = _
        rw [h.1]
      rw [e]; exact this
    · exact Nat.lt_of_le_of_lt (Parsers.left_run l (s.step strptime cLocale line i) hrest) h

/-- A round in which each thread takes a step makes progress, unless all are done. -/
theorem Parsers.round {strptime : L → X → Option D} {cLocale : L} {line : ℕ → X} {orig : L} {n : ℕ} (l : List ℕ) (s : Parsers L D)
    (hs : s.Ok strptime cLocale line orig) (hout : ∀ i, n ≤ i → s.pc i = .before) (hl : ∀ i ∈ l, i < n) (hall : ∀ i < n, i ∈ l)
    (h0 : s.left n ≠ 0) : (s.run strptime cLocale line l).left n < s.left n := by
  cases hh : s.holder with
  | some k =>
    have hin := (hs.inside k).2 hh
    have hk : k < n := by
      by_contra hk
      rw [hout k (by omega)] at hin
      exact hin
    refine Parsers.round_inside (k := k) l s hl (hall k hk) ?_ ?_
    · intro h; cases hp : s.pc k <;> rw [hp] at h hin <;> simp_all [ParsePc.left, ParsePc.Inside]
    · intro h; cases hp : s.pc k <;> rw [hp] at h hin <;> simp_all [ParsePc.left, ParsePc.Inside]
  | none =>
    obtain ⟨k, hk, hk0⟩ : ∃ k ∈ Finset.range n, (s.pc k).left ≠ 0 := by
      by_contra hc
      push Not at hc
      exact h0 (Finset.sum_eq_zero hc)
    exact Parsers.round_inside (k := k) l s hl (hall k (Finset.mem_range.1 hk)) hk0 fun _ => hh

/-- **C85.** The lock never blocks for good: if `n` threads read leap second files and the scheduler lets each of them take at least one step in
every round, then after `6n` rounds each has its answer and the locale is what it was at the start. -/
theorem C85_no_deadlock (strptime : L → X → Option D) (cLocale : L) (line : ℕ → X) (orig : L) (n : ℕ) (rounds : List (List ℕ))
    (hl : ∀ l ∈ rounds, (∀ i ∈ l, i < n) ∧ ∀ i < n, i ∈ l) (hr : 6 * n ≤ rounds.length) :
    let s := (Parsers.start orig).run strptime cLocale line rounds.flatten
    (∀ i < n, s.pc i = .done (strptime cLocale (line i))) ∧ s.locale = orig := by
  intro s
  have key : ∀ (rounds : List (List ℕ)) (s : Parsers L D), (∀ l ∈ rounds, (∀ i ∈ l, i < n) ∧ ∀ i < n, i ∈ l) →
      s.Ok strptime cLocale line orig → (∀ i, n ≤ i → s.pc i = .before) →
      (s.run strptime cLocale line rounds.flatten).left n ≤ s.left n - rounds.length ∧
        ∀ i, n ≤ i → (s.run strptime cLocale line rounds.flatten).pc i = .before := by
    intro rounds
    induction rounds with
    | nil => intro s _ _ ho; exact ⟨Nat.le_refl _, ho⟩
    | cons l rounds ih =>
      intro s hl hs ho
      have hl1 := hl l (by simp)
      have ho' : ∀ i, n ≤ i → (s.run strptime cLocale line l).pc i = .before := by
        have : ∀ (l : List ℕ) (s : Parsers L D), (∀ i ∈ l, i < n) → (∀ i, n ≤ i → s.pc i = .before) →
            ∀ i, n ≤ i → (s.run strptime cLocale line l).pc i = .before := by
          intro l
          induction l with
          | nil => intro s _ h; exact h
          | cons j l ih =>
            intro s hj h
            refine ih (s.step strptime cLocale line j) (fun i hi => hj i (by simp [hi])) fun i hi => ?_
            rw [Parsers.step_other (by have := hj j (by simp); omega)]
            exact h i hi
        exact this l s hl1.1 ho
      have e : s.run strptime cLocale line (l :: rounds).flatten =
          (s.run strptime cLocale line l).run strptime cLocale line rounds.flatten := by
        simp [Parsers.run, List.foldl_append]
      obtain ⟨k1, k2⟩ := ih (s.run strptime cLocale line l) (fun l' hl' => hl l' (by simp [hl'])) (Parsers.run_ok l s hs) ho'
      rw [e]
      refine ⟨Nat.le_trans k1 ?_, k2⟩
      rw [List.length_cons]
      by_cases h0 : s.left n = 0
      · have := Parsers.left_run (strptime := strptime) (cLocale := cLocale) (line := line) l s hl1.1
        omega
      · have := Parsers.round l s hs ho hl1.1 hl1.2 h0
        omega
  have h0 := Parsers.start_ok strptime cLocale line orig
  obtain ⟨k1, k2⟩ := key rounds (Parsers.start orig) hl h0 fun _ _ => rfl
  have hstart : (Parsers.start (D := D) orig).left n = 6 * n := by
    simp [Parsers.left, Parsers.start, ParsePc.left, Nat.mul_comm]
  have hzero : s.left n = 0 := by
    have : s.left n ≤ 6 * n - rounds.length := by rw [← hstart]; exact k1
    omega
  have hdone : ∀ i < n, ∃ r, s.pc i = .done r := by
    intro i hi
    have := Finset.sum_eq_zero_iff.1 hzero i (Finset.mem_range.2 hi)
    cases hp : s.pc i <;> rw [hp] at this <;> simp_all [ParsePc.left]
  obtain ⟨q1, q2, q3⟩ := C85_locale strptime cLocale line orig rounds.flatten
  refine ⟨fun i hi => ?_, q3 fun i => ?_⟩
  · obtain ⟨r, hr⟩ := hdone i hi
    rw [hr, q1 i r hr]
  · by_cases hi : i < n
    · obtain ⟨r, hr⟩ := hdone i hi
      show ¬ (s.pc i).Inside
      rw [hr]; exact id
    · rw [k2 i (by omega)]; exact id

/-- The threads of the next example: two in turn, in a process with a German locale; the line of the second cannot be parsed. -/
def exampleParsers : Parsers String String :=
  (Parsers.start "de").run (fun loc (x : String) => if loc = "C" ∧ x = "28 June 2024" then some x else none) "C"
    (fun i => if i = 0 then "28 June 2024" else "28 Juni 2024") (List.replicate 12 [0, 1]).flatten

example : (exampleParsers.pc 0, exampleParsers.pc 1, exampleParsers.locale) = (.done (some "28 June 2024"), .done none, "de") := by
  rfl

end
end Skyfield
