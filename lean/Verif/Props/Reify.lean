import Verif.Model.Reify
import Mathlib.Order.Basic
import Mathlib.Tactic.Common

/-
C51: cached attributes.
-/
namespace Skyfield
variable {N V : Type} [DecidableEq N]

/-- Specification: what a method body returns if each attribute `n` it reads has the value `val n` and nothing is cached but what was set
when the object was built (`c0`). -/
def Comp.denote (val : N → V) (c0 : Cache N V) : Comp N V → V
  | .ret v => v
  | .read n k => (k (val n)).denote val c0
  | .peek n k => (k (c0 n)).denote val c0

/-- Specification: `val n` is the value of attribute `n` computed afresh: the value set when the object was built, if any, else what the
method returns. -/
def IsFresh (method : N → Comp N V) (c0 : Cache N V) (val : N → V) : Prop :=
  ∀ n, val n = match c0 n with
    | some v => v
    | none => (method n).denote val c0

/-- The body reads only attributes of rank below `r`. -/
def Comp.ReadsBelow (rank : N → ℕ) (r : ℕ) : Comp N V → Prop
  | .ret _ => True
  | .read n k => rank n < r ∧ ∀ v, (k v).ReadsBelow rank r
  | .peek _ k => ∀ o, (k o).ReadsBelow rank r

/-- Finding an attribute already in the dictionary makes no difference to the result. -/
def Comp.PeeksAgree (val : N → V) (c0 : Cache N V) : Comp N V → Prop
  | .ret _ => True
  | .read n k => (k (val n)).PeeksAgree val c0
  | .peek n k => (k (c0 n)).PeeksAgree val c0 ∧
      (c0 n = none → (k (some (val n))).PeeksAgree val c0 ∧ (k (some (val n))).denote val c0 = (k none).denote val c0)

/-- What holds of the dictionary: it keeps what was there at first, and every entry is the fresh value. -/
structure CacheOk (val : N → V) (c0 c : Cache N V) : Prop where
  keeps : ∀ n v, c0 n = some v → c n = some v
  fresh : ∀ n v, c n = some v → v = val n

/-- What a read does: `l` lists the methods run. -/
structure ReadOk (val : N → V) (c0 c c' : Cache N V) (l : List N) : Prop where
  ok : CacheOk val c0 c'
  nodup : l.Nodup
  keys : ∀ n, c' n ≠ none ↔ c n ≠ none ∨ n ∈ l
  new : ∀ n ∈ l, c n = none

omit [DecidableEq N] in
theorem ReadOk.trans {val : N → V} {c0 c c1 c2 : Cache N V} {l1 l2 : List N} (h1 : ReadOk val c0 c c1 l1)
    (h2 : ReadOk val c0 c1 c2 l2) : ReadOk val c0 c c2 (l1 ++ l2) where
  ok := h2.ok
  nodup := by
    rw [List.nodup_append]
    refine ⟨h1.nodup, h2.nodup, ?_⟩
    rintro a ha b hb rfl
    exact (h1.keys a).2 (Or.inr ha) (h2.new a hb)
  keys n := by
    rw [h2.keys, h1.keys, List.mem_append, or_assoc]
  new n hn := by
    rcases List.mem_append.1 hn with hn | hn
    · exact h1.new n hn
    · by_contra hc
      exact (h1.keys n).2 (Or.inl hc) (h2.new n hn)

theorem Comp.run_ok {val : N → V} {c0 : Cache N V} {rank : N → ℕ} {r : ℕ}
    (get : N → Cache N V → Option (V × Cache N V × List N))
    (hget : ∀ n c, rank n < r → CacheOk val c0 c →
      ∃ c' l, get n c = some (val n, c', l) ∧ ReadOk val c0 c c' l ∧ ∀ m ∈ l, rank m < r) (b : Comp N V) :
    ∀ c, b.ReadsBelow rank r → b.PeeksAgree val c0 → CacheOk val c0 c →
      ∃ c' l, b.run get c = some (b.denote val c0, c', l) ∧ ReadOk val c0 c c' l ∧ ∀ m ∈ l, rank m < r := by
  induction b with
  | ret v =>
    intro c _ _ hc
    exact ⟨c, [], rfl, ⟨hc, List.nodup_nil, by simp, by simp⟩, by simp⟩
  | read n k ih =>
    intro c hb hp hc
    obtain ⟨c1, l1, e1, k1, r1⟩ := hget n c hb.1 hc
    obtain ⟨c2, l2, e2, k2, r2⟩ := ih (val n) c1 (hb.2 _) hp k1.ok
    refine ⟨c2, l1 ++ l2, ?_, k1.trans k2, ?_⟩
    · simp only [Comp.run, e1, Option.bind_eq_bind, Option.bind_some, e2, Comp.denote]
      rfl
    · intro m hm
      rcases List.mem_append.1 hm with h | h
      · exact r1 m h
      · exact r2 m h
  | peek n k ih =>
    intro c hb hp hc
    simp only [Comp.run, Comp.denote]
    cases h0 : c0 n with
    | some v =>
      rw [hc.keeps n v h0]
      have := hp.1
      rw [h0] at this
      exact ih (some v) c (hb _) this hc
    | none =>
      have hpn := hp.1
      rw [h0] at hpn
      cases h1 : c n with
      | none => exact ih none c (hb _) hpn hc
      | some v =>
        have hv := hc.fresh n v h1
        subst hv
        obtain ⟨q1, q2⟩ := hp.2 h0
        rw [← q2]
        exact ih (some (val n)) c (hb _) q1 hc

theorem getAttr_ok {val : N → V} {c0 : Cache N V} {rank : N → ℕ} (method : N → Comp N V) (hf : IsFresh method c0 val)
    (hr : ∀ n, (method n).ReadsBelow rank (rank n)) (hp : ∀ n, (method n).PeeksAgree val c0) (fuel : ℕ) :
    ∀ n c, rank n < fuel → CacheOk val c0 c →
      ∃ c' l, getAttr method fuel n c = some (val n, c', l) ∧ ReadOk val c0 c c' l ∧ (∀ m ∈ l, rank m ≤ rank n) ∧
        c' n = some (val n) := by
  induction fuel with
  | zero => intro n c h; omega
  | succ fuel ih =>
    intro n c hlt hc
    cases hcn : c n with
    | some v =>
      have hv := hc.fresh n v hcn
      refine ⟨c, [], ?_, ⟨hc, List.nodup_nil, by simp, by simp⟩, by simp, by rw [hcn, hv]⟩
      rw [getAttr, hcn, hv]
    | none =>
      have h0 : c0 n = none := by
        cases h : c0 n with
        | none => rfl
        | some v => rw [hc.keeps n v h] at hcn; cases hcn
      have hget : ∀ m c, rank m < rank n → CacheOk val c0 c →
          ∃ c' l, getAttr method fuel m c = some (val m, c', l) ∧ ReadOk val c0 c c' l ∧ ∀ k ∈ l, rank k < rank n := by
        intro m c hm hc
        obtain ⟨c', l, e, k, q, -⟩ := ih m c (by omega) hc
        exact ⟨c', l, e, k, fun j hj => Nat.lt_of_le_of_lt (q j hj) hm⟩
      obtain ⟨c1, l, e, k, q⟩ := Comp.run_ok (getAttr method fuel) hget (method n) c (hr n) (hp n) hc
      have hval : (method n).denote val c0 = val n := by rw [hf n, h0]
      have hnl : n ∉ l := fun hn => absurd (q n hn) (Nat.lt_irrefl _)
      have hc1 : c1 n = none := by
        by_contra hne
        rcases (k.keys n).1 hne with h | h
        · exact h hcn
        · exact hnl h
      refine ⟨c1.set n (val n), l ++ [n], ?_, ⟨⟨?_, ?_⟩, ?_, ?_, ?_⟩, ?_, by simp [Cache.set]⟩
      · rw [getAttr, hcn]
        simp only [e, hval, Option.bind_eq_bind, Option.bind_some]
        rfl
      · intro m v hm
        have : m ≠ n := by rintro rfl; rw [h0] at hm; cases hm
        simp only [Cache.set, if_neg this]
        exact k.ok.keeps m v hm
      · intro m v hm
        by_cases hmn : m = n
        · subst hmn; simp [Cache.set] at hm; exact hm.symm
        · simp only [Cache.set, if_neg hmn] at hm; exact k.ok.fresh m v hm
      · rw [List.nodup_append]
        exact ⟨k.nodup, by simp, by rintro a ha b hb rfl; simp at hb; subst hb; exact hnl ha⟩
      · intro m
        by_cases hmn : m = n
        · subst hmn; simp [Cache.set]
        · have : (c1.set n (val n)) m = c1 m := by simp only [Cache.set, if_neg hmn]
          rw [this, k.keys m, List.mem_append, List.mem_singleton]
          simp only [hmn, or_false]
      · intro m hm
        rcases List.mem_append.1 hm with h | h
        · exact k.new m h
        · simp at h; subst h; exact hcn
      · intro m hm
        rcases List.mem_append.1 hm with h | h
        · exact Nat.le_of_lt (q m h)
        · simp at h; subst h; exact Nat.le_refl _

/-- **C51.** Whatever attributes of an object are read, in whatever order and however often, each read returns the freshly computed
value; no method runs twice, none runs whose value was set when the object was built, and every attribute read is in the dictionary afterwards.
The class must have no circular definitions, and looking into the dictionary must not change a result. -/
theorem C51_reads {val : N → V} {c0 : Cache N V} {rank : N → ℕ} (method : N → Comp N V) (hf : IsFresh method c0 val)
    (hr : ∀ n, (method n).ReadsBelow rank (rank n)) (hp : ∀ n, (method n).PeeksAgree val c0) (fuel : ℕ) (ns : List N)
    (hfuel : ∀ n ∈ ns, rank n < fuel) :
    ∃ c l, getAttrs method fuel ns c0 = some (ns.map val, c, l) ∧ l.Nodup ∧ (∀ n ∈ l, c0 n = none) ∧
      (∀ n ∈ ns, c n = some (val n) ∧ (c0 n = none → n ∈ l)) := by
  have key : ∀ (ns : List N), (∀ n ∈ ns, rank n < fuel) → ∀ c, CacheOk val c0 c →
      ∃ c' l, getAttrs method fuel ns c = some (ns.map val, c', l) ∧ ReadOk val c0 c c' l ∧ ∀ n ∈ ns, c' n ≠ none := by
    intro ns
    induction ns with
    | nil => intro _ c hc; exact ⟨c, [], rfl, ⟨hc, List.nodup_nil, by simp, by simp⟩, by simp⟩
    | cons n ns ih =>
      intro hfu c hc
      obtain ⟨c1, l1, e1, k1, -, m1⟩ := getAttr_ok method hf hr hp fuel n c (hfu n (by simp)) hc
      obtain ⟨c2, l2, e2, k2, m2⟩ := ih (fun m hm => hfu m (by simp [hm])) c1 k1.ok
      refine ⟨c2, l1 ++ l2, ?_, k1.trans k2, ?_⟩
      · simp only [getAttrs, e1, Option.bind_eq_bind, Option.bind_some, e2]
        rfl
      · intro m hm
        rcases List.mem_cons.1 hm with rfl | hm
        · exact (k2.keys m).2 (Or.inl (by rw [m1]; simp))
        · exact m2 m hm
  have hc0 : CacheOk val c0 c0 := ⟨fun _ _ h => h, fun n v h => by rw [hf n, h]⟩
  obtain ⟨c, l, e, k, m⟩ := key ns hfuel c0 hc0
  refine ⟨c, l, e, k.nodup, k.new, fun n hn => ⟨?_, fun h0 => ?_⟩⟩
  · cases hcn : c n with
    | none => exact absurd hcn (m n hn)
    | some v => rw [k.ok.fresh n v hcn]
  · rcases (k.keys n).1 (m n hn) with h | h
    · exact absurd h0 h
    · exact h

/-! ### The attributes of `Time` -/

/-- How deep the definitions go. -/
def timeRank : TimeAttr → ℕ
  | .taiFraction | .tdbFraction | .deltaT | .nutationAngles | .J => 0
  | .ut1Fraction | .taiSeconds | .meanObliquity | .P => 1
  | .utc | .dut1 | .gmst | .N | .M | .PT => 2
  | .gast | .MT | .NT => 3
  | .C => 4
  | .CT => 5

/-- Specification: the value of each attribute of a time, spelled out, when `c0` holds what the constructor set. -/
def timeVal {V : Type} (f : TimeFns V) (c0 : Cache TimeAttr V) : TimeAttr → V :=
  let or (a : TimeAttr) (v : V) : V := (c0 a).getD v
  let tai := or .taiFraction f.taiFraction
  let tdb := or .tdbFraction f.tdbFraction
  let dt := or .deltaT f.deltaT
  let nut := or .nutationAngles f.iau2000a
  let ut1 := or .ut1Fraction (f.ut1Fraction dt)
  let secs := or .taiSeconds (f.taiSeconds tai)
  let obl := or .meanObliquity (f.meanObliquity tdb)
  let p := or .P (f.precession tdb)
  let n := or .N (f.nutation nut obl)
  let m := or .M (f.mxmxmB n p)
  let gmst := or .gmst (f.gmst ut1 tdb)
  let gast := or .gast (f.gast nut obl gmst)
  let c := or .C (f.cirs ut1 gast m)
  fun
  | .taiFraction => tai
  | .tdbFraction => tdb
  | .deltaT => dt
  | .nutationAngles => nut
  | .J => or .J f.J
  | .ut1Fraction => ut1
  | .taiSeconds => secs
  | .meanObliquity => obl
  | .P => p
  | .N => n
  | .M => m
  | .MT => or .MT (f.transpose m)
  | .utc => or .utc (f.utc secs)
  | .dut1 => or .dut1 (f.dut1 secs dt)
  | .gmst => gmst
  | .gast => gast
  | .C => c
  | .CT => or .CT (f.transpose c)
  | .PT => or .PT (f.transpose p)
  | .NT => or .NT (f.transpose n)

/-- **C51.** The attributes of a `Time`: any reads in any order give the values of `timeVal`, each computed at most once, six levels of
recursion deep at most. -/
theorem C51_time {V : Type} (f : TimeFns V) (c0 : Cache TimeAttr V) (ns : List TimeAttr) :
    ∃ c l, getAttrs (timeMethod f) 6 ns c0 = some (ns.map (timeVal f c0), c, l) ∧ l.Nodup ∧ (∀ n ∈ l, c0 n = none) ∧
      (∀ n ∈ ns, c n = some (timeVal f c0 n) ∧ (c0 n = none → n ∈ l)) := by
  refine C51_reads (rank := timeRank) (timeMethod f) ?_ ?_ ?_ 6 ns ?_
  · intro n
    cases n <;> (cases h : c0 _ <;> simp only [timeVal, timeMethod, Comp.denote, h, Option.getD_none, Option.getD_some])
    cases h1 : c0 .P <;> simp only [Comp.denote, timeMBody, Option.getD_none, Option.getD_some] <;>
      (cases h2 : c0 .N <;> simp only [Comp.denote, Option.getD_none, Option.getD_some])
  · intro n
    cases n <;> simp [timeMethod, Comp.ReadsBelow, timeRank]
    rintro (_ | p) <;> simp [timeMBody, Comp.ReadsBelow, timeRank]
    · intro _
      rintro (_ | q) <;> simp [Comp.ReadsBelow, timeRank]
    · rintro (_ | q) <;> simp [Comp.ReadsBelow, timeRank]
  · intro n
    cases n <;> simp only [timeMethod, Comp.PeeksAgree]
    cases h1 : c0 .P <;> cases h2 : c0 .N <;> simp [timeMBody, Comp.PeeksAgree, Comp.denote, timeVal, h1, h2]
  · intro n _
    cases n <;> decide

/-- A time whose `tai` fraction was set by its constructor: reading `M`, `N`, `M` again and `utc`. -/
example : (getAttrs (timeMethod (V := String)
      { taiFraction := "a", tdbFraction := "b", deltaT := "dt", iau2000a := "n", J := "J", ut1Fraction := fun d => "u" ++ d,
        taiSeconds := fun t => "s" ++ t, meanObliquity := fun t => "o" ++ t, precession := fun t => "P" ++ t,
        nutation := fun a o => "N" ++ a ++ o, mxmxmB := fun n p => n ++ "*" ++ p ++ "*B", transpose := fun m => m ++ "T",
        utc := fun s => "utc" ++ s, dut1 := fun s d => s ++ "-" ++ d, gmst := fun u t => "g" ++ u ++ t,
        gast := fun a o g => "G" ++ a ++ o ++ g, cirs := fun u g m => "C" ++ u ++ g ++ m }) 6 [.M, .N, .M, .utc]
      (fun n => if n = .taiFraction then some "tai" else none)).map (fun r => (r.1, r.2.2)) =
    some (["Nnob*Pb*B", "Nnob", "Nnob*Pb*B", "utcstai"], [.tdbFraction, .nutationAngles, .meanObliquity, .M, .N, .taiSeconds, .utc]) := by
  decide +kernel

end Skyfield
