import Verif.Props.Demo
import Verif.Proof.Threads
import Verif.Proof.Pointers
/-
  C51: several threads may look up keys, and read and write values, at the same time.

  Model/Threads.lean has threads that call `find` and read and write values through pointers, one byte at a time, in any order;
  Spec/Threads.lean says what a thread does if it is alone (`Runs`). No thread calls `update`.
-/
namespace Poplar.Props
open Poplar Poplar.Spec

variable {a : Alias} {p : Params} {i : Init} {K : Key → Prop} {os : List Op} {m0 m : Map a.Trie a.Nlm} {xs : List Out}
  {ι β : Type} [DecidableEq ι] {ptr : Key → Option Loc} {Rd Wr : ι → Key → Prop} {ts : ι → Thread β} {x : ι → β} {d : ι → Dict}

/-- **C51** Threads that use a map at the same time, without locks. `m` is a map after any history; the threads look up keys, and each value is
written by one thread only and then not read by the others (`Wr t` and `Rd t` are the keys whose values thread `t` writes and reads).
If each thread `t`, on its own, would return `x t` and leave the dictionary `d t`, then whatever the order in which
the steps of the threads are done (a step touches one byte): nothing goes wrong; a thread that finishes returns `x t`; a thread
that is scheduled often enough finishes; there is never a data race (the byte that one thread is about to write
is not one that another one is about to read or write); and afterwards `find` returns, for a key whose value a
finished thread has been writing, what it wrote last, and for a key whose value no thread writes, what it returned before. -/
theorem C51_threads_any (h : a.Admissible p i K os) {s : AState} {ys : List Out} (hs : AState.run p.valSize {} os = some (s, ys))
    (h0 : a.new p i = .ok m0) (h1 : Map.run (a.cfg p) m0 os = .ok (m, xs))
    (hptr : ∀ k, K k → Map.find (a.cfg p) m k = .ok (ptr k))
    (hc : ∀ t u k, t ≠ u → Wr t k → ¬ Rd u k ∧ ¬ Wr u k)
    (hr : ∀ t, Runs K p.valSize ptr (Rd t) (Wr t) s.dict (ts t) (x t) (d t)) :
    ∃ steps : ι → Nat, ∀ sched : List ι, ∃ m' ts',
      runThreads (a.cfg p) (a.bytes p) p.valSize sched m ts = .ok (m', ts') ∧
      (∀ t y, ts' t = .done y → y = x t) ∧
      (∀ t, steps t ≤ sched.count t → ts' t = .done (x t)) ∧
      (∀ t u q, t ≠ u → (ts' t).writes = some q → (ts' u).writes ≠ some q ∧ (ts' u).reads ≠ some q) ∧
      (∀ t k, K k → Wr t k → ts' t = .done (x t) → Map.exec (a.cfg p) m' (.find k) = .ok (m', .found ((d t).get k))) ∧
      (∀ k, K k → (∀ t, ¬ Wr t k) → Map.exec (a.cfg p) m' (.find k) = .ok (m', .found (s.dict.get k))) := by
  obtain ⟨hsb, hS, _⟩ := Alias.reach h hs h0 h1
  have hB := a.byteSpec p h.params
  obtain ⟨hst, hag⟩ := Threads.start hB h.keys hS hptr
  have hcount := fun t => (hr t).count (L := fun k => (Map.findR (a.cfg p) (a.bytes p) m k).len ((a.bytes p).byte m.nlm))
  choose n hn using hcount
  refine ⟨n, fun sched => ?_⟩
  obtain ⟨m', ts', e1, e2, e3⟩ := Threads.run_ok hB hst hc sched m ts n ⟨rfl, rfl, fun _ _ => rfl⟩
    (fun t => .at (hn t) (fun k hk _ => hag k hk trivial))
  refine ⟨m', ts', e1, fun t y hy => ?_, fun t ht => ?_, fun t u q htu hq => ⟨fun hu => ?_, fun hu => ?_⟩, fun t k hk hw hd => ?_, fun k hk hw => ?_⟩
  · have := e3 t
    rw [hy] at this
    exact this.done.1
  · have := e3 t
    rw [show n t - sched.count t = 0 by omega] at this
    exact this.zero
  · obtain ⟨k, l, j, k1, k2, k3, k4, rfl⟩ := (e3 t).writes hq
    obtain ⟨k', l', j', k1', k2', k3', k4', e⟩ := (e3 u).writes hu
    refine hst.disj k k' l l' j j' k1 k1' ?_ k3 k3' k4 k4' e
    rintro rfl
    exact (hc t u k htu k2).2 k2'
  · obtain ⟨k, l, j, k1, k2, k3, k4, rfl⟩ := (e3 t).writes hq
    rcases (e3 u).reads hu with ho | ⟨k', l', j', k1', k2', k3', k4', e⟩
    · exact ho k l j k1 k3 k4 rfl
    · refine hst.disj k k' l l' j j' k1 k1' ?_ k3 k3' k4 k4' e
      rintro rfl
      exact k2'.elim (hc t u k htu k2).1 (hc t u k htu k2).2
  · have hg := e3 t
    rw [hd] at hg
    obtain ⟨g1, g2⟩ := hg.done.2 k hk (Or.inr hw)
    exact Threads.found hB (hst.later e2 hk).2.1 g1 g2
  · obtain ⟨g1, g2⟩ := hag k hk trivial
    refine Threads.found hB (hst.later e2 hk).2.1 g1 fun l hl => ?_
    obtain ⟨v, v1, v2, v3⟩ := g2 l hl
    refine ⟨v, v1, v2, fun j hj => ?_⟩
    rw [← v3 j hj]
    refine e2.mem _ fun k' l' j' hk' ⟨t, ht⟩ hl' hj' => ?_
    refine hst.disj k k' l l' j j' hk hk' ?_ hl hl' hj hj'
    rintro rfl
    exact hw t ht

/-- **C51** The same for keys over at most 253 byte values: `m` holds the dictionary that Spec/Dict.lean says it holds. -/
theorem C51_threads (h : a.Admissible p i K os) (hA : SmallAlphabet os)
    (h0 : a.new p i = .ok m0) (h1 : Map.run (a.cfg p) m0 os = .ok (m, xs))
    (hptr : ∀ k, K k → Map.find (a.cfg p) m k = .ok (ptr k))
    (hc : ∀ t u k, t ≠ u → Wr t k → ¬ Rd u k ∧ ¬ Wr u k)
    (hr : ∀ t, Runs K p.valSize ptr (Rd t) (Wr t) (Spec.run p.valSize [] os).1 (ts t) (x t) (d t)) :
    ∃ steps : ι → Nat, ∀ sched : List ι, ∃ m' ts',
      runThreads (a.cfg p) (a.bytes p) p.valSize sched m ts = .ok (m', ts') ∧
      (∀ t y, ts' t = .done y → y = x t) ∧
      (∀ t, steps t ≤ sched.count t → ts' t = .done (x t)) ∧
      (∀ t u q, t ≠ u → (ts' t).writes = some q → (ts' u).writes ≠ some q ∧ (ts' u).reads ≠ some q) ∧
      (∀ t k, K k → Wr t k → ts' t = .done (x t) → Map.exec (a.cfg p) m' (.find k) = .ok (m', .found ((d t).get k))) ∧
      (∀ k, K k → (∀ t, ¬ Wr t k) →
        Map.exec (a.cfg p) m' (.find k) = .ok (m', .found (lastValue p.valSize k os.reverse))) := by
  obtain ⟨bs, hb⟩ := hA.run (vs := p.valSize)
  obtain ⟨n, hn⟩ := C51_threads_any h hb h0 h1 hptr hc hr
  refine ⟨n, fun sched => ?_⟩
  obtain ⟨m', ts', e1, e2, e3, e4, e5, e6⟩ := hn sched
  refine ⟨m', ts', e1, e2, e3, e4, e5, fun k hk hw => ?_⟩
  rw [e6 k hk hw, ← Spec.get_run]

/-- **C51** The pointers that `find` returns exist: a null pointer for a key that is not in the map. -/
theorem C51_pointers (h : a.Admissible p i K os) {s : AState} {ys : List Out} (hs : AState.run p.valSize {} os = some (s, ys))
    (h0 : a.new p i = .ok m0) (h1 : Map.run (a.cfg p) m0 os = .ok (m, xs)) :
    ∃ ptr : Key → Option Loc, ∀ k, K k → Map.find (a.cfg p) m k = .ok (ptr k) ∧ (ptr k = none ↔ s.dict.get k = none) := by
  obtain ⟨hsb, hS, _⟩ := Alias.reach h hs h0 h1
  refine ⟨fun k => match Map.find (a.cfg p) m k with | .ok r => r | .error _ => none, fun k hk => ?_⟩
  rcases Map.State.find h.keys hS hk with ⟨e1, e2⟩ | ⟨l, e1, hL, hp⟩
  · simp [e1, e2]
  · obtain ⟨v, hv, _⟩ := hL.load hk hp
    simp [e1, hv]

/-- **C51** The byte by byte operations are the operations: `find` with all its reads done at once is `find`, reading a value is
reading its bytes, and writing a value is writing its bytes one after the other (all maps, in any state whatever). -/
theorem C51_byte_by_byte (hp : p.Valid) (m : Map a.Trie a.Nlm) :
    (∀ k, (Map.findR (a.cfg p) (a.bytes p) m k).run ((a.bytes p).byte m.nlm) = Map.find (a.cfg p) m k) ∧
    (∀ l v, Map.load (a.cfg p) m l = .ok v ↔
      v.length = p.valSize ∧ ∀ j < p.valSize, (a.bytes p).byte m.nlm ⟨l.blk, l.off + j⟩ = keyAt v j) ∧
    (∀ l b v, Map.store (a.cfg p) m l (b :: v) =
      Map.store (a.cfg p) m l [b] >>= fun m => Map.store (a.cfg p) m ⟨l.blk, l.off + 1⟩ v) := by
  have hB := a.byteSpec p hp
  refine ⟨Map.findR_run hB.run m, fun l v => hB.load m.nlm l v, fun l b v => ?_⟩
  unfold Map.store
  rw [hB.cons]
  cases (a.cfg p).L.store m.nlm l [b] <;> rfl

/-! ### the hypotheses are met -/

/-- looks up `"abc"` and writes its value -/
def demoWriter : Thread (List UInt8) :=
  .find [97, 98, 99, 0] fun r => match r with
    | some l => .store l [1, 1, 1, 1] (.done [])
    | none => .done [0]

/-- reads the value of `"ab"`, which lies next to that of `"abc"`, writes it to `"ax"`, and looks up `"abc"` and `"b"` -/
def demoCopier : Thread (List UInt8) :=
  .find [97, 98, 0] fun r => match r with
    | some l => .load l fun v => .find [97, 120, 0] fun r => match r with
      | some l => .store l v (.find [97, 98, 99, 0] fun r => .find [98, 0] fun r' => .done (if r.isSome && r'.isNone then v else [1]))
      | none => .done [0]
    | none => .done [0]

/-- after the history `demo`, one thread writes the value of `"abc"` while the other copies the value of `"ab"` to `"ax"` -/
example (a : Alias) : ∃ m0 m xs, a.new demoParams .default = .ok m0 ∧ Map.run (a.cfg demoParams) m0 demo = .ok (m, xs) ∧
    ∃ steps : Bool → Nat, ∀ sched : List Bool, (∀ t, steps t ≤ sched.count t) → ∃ m',
      runThreads (a.cfg demoParams) (a.bytes demoParams) 4 sched m (fun t => if t then demoWriter else demoCopier) =
        .ok (m', fun t => .done (if t then [] else [5, 6, 7, 8])) ∧
      Map.exec (a.cfg demoParams) m' (.find [97, 98, 99, 0]) = .ok (m', .found (some [1, 1, 1, 1])) ∧
      Map.exec (a.cfg demoParams) m' (.find [97, 120, 0]) = .ok (m', .found (some [5, 6, 7, 8])) ∧
      Map.exec (a.cfg demoParams) m' (.find [97, 98, 0]) = .ok (m', .found (some [5, 6, 7, 8])) := by
  have h := demo_admissible a .default trivial demo (by decide) (by decide)
  have hA : SmallAlphabet demo := small_of [97, 98, 99, 120] (by decide) (by decide)
  obtain ⟨bs, hb⟩ := hA.run (vs := demoParams.valSize)
  obtain ⟨_, m0, h0, h2⟩ := Alias.after h hb
  obtain ⟨⟨m, xs⟩, h1, _⟩ := h2.get (within a (by decide))
  refine ⟨m0, m, xs, h0, h1, ?_⟩
  obtain ⟨ptr, hptr⟩ := C51_pointers h hb h0 h1
  have hK : ∀ s : List UInt8, (∀ c ∈ s, c ≠ 0) → s.length < 100 → CStrings 4 (s ++ [0]) := by
    intro s hs hl
    exact ⟨⟨s, hs, rfl⟩, by simp; omega⟩
  have k1 : CStrings 4 [97, 98, 99, 0] := hK [97, 98, 99] (by decide) (by decide)
  have k2 : CStrings 4 [97, 98, 0] := hK [97, 98] (by decide) (by decide)
  have k3 : CStrings 4 [97, 120, 0] := hK [97, 120] (by decide) (by decide)
  have k4 : CStrings 4 [98, 0] := hK [98] (by decide) (by decide)
  have some_of : ∀ k, CStrings 4 k → (Spec.run 4 [] demo).1.get k ≠ none → ∃ l, ptr k = some l := by
    intro k hk hg
    exact Option.ne_none_iff_exists'.1 fun e => hg ((hptr k hk).2.1 e)
  obtain ⟨l1, e1⟩ := some_of _ k1 (by decide)
  obtain ⟨l2, e2⟩ := some_of _ k2 (by decide)
  obtain ⟨l3, e3⟩ := some_of _ k3 (by decide)
  have e4 : ptr [98, 0] = none := (hptr _ k4).2.2 (show (Spec.run 4 [] demo).1.get [98, 0] = none by decide)
  obtain ⟨steps, hst⟩ := C51_threads (a := a) (p := demoParams) (ι := Bool) (β := List UInt8) (ptr := ptr)
    (Rd := fun t k => t = false ∧ k = [97, 98, 0]) (Wr := fun t k => k = if t then [97, 98, 99, 0] else [97, 120, 0])
    (ts := fun t => if t then demoWriter else demoCopier) (x := fun t => if t then [] else [5, 6, 7, 8])
    (d := fun t => if t then (Spec.run 4 [] demo).1.set [97, 98, 99, 0] [1, 1, 1, 1] else (Spec.run 4 [] demo).1.set [97, 120, 0] [5, 6, 7, 8])
    h hA h0 h1 (fun k hk => (hptr k hk).1)
    (by
      intro t u k htu hk
      cases t <;> cases u <;> simp_all)
    (by
      intro t
      cases t with
      | true =>
        refine .find k1 ?_
        rw [e1]
        exact .store k1 rfl e1 rfl .done
      | false =>
        refine .find k2 ?_
        rw [e2]
        refine .load (v := [5, 6, 7, 8]) k2 (Or.inl ⟨rfl, rfl⟩) e2 (by decide) (.find k3 ?_)
        rw [e3]
        refine .store k3 rfl e3 rfl (.find k1 (.find k4 ?_))
        rw [e1, e4]
        exact .done)
  refine ⟨steps, fun sched hn => ?_⟩
  obtain ⟨m', ts', r1, r2, r3, r4, r5, r6⟩ := hst sched
  have hts : ts' = fun t => .done (if t then [] else [5, 6, 7, 8]) := funext fun t => r3 t (hn t)
  subst hts
  refine ⟨m', r1, r5 true _ k1 rfl rfl, r5 false _ k3 rfl rfl, ?_⟩
  rw [r6 _ k2 (by decide)]
  rfl

end Poplar.Props
