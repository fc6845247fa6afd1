import Verif.Proof.PhysBytes
import Verif.Proof.Pointers
import Verif.Proof.Threads
import Verif.Props.Demo
import Verif.Props.C15_Pointers
import Verif.Props.C39_Memory
/-
  C52: nothing depends on the memory allocator.

  Model/PhysHeap.lean is one flat memory of bytes, with an allocator `E` that puts a block wherever it likes as long as it does not
  overlap one in use, reuses released addresses as it likes, and overwrites the memory that is not in use. Model/PhysMap.lean are the
  six maps on this memory; `physNew`, `physHistory`, `physDestroy` are for them what `new`, `history`, `destroy` are for the maps of
  Model/Aliases.lean, whose heap gives every block an address of its own for ever.
-/
namespace Poplar.Props
open Poplar Poplar.Spec

variable {a : Alias} {p : Params} {i : Init} {K : Key → Prop} {os os1 os2 : List Op} {k : Key} {E E' : Phys.Env}
  {m0 m m1 m2 m3 : Map a.Trie a.PNlm} {xs ys : List Out} {l : Loc}

/-- the run on the flat memory does what the run of the map with the same history does -/
private theorem phys_run (E : Phys.Env) (a : Alias) (p : Params) (i : Init) (os : List Op) :
    RR (fun x y => (∃ ρ, Phys.MapRel (Phys.aliasSim E a p) ρ x.1 y.1) ∧ x.2 = y.2)
      (do let m ← a.new p i; Map.run (a.cfg p) m os) (do let m ← a.physNew E p i; Map.run (a.physCfg E p) m os) := by
  refine (Phys.new_sim E a p i).bind fun x y _ r => ?_
  rw [Phys.physCfg_eq]
  exact (Phys.run_sim os r).mono fun _ _ ⟨⟨ρ, _, r⟩, e⟩ => ⟨⟨ρ, r⟩, e⟩

private theorem phys_history (E : Phys.Env) (a : Alias) (p : Params) (i : Init) (os : List Op) :
    RR Eq (a.history p i os) (a.physHistory E p i os) := by
  unfold Alias.history Alias.physHistory
  refine (Phys.new_sim E a p i).bind fun x y _ r => ?_
  rw [Phys.physCfg_eq]
  exact (Phys.run_sim os r).bind fun _ _ _ ⟨_, e⟩ => RR.ok e

private theorem no_oob {α : Type} {lim : Prop} {r : R α} {x : α} (h : Returns lim r x) : r ≠ .error .oob := by
  rcases h with h | ⟨_, h | h⟩ <;> rw [h] <;> simp

private theorem rr_eq {α : Type} {x y : R α} (h : RR Eq x y) (hx : x ≠ .error .oob) : y = x := by
  cases x with
  | ok u => obtain ⟨v, e, rfl⟩ := h; exact e
  | error f =>
    rcases h with h | h
    · subst h; exact absurd rfl hx
    · exact h

/-- what is behind a run on the flat memory -/
private theorem phys_back (h : a.Admissible p i K os) (hs : Supported p.valSize os) (h0 : a.physNew E p i = .ok m0)
    (h1 : Map.run (a.physCfg E p) m0 os = .ok (m, xs)) :
    ∃ n0 n ρ, a.new p i = .ok n0 ∧ Map.run (a.cfg p) n0 os = .ok (n, xs) ∧ Phys.MapRel (Phys.aliasSim E a p) ρ n m := by
  obtain ⟨s, zs, hs⟩ := hs
  obtain ⟨_, n0, e1, e2⟩ := Alias.after h hs
  have hr := Phys.new_sim E a p i
  rw [e1] at hr
  obtain ⟨m0', e3, r0⟩ := hr
  rw [h0] at e3; cases e3
  have hq := Phys.run_sim os r0
  rw [← Phys.physCfg_eq, h1] at hq
  cases hn : Map.run (a.cfg p) n0 os with
  | error f =>
    rw [hn] at hq e2
    exfalso
    rcases hq with hq | hq
    · subst hq
      rcases e2.2 with h | h <;> cases h
    · cases hq
  | ok y =>
    obtain ⟨n, zs'⟩ := y
    rw [hn] at hq
    obtain ⟨_, e4, ⟨ρ, _, r⟩, e5⟩ := hq
    cases e4
    dsimp only at e5 r
    subst e5
    exact ⟨n0, n, ρ, e1, hn, r⟩

/-- **C52** Wherever the memory allocator puts the blocks, whichever released addresses it gives out again, and whatever happens to the
memory the map does not own: every answer of every map is that of the dictionary. -/
theorem C52_any_allocator (E : Phys.Env) (h : a.Admissible p i K os) (hA : SmallAlphabet os) :
    Returns (a.AtLimit p i os) (a.physHistory E p i os) (Spec.run p.valSize [] os).2 := by
  obtain ⟨bs, hb⟩ := hA.run (vs := p.valSize)
  have hr := Alias.history_exact h hb
  rw [rr_eq (phys_history E a p i os) (no_oob hr)]
  exact hr

/-- **C52** The same for keys over any number of byte values (for the answers of the dictionary with its registered byte values, see C14). -/
theorem C52_any_allocator_any (E : Phys.Env) (h : a.Admissible p i K os) {s : AState} (hs : AState.run p.valSize {} os = some (s, xs)) :
    Returns (a.AtLimit p i os) (a.physHistory E p i os) xs := by
  have hr := Alias.history_exact h hs
  rw [rr_eq (phys_history E a p i os) (no_oob hr)]
  exact hr

/-- **C52** Two programs that differ in the memory allocator only see the same, also beyond the size limits; and they see what the model in which
addresses are never reused says. -/
theorem C52_same_answers (E E' : Phys.Env) (h : a.Admissible p i K os) (hs : Supported p.valSize os) :
    a.physHistory E p i os = a.physHistory E' p i os ∧ a.physHistory E p i os = a.history p i os := by
  obtain ⟨s, zs, hs⟩ := hs
  have hr := no_oob (Alias.history_exact h hs)
  have e1 := rr_eq (phys_history E a p i os) hr
  have e2 := rr_eq (phys_history E' a p i os) hr
  exact ⟨e1.trans e2.symm, e1⟩

/-- **C52** The memory blocks in use never overlap, and destroying the map releases every one of them exactly once (an attempt to release an
address at which no block in use starts is an error) and leaves none. -/
theorem C52_blocks (h : a.Admissible p i K os) (hs : Supported p.valSize os) (h0 : a.physNew E p i = .ok m0)
    (h1 : Map.run (a.physCfg E p) m0 os = .ok (m, xs)) :
    (a.physHeap m.nlm).live.Pairwise Phys.Apart ∧ ∃ f, a.physDestroy m.nlm = .ok f ∧ f.live = [] := by
  obtain ⟨n0, n, ρ, e0, e1, r⟩ := phys_back h hs h0 h1
  refine ⟨(Phys.aliasSim_heap E a p r.nlm).wf, ?_⟩
  obtain ⟨g, e2, e3⟩ := C39_no_leak e0 e1
  have hd := Phys.aliasSim_destroy E a p r.nlm
  rw [e2] at hd
  obtain ⟨f, e4, s⟩ := hd
  exact ⟨f, e4, s.live_nil e3⟩

private theorem find_same {τ ν : Type} {cfg : MapCfg τ ν} {m m' : Map τ ν} {k : Key} {x : Out} (h : Map.exec cfg m (.find k) = .ok (m', x)) : m' = m := by
  simp only [Map.exec] at h
  split at h
  · cases h; rfl
  · cases h
  · cases h; rfl
  · obtain ⟨v, _, h⟩ := R.bind_eq_ok h
    cases h; rfl

/-- after `update(k)` or `find(k)`, with the run on the abstract heap beside it -/
private theorem phys_ptr {s1 s2 : AState} {xs1 : List Out} {x2 : Out} (h : a.Admissible p i K (os1 ++ .update k :: os2))
    (f1 : AState.run p.valSize {} os1 = some (s1, xs1)) (g1 : s1.step p.valSize (.update k) = some (s2, x2)) (hk : ¬ Malformed k)
    (h0 : a.physNew E p i = .ok m0) (h1 : Map.run (a.physCfg E p) m0 os1 = .ok (m1, xs))
    (h2 : Map.update (a.physCfg E p) m1 k = .ok (m2, .ptr l) ∨ (Map.find (a.physCfg E p) m1 k = .ok (some l) ∧ m2 = m1)) :
    ∃ (hsb : 0 < i.symbBits) (n2 : Map a.Trie a.Nlm) (l' : Loc) (ρ : Nat → Nat → Prop), n2.isReady = true ∧
      Phys.MapRel (Phys.aliasSim E a p) ρ n2 m2 ∧ Phys.LR ρ l' l ∧
      Map.Live (a.trieSpec p i.symbBits i.capa0 hsb) (a.nlmSpec p h.params) K n2 s2.dict ∧ Map.Rel n2 s2.bytes ∧
      Map.PtrTo (a.trieSpec p i.symbBits i.capa0 hsb) (a.nlmSpec p h.params) K n2 l' k := by
  have hkey : K k := ((h.legal (.update k) (by simp)).1 k rfl).resolve_right hk
  obtain ⟨n0, n1, ρ, e0, e1, r⟩ := phys_back h.append_left ⟨_, _, f1⟩ h0 h1
  obtain ⟨hsb, q1, q2, _, _⟩ := Alias.reach h.append_left f1 e0 e1
  have hup : ∃ n2 l' ρ', Phys.MapRel (Phys.aliasSim E a p) ρ' n2 m2 ∧ Phys.LR ρ' l' l ∧
      (Map.update (a.cfg p) n1 k = .ok (n2, .ptr l') ∨ (Map.find (a.cfg p) n1 k = .ok (some l') ∧ n2 = n1)) := by
    rcases h2 with h2 | ⟨h2, rfl⟩
    · have h' : a.Admissible p i K (os1 ++ [.update k]) := by
        have : os1 ++ .update k :: os2 = (os1 ++ [.update k]) ++ os2 := by simp
        rw [this] at h; exact h.append_left
      obtain ⟨_, n0', e0', e2⟩ := Alias.after h' (AState.run_snoc f1 g1)
      rw [e0] at e0'; cases e0'
      have hq := Phys.update_sim r k
      rw [← Phys.physCfg_eq, h2] at hq
      rw [Map.run_append, e1] at e2
      cases hu : Map.update (a.cfg p) n1 k with
      | error f =>
        rw [hu] at hq
        exfalso
        rcases hq with hq | hq
        · subst hq
          simp only [R.bind_ok, Map.run, Map.exec, hu] at e2
          rcases e2.2 with h | h <;> cases h
        · cases hq
      | ok y =>
        obtain ⟨n2, u⟩ := y
        rw [hu] at hq
        obtain ⟨_, e3, ρ', _, r2, hl⟩ := hq
        cases e3
        cases u with
        | ptr l' => exact ⟨n2, l', ρ', r2, hl, Or.inl rfl⟩
        | null => exact hl.elim
        | exn => exact hl.elim
    · have hq := Phys.find_sim r k
      rw [← Phys.physCfg_eq, h2] at hq
      rcases Map.State.find h.keys q1 hkey with ⟨_, h3⟩ | ⟨l', h3, _⟩
      · rw [h3] at hq
        obtain ⟨_, e3, hl⟩ := hq
        cases e3
        exact hl.elim
      · rw [h3] at hq
        obtain ⟨_, e3, hl⟩ := hq
        cases e3
        exact ⟨n1, l', ρ, r, hl, Or.inr ⟨h3, rfl⟩⟩
  obtain ⟨n2, l', ρ', r2, hl, h4⟩ := hup
  obtain ⟨t1, t2, t3⟩ := Alias.ptr_here h f1 g1 hk hsb q1 q2 h4
  exact ⟨hsb, n2, l', ρ', t1.inv.ready, r2, hl, t1, t2, t3⟩

private theorem phys_lb {ρ : Nat → Nat → Prop} {n : a.Nlm} {m : a.PNlm} (r : (Phys.aliasSim E a p).Rel ρ n m) :
    a.physLabelBytes m = a.labelBytes n := by
  cases a with
  | plainBonsai => exact Phys.PbRel.lb r
  | semiCompactBonsai => exact Phys.CbRel.lb r
  | compactBonsai => exact Phys.CbRel.lb r
  | plainFkhash => exact Phys.PfRel.lb r
  | semiCompactFkhash => exact Phys.CfRel.lb r
  | compactFkhash => exact Phys.CfRel.lb r

/-- **C52** The label bytes that `alloc_bytes()` counts are the sizes of the blocks in use. Hence, on a machine with addresses below
2^64 (none at the null address), the counter is less than 2^64 and never overflows. -/
theorem C52_label_bytes (h : a.Admissible p i K os) (hs : Supported p.valSize os) (h0 : a.physNew E p i = .ok m0)
    (h1 : Map.run (a.physCfg E p) m0 os = .ok (m, xs)) :
    a.physLabelBytes m.nlm = ((a.physHeap m.nlm).live.map (·.2)).sum ∧
    ((∀ e ∈ (a.physHeap m.nlm).live, 0 < e.1 ∧ e.1 + e.2 ≤ 2 ^ 64) → a.physLabelBytes m.nlm < 2 ^ 64) := by
  obtain ⟨n0, n, ρ, e0, e1, r⟩ := phys_back h hs h0 h1
  have hs' := Phys.aliasSim_heap E a p r.nlm
  have e : a.physLabelBytes m.nlm = ((a.physHeap m.nlm).live.map (·.2)).sum := by
    rw [phys_lb r.nlm, C39_label_bytes h hs e0 e1, hs'.bytes]
  refine ⟨e, fun hl => ?_⟩
  have := Phys.apart_sum 1 (2 ^ 64) _ hs'.wf (fun x hx => ⟨(hl x hx).1, (hl x hx).2⟩)
  rw [← e] at this
  omega

/-- **C52** A pointer obtained from `update(k)` or `find(k)` on a plain map is the address of the value of `k` in memory as long as the map
lives: after any further history, with all the allocations, copies and releases in it, the bytes at this very address are
the value of `k`, and writing there is the same as writing to `k`. -/
theorem C52_pointers (ha : a = .plainBonsai ∨ a = .plainFkhash)
    (h : a.Admissible p i K (os1 ++ .update k :: os2)) {s : AState} {zs : List Out}
    (hs : AState.run p.valSize {} (os1 ++ .update k :: os2) = some (s, zs)) (hk : ¬ Malformed k)
    (h0 : a.physNew E p i = .ok m0) (h1 : Map.run (a.physCfg E p) m0 os1 = .ok (m1, xs))
    (h2 : Map.update (a.physCfg E p) m1 k = .ok (m2, .ptr l) ∨ (Map.find (a.physCfg E p) m1 k = .ok (some l) ∧ m2 = m1))
    (h3 : Map.run (a.physCfg E p) m2 os2 = .ok (m3, ys)) :
    (∃ v, s.dict.get k = some v ∧ Map.load (a.physCfg E p) m3 l = .ok v) ∧
    ∀ w, w.length = p.valSize → ∃ m4, Map.store (a.physCfg E p) m3 l w = .ok m4 ∧
      ∀ k', K k' → Map.exec (a.physCfg E p) m4 (.find k') = .ok (m4, .found ((s.dict.set k w).get k')) := by
  have hkey : K k := ((h.legal (.update k) (by simp)).1 k rfl).resolve_right hk
  have hst : (a.nlmSpec p h.params).stable := by
    rcases ha with rfl | rfl <;> exact trivial
  obtain ⟨s1, xs1, xs2, f1, f2, _⟩ := AState.run_split hs
  obtain ⟨s2, x2, xs3, g1, g2, _⟩ := AState.run_cons f2
  obtain ⟨hsb, n2, l', ρ, hr, r, hl, q1, q2, q3⟩ := phys_ptr h f1 g1 hk h0 h1 h2
  have h' : a.Admissible p i K ((os1 ++ [.update k]) ++ os2) := by simpa using h
  have hsn : AState.run p.valSize {} (os1 ++ [.update k]) = some (s2, xs1 ++ [x2]) := AState.run_snoc f1 g1
  have hq := Phys.run_sim os2 r
  rw [← Phys.physCfg_eq, h3] at hq
  have hrun := Map.run_exact h'.keys (a.ok p h'.params _ _ hsb) os2 n2 s2 (Or.inr (Or.inr q1)) q2 (fun o ho => h'.legal o (by simp [ho]))
    (h'.z0.imp id (fun hz => hz.arun hsn)) s xs3 g2 _ (Nat.le_refl _)
  cases hn : Map.run (a.cfg p) n2 os2 with
  | error f =>
    rw [hn] at hq hrun
    exfalso
    rcases hq with hq | hq
    · subst hq
      rcases hrun.2 with h | h <;> cases h
    · cases hq
  | ok y =>
    obtain ⟨n3, zs'⟩ := y
    rw [hn] at hq
    obtain ⟨_, e4, ⟨ρ3, le, r3⟩, e5⟩ := hq
    cases e4
    dsimp only at r3
    have hl3 := hl.le (le hr)
    obtain ⟨_, _, _, _, t⟩ := Alias.cont h' hsn g2 hsb (Or.inr (Or.inr q1)) q2 hn
    obtain ⟨t1, t2⟩ := t hst q1
    obtain ⟨u1, u2⟩ := Alias.ptr_use h.params hsb hkey t2 (t1 l' k hkey q3)
    constructor
    · obtain ⟨v, v1, v2⟩ := u1
      have hv := Phys.load_sim r3 hl3
      rw [← Phys.physCfg_eq, v2] at hv
      obtain ⟨_, v3, rfl⟩ := hv
      exact ⟨v, v1, v3⟩
    · intro w hw
      obtain ⟨n4, w1, w2⟩ := u2 w hw
      have hv := Phys.store_sim r3 hl3 w
      rw [← Phys.physCfg_eq, w1] at hv
      obtain ⟨m4, w3, r4⟩ := hv
      refine ⟨m4, w3, fun k' hk' => ?_⟩
      have hx := Phys.exec_sim r4 (.find k')
      rw [← Phys.physCfg_eq, w2 k' hk'] at hx
      obtain ⟨⟨m5, x5⟩, w4, _, w5⟩ := hx
      dsimp only at w5
      subst w5
      rw [w4]
      rw [find_same w4]

private theorem load_flat {n : a.PNlm} {q o : Nat} {v : Val} (h : (a.physL E p).load n ⟨.heap q, o⟩ = .ok v) :
    (a.physHeap n).load q o p.valSize = .ok v := by
  cases a <;> exact h

private theorem load_heap {n : a.Nlm} {q o : Nat} {v : Val} (h : (a.cfg p).L.load n ⟨.heap q, o⟩ = .ok v) :
    (a.heap n).load q o p.valSize = .ok v := by
  cases a <;> exact h

private theorem flat_range {f : Phys.Heap} {q o vs : Nat} {v : Val} (h : f.load q o vs = .ok v) :
    ∃ n, (q, n) ∈ f.live ∧ o + vs ≤ n ∧ v = Phys.Heap.slice f.bytes (q + o) vs := by
  obtain ⟨b, hb, h⟩ := R.bind_eq_ok h
  unfold Phys.Heap.block at hb
  cases e : f.sizeAt q with
  | none => rw [e] at hb; cases hb
  | some n =>
    rw [e] at hb
    cases hb
    rw [Phys.Heap.slice_length] at h
    split at h
    next hr =>
      cases h
      refine ⟨n, Phys.Heap.sizeAt_mem e, hr, ?_⟩
      apply List.ext_getElem
      · simp [Phys.Heap.slice]; omega
      · intro j h1 h2
        simp [Phys.Heap.slice, Nat.add_assoc]
    next => cases h

/-- **C52** What is read through a pointer into a heap block is what the memory contains at that address: the pointer needs no
interpretation by the map. -/
theorem C52_raw_bytes {q o : Nat} {v : Val} (h : Map.load (a.physCfg E p) m ⟨.heap q, o⟩ = .ok v) :
    v = (List.range p.valSize).map (fun j => (a.physHeap m.nlm).bytes (q + o + j)) := by
  rw [Phys.physCfg_eq] at h
  obtain ⟨_, _, _, e⟩ := flat_range (load_flat h)
  exact e

/-- **C52** The values of different keys never share a byte of memory. -/
theorem C52_values_apart (h : a.Admissible p i K os) (hs : Supported p.valSize os) (h0 : a.physNew E p i = .ok m0)
    (h1 : Map.run (a.physCfg E p) m0 os = .ok (m, xs)) {k k' : Key} (hk : K k) (hk' : K k') (hne : k ≠ k') {q o q' o' j j' : Nat}
    (h2 : Map.find (a.physCfg E p) m k = .ok (some ⟨.heap q, o⟩)) (h3 : Map.find (a.physCfg E p) m k' = .ok (some ⟨.heap q', o'⟩))
    (hj : j < p.valSize) (hj' : j' < p.valSize) : q + o + j ≠ q' + o' + j' := by
  obtain ⟨n0, n, ρ, e0, e1, r⟩ := phys_back h hs h0 h1
  obtain ⟨s, zs, hs⟩ := hs
  obtain ⟨hsb, hS, _⟩ := Alias.reach h hs e0 e1
  have key : ∀ (k : Key), K k → ∀ {q o : Nat}, Map.find (a.physCfg E p) m k = .ok (some ⟨.heap q, o⟩) →
      ∃ b v, Map.find (a.cfg p) n k = .ok (some ⟨.heap b, o⟩) ∧ ρ b q ∧ (a.heap n.nlm).load b o p.valSize = .ok v ∧
        (a.physHeap m.nlm).load q o p.valSize = .ok v := by
    intro k hk q o hf
    have hq := Phys.find_sim r k
    rw [← Phys.physCfg_eq, hf] at hq
    rcases Map.State.find h.keys hS hk with ⟨_, h3⟩ | ⟨l', h3, h4, h5⟩
    · rw [h3] at hq
      obtain ⟨_, e3, hl⟩ := hq
      cases e3
      exact hl.elim
    · rw [h3] at hq
      obtain ⟨_, e3, hl⟩ := hq
      cases e3
      obtain ⟨v, _, v2, _⟩ := h4.load hk h5
      have hv := Phys.load_sim r hl
      unfold Map.load at hv v2
      rw [v2] at hv
      obtain ⟨_, v3, rfl⟩ := hv
      obtain ⟨bl, o'⟩ := l'
      obtain ⟨w1, w2⟩ := hl
      dsimp only at w1 w2
      subst w1
      cases bl with
      | heap b => exact ⟨b, v, h3, w2, load_heap v2, load_flat v3⟩
      | buf g => exact w2.elim
  obtain ⟨b, v, c1, c2, c3, c4⟩ := key k hk h2
  obtain ⟨b', v', d1, d2, d3, d4⟩ := key k' hk' h3
  have hfind : ∀ x, K x → ∃ y, Map.find (a.cfg p) n x = .ok y := fun x hx => by
    rcases Map.State.find h.keys hS hx with ⟨_, h3⟩ | ⟨l', h3, _⟩
    · exact ⟨_, h3⟩
    · exact ⟨_, h3⟩
  have hdis := (Threads.start (a.byteSpec p h.params) h.keys hS
    (ptr := fun x => match Map.find (a.cfg p) n x with | .ok y => y | .error _ => none)
    (fun x hx => by obtain ⟨y, hy⟩ := hfind x hx; rw [hy])).1.disj
  by_cases hb : b = b'
  · subst hb
    have := (Phys.aliasSim_heap E a p r.nlm).fn _ _ _ c2 d2
    subst this
    have hd := hdis k k' ⟨.heap b, o⟩ ⟨.heap b, o'⟩ j j' hk hk' hne (by simp only [c1]) (by simp only [d1]) hj hj'
    intro he
    apply hd
    simp only [Loc.plus]
    rw [show o + j = o' + j' by omega]
  · have hlive : ∀ {x o : Nat} {v : Val}, (a.heap n.nlm).load x o p.valSize = .ok v → (a.heap n.nlm).B x ≠ none := by
      intro x o v hx hc
      obtain ⟨bb, hbb, _⟩ := R.bind_eq_ok hx
      have := Poplar.Heap.block_eq (a.heap n.nlm) x
      rw [hc, hbb] at this
      cases this
    have hqq : q ≠ q' := by
      rintro rfl
      exact hb ((Phys.aliasSim_heap E a p r.nlm).inj _ _ _ c2 d2 (hlive c3) (hlive d3))
    obtain ⟨N, f1, f2, _⟩ := flat_range c4
    obtain ⟨N', f1', f2', _⟩ := flat_range d4
    have := ((Phys.aliasSim_heap E a p r.nlm).wf.apart f1 f1' hqq).2
    dsimp only at this
    omega

/-- the situation of `C52_pointers` and `C52_raw_bytes` arises with every allocator: within the limits all the calls succeed -/
theorem C52_hypotheses_met (E : Phys.Env) (h : a.Admissible p i K (os1 ++ .update k :: os2)) (hA : SmallAlphabet (os1 ++ .update k :: os2))
    (hk : ¬ Malformed k) (hl : ¬ a.AtLimit p i (os1 ++ .update k :: os2)) :
    ∃ m0 m1 xs m2 l m3 ys, a.physNew E p i = .ok m0 ∧ Map.run (a.physCfg E p) m0 os1 = .ok (m1, xs) ∧
      Map.update (a.physCfg E p) m1 k = .ok (m2, .ptr l) ∧ Map.run (a.physCfg E p) m2 os2 = .ok (m3, ys) := by
  obtain ⟨n0, n1, xs, n2, l, n3, ys, e0, e1, e2, e3⟩ := C15_hypotheses_met h hA hk hl
  have hr := Phys.new_sim E a p i
  rw [e0] at hr
  obtain ⟨m0, f0, r0⟩ := hr
  have hr := Phys.run_sim os1 r0
  rw [e1, ← Phys.physCfg_eq] at hr
  obtain ⟨⟨m1, xs'⟩, f1, ⟨ρ1, _, r1⟩, _⟩ := hr
  have hr := Phys.update_sim r1 k
  rw [e2, ← Phys.physCfg_eq] at hr
  obtain ⟨⟨m2, u⟩, f2, ρ2, _, r2, hu⟩ := hr
  have hr := Phys.run_sim os2 r2
  rw [e3, ← Phys.physCfg_eq] at hr
  obtain ⟨⟨m3, ys'⟩, f3, _, _⟩ := hr
  cases u with
  | ptr l' => exact ⟨m0, m1, xs', m2, l', m3, ys', f0, f1, f2, f3⟩
  | null => exact hu.elim
  | exn => exact hu.elim

/-! Allocators. -/

/-- an address behind all blocks in use -/
private def top (live : List (Nat × Nat)) : Nat := (live.map (fun e => e.1 + e.2 + 1)).sum

private theorem top_spec {live : List (Nat × Nat)} {e : Nat × Nat} (h : e ∈ live) : e.1 + e.2 < top live := by
  unfold top
  induction live with
  | nil => cases h
  | cons x xs ih =>
    simp only [List.map_cons, List.sum_cons]
    rcases List.mem_cons.1 h with rfl | h
    · omega
    · have := ih h; omega

/-- every block behind all others; unused memory is left alone -/
private def bump : Phys.Env where
  pick _ live _ := top live
  junk _ := 0xAB
  scribble _ _ := 0xCD
  pick_ok calls live n e he := by
    have := top_spec he
    exact ⟨by dsimp only; omega, by dsimp only; omega⟩

/-- the first address at which the block fits, so that released memory is used again at once; unused memory is filled with what looks like labels -/
private def firstFit : Phys.Env where
  pick _ live n := ((List.range (top live)).find? (fun a => live.all (fun e => a != e.1 && (a + n ≤ e.1 || e.1 + e.2 ≤ a)))).getD (top live)
  junk x := UInt8.ofNat x
  scribble calls x := UInt8.ofNat (97 + (calls + x) % 3)
  pick_ok calls live n e he := by
    cases hf : (List.range (top live)).find? (fun a => live.all (fun e => a != e.1 && (a + n ≤ e.1 || e.1 + e.2 ≤ a))) with
    | none =>
      have := top_spec he
      simp only [Option.getD_none]
      exact ⟨by dsimp only; omega, by dsimp only; omega⟩
    | some a =>
      have := List.find?_some hf
      have := List.all_eq_true.1 this e he
      simp only [Bool.and_eq_true, Bool.or_eq_true, decide_eq_true_eq, bne_iff_ne] at this
      exact ⟨this.1, this.2⟩

/-- two keys of the demo history: update the first, then go on with the others, on a memory that is reused -/
example (a : Alias) : ∃ m0 m1 xs m2 l m3 ys, a.physNew firstFit demoParams .default = .ok m0 ∧
    Map.run (a.physCfg firstFit demoParams) m0 [] = .ok (m1, xs) ∧
    Map.update (a.physCfg firstFit demoParams) m1 [97, 98, 99, 0] = .ok (m2, .ptr l) ∧
    Map.run (a.physCfg firstFit demoParams) m2 demo = .ok (m3, ys) :=
  C52_hypotheses_met firstFit (demo_admissible a .default trivial ([] ++ .update [97, 98, 99, 0] :: demo) (by decide) (by decide))
    (small_of [97, 98, 99, 120] (by decide) (by decide)) (by decide) (within a (by decide))

/-- `firstFit` gives out released memory again: after allocating blocks of 3 and 2 bytes (at 0 and 3) and releasing the first, a block of one
byte and then one of 2 bytes are put where it was; the abstract heap would use new addresses -/
example : (let h := Phys.Heap.init firstFit
    let (h, a) := h.alloc 3
    let (h, b) := h.alloc 2
    do
      let h ← h.free a
      let (h, c) := h.alloc 1
      let (_, d) := h.alloc 2
      pure [a, b, c, d]) = Except.ok (ε := Fault) [0, 3, 0, 1] := by decide

/-- the dictionary of the example of C01 -/
example (a : Alias) (E : Phys.Env) : a.physHistory E demoParams .default demo =
    .ok [.done, .done, .value [0, 0, 0, 0], .found (some [1, 2, 3, 4]), .done, .exn, .exn, .count 3] :=
  (C52_any_allocator E (demo_admissible a .default trivial demo (by decide) (by decide)) (small_of [97, 98, 99, 120] (by decide) (by decide))).ok
    (within a (by decide))

example (a : Alias) : a.physHistory firstFit demoParams .default demo = a.physHistory bump demoParams .default demo :=
  (C52_same_answers firstFit bump (demo_admissible a .default trivial demo (by decide) (by decide))
    ((small_of [97, 98, 99, 120] (by decide) (by decide) : SmallAlphabet demo).run.elim fun _ h => ⟨_, _, h⟩)).1

end Poplar.Props
