import Verif.Proof.TrieRun
/-
  C24-C27: the four dynamic tries.

  `c` is any of the four classes with any template arguments meeting `TrieClass.Valid`; a user builds a tree by a
  history `os` of `add_child` and `expand` calls (Spec/Tree.lean) and notes the id of every node (Model/TrieRun.lean).
-/
namespace Poplar

/-- `min_capa_bits` -/
def TrieClass.minCapaBits : TrieClass → Nat
  | plainBonsai cfg | plainFkhash cfg => cfg.minCapaBits
  | compactBonsai cfg | compactFkhash cfg => cfg.minCapaBits

/-- `MaxFactor` -/
def TrieClass.maxFactor : TrieClass → Nat
  | plainBonsai cfg | plainFkhash cfg => cfg.maxFactor
  | compactBonsai cfg | compactFkhash cfg => cfg.maxFactor

/-- Sensible template arguments: `MaxFactor` percent of the smallest table are at least two slots, and leave at least
two slots free; the compact tries have tables of at least 2^12 slots, and `Dsp1Bits` and the value bits of `AuxCht` leave all table entries within
64 bits. -/
def TrieClass.Valid (c : TrieClass) : Prop :=
  c.maxFactor < 100 ∧ 2 ≤ maxSize (2 ^ c.minCapaBits) c.maxFactor ∧
  maxSize (2 ^ c.minCapaBits) c.maxFactor + 2 ≤ 2 ^ c.minCapaBits ∧
  match c with
  | compactBonsai cfg | compactFkhash cfg =>
    12 ≤ cfg.minCapaBits ∧ 0 < cfg.dsp.dsp1Bits ∧ cfg.dsp.dsp1Bits ≤ min 16 cfg.minCapaBits ∧
    0 < cfg.dsp.dsp2Bits ∧ cfg.dsp.dsp2Bits ≤ 11
  | _ => True

/-- number of nodes below which no size limit can be hit, for a trie constructed with `capa_bits = cb` and `symb_bits = sb` -/
def TrieClass.nodeLimit (c : TrieClass) (sb cb : Nat) : Nat :=
  match c with
  | compactBonsai cfg | compactFkhash cfg =>
    if cfg.maxFactor ≤ 80 then maxSize (2 ^ (63 - sb)) cfg.maxFactor
    else min (maxSize (2 ^ (63 - sb)) cfg.maxFactor) (maxSize (2 ^ max cfg.minCapaBits cb) 80)
  | plainBonsai cfg | plainFkhash cfg => maxSize (2 ^ (63 - sb)) cfg.maxFactor

/-- the debug assertion `key != 0` of plain_fkhash_trie.hpp:104 is not in the way -/
def TrieClass.AssertOk (c : TrieClass) (os : List Spec.TreeOp) : Prop :=
  match c with
  | plainFkhash cfg => cfg.dbg = false ∨ ∀ o ∈ os, ¬ o.zeroChild
  | _ => True

namespace Props
open Poplar Poplar.Spec

theorem cfgOK {cfg : CompactCfg} (h : (TrieClass.compactBonsai cfg).Valid) : cfg.OK := by
  obtain ⟨h1, h2, h3, h4, h5, h6, h7, h8⟩ := h
  exact ⟨⟨h1, h2, h3⟩, h4, ⟨h5, by omega, h7, h8⟩, by omega⟩

/-- the contract of a class (proof-internal) -/
private def specOf (c : TrieClass) (hc : c.Valid) (sb cb : Nat) (hsb : 0 < sb) (os : List TreeOp) (ha : c.AssertOk os) :
    (z0 : Prop) ×' (S : TrieSpec c.ops sb (c.nodeLimit sb cb) z0) ×' (S.minb = c.minCapaBits) ×' (S.mf = c.maxFactor) ×' (S.cb0 ≤ cb) ×'
      (z0 ∨ ∀ o ∈ os, ¬ o.zeroChild) :=
  match c with
  | .plainBonsai cfg => ⟨True, PlainBonsai.spec cfg ⟨hc.1, hc.2.1, hc.2.2.1⟩ sb hsb, rfl, rfl, Nat.zero_le _, Or.inl trivial⟩
  | .compactBonsai cfg => ⟨True, CompactBonsai.spec cfg (cfgOK hc) sb hsb cb, rfl, rfl, Nat.le_refl _, Or.inl trivial⟩
  | .plainFkhash cfg => ⟨cfg.dbg = false, PlainFk.spec cfg ⟨hc.1, hc.2.1, hc.2.2.1⟩ sb, rfl, rfl, Nat.zero_le _, ha⟩
  | .compactFkhash cfg => ⟨True, CompactFk.spec cfg (cfgOK hc) sb hsb cb, rfl, rfl, Nat.le_refl _, Or.inl trivial⟩

variable {c : TrieClass} {cb sb : Nat} {os : List TreeOp}

/-- what all theorems of this file assume about the constructor call and the history -/
structure TrieUse (c : TrieClass) (cb sb : Nat) (os : List TreeOp) : Prop where
  valid : c.Valid
  symb : 0 < sb
  width : max c.minCapaBits cb + sb < 64
  legal : ∀ o ∈ os, o.Legal sb
  assertOk : c.AssertOk os

private theorem good (h : TrieUse c cb sb os) : ∃ (z0 : Prop) (S : TrieSpec c.ops sb (c.nodeLimit sb cb) z0),
    S.minb = c.minCapaBits ∧ S.mf = c.maxFactor ∧
    Post (c.nodeLimit sb cb ≤ 1 + adds os) (Notes.build c.ops cb sb os) (fun n => Notes.Good S n (Spec.Tree.run os)) := by
  obtain ⟨z0, S, h1, h3, h4, h2⟩ := specOf c h.valid sb cb h.symb os h.assertOk
  exact ⟨z0, S, h1, h3, Notes.build_good S h4 (by rw [h1]; exact h.width) h.legal h2⟩

private theorem paths_legal {ps : Spec.Tree} (hl : ∀ o ∈ os, o.Legal sb) (hp : ∀ p ∈ ps, ∀ s ∈ p, s < 2 ^ sb) :
    ∀ p ∈ os.foldl Spec.Tree.step ps, ∀ s ∈ p, s < 2 ^ sb := by
  induction os generalizing ps with
  | nil => exact hp
  | cons o os ih =>
    rw [List.foldl_cons]
    apply ih (fun o ho => hl o (by simp [ho]))
    cases o with
    | expand => exact hp
    | add q s =>
      simp only [Spec.Tree.step]
      split
      · rename_i hq
        intro p hm x hx
        rcases List.mem_append.1 hm with hm | hm
        · exact hp p hm x hx
        · simp only [List.mem_singleton] at hm
          subst hm
          rcases List.mem_cons.1 hx with rfl | hx
          · exact hl (.add q x) (by simp)
          · exact hp q hq.1 x hx
      · exact hp

/-- a non-trivial history: two branches, a repeated `add_child`, an `expand`, then more nodes -/
def demoTree : List TreeOp := [.add [] 5, .add [] 0, .add [5] 7, .add [] 5, .expand, .add [7, 5] 1, .add [0] 5]

theorem demoUse (c : TrieClass) (hc : c = .plainBonsai ⟨16, 90, id⟩ ∨ c = .compactBonsai ⟨16, 90, ⟨5, 6⟩⟩ ∨
    c = .plainFkhash ⟨⟨16, 90, id⟩, false⟩ ∨ c = .compactFkhash ⟨16, 90, {}⟩) : TrieUse c 0 13 demoTree := by
  refine ⟨?_, by decide, ?_, ?_, ?_⟩
  · rcases hc with rfl | rfl | rfl | rfl <;>
      refine ⟨by decide, by decide, by decide, ?_⟩ <;> trivial
  · rcases hc with rfl | rfl | rfl | rfl <;> decide
  · intro o ho
    simp only [demoTree, List.mem_cons, List.not_mem_nil, or_false] at ho
    rcases ho with rfl | rfl | rfl | rfl | rfl | rfl | rfl <;> first | trivial | (simp only [TreeOp.Legal]; omega)
  · rcases hc with rfl | rfl | rfl | rfl <;> first | trivial | exact Or.inl rfl

/-- **C24** No history fails, except that a size limit can be hit when there are too many nodes: no undefined behaviour,
failed assertion or endless loop. -/
theorem C24_no_failure (h : TrieUse c cb sb os) :
    (∃ n, Notes.build c.ops cb sb os = .ok n) ∨
      (c.nodeLimit sb cb ≤ 1 + adds os ∧
        (Notes.build c.ops cb sb os = .error .limit ∨ Notes.build c.ops cb sb os = .error .throw)) := by
  obtain ⟨z0, S, _, _, hp⟩ := good h
  cases hb : Notes.build c.ops cb sb os with
  | ok n => exact Or.inl ⟨n, rfl⟩
  | error e =>
    rw [hb] at hp
    refine Or.inr ⟨hp.1, ?_⟩
    rcases hp.2 with rfl | rfl <;> simp

/-- **C24** Search. The noted ids belong to exactly the paths of the tree, they are distinct (and not nil); `find_child`
returns the noted id of the child, and nil if there is no such child; `add_child` of an existing child returns its id and
`false`; `size` is the number of nodes. -/
theorem C24_search (h : TrieUse c cb sb os) {n : Notes c.Obj} (hn : Notes.build c.ops cb sb os = .ok n) :
    n.ids.map (·.1) = Spec.Tree.run os ∧ (n.ids.map (·.2)).Nodup ∧ c.ops.size n.trie = (Spec.Tree.run os).length ∧
    (∀ p v, (p, v) ∈ n.ids → v ≠ u64max ∧
      ∀ s < 2 ^ sb,
        (∀ i, (s :: p, i) ∈ n.ids → c.ops.findChild n.trie v s = .ok i) ∧
        (s :: p ∉ Spec.Tree.run os → c.ops.findChild n.trie v s = .ok u64max)) := by
  obtain ⟨z0, S, _, _, hp⟩ := good h
  have g := hp.of_eq hn
  have hnd : (n.ids.map (·.1)).Nodup := by rw [g.paths]; exact g.nodup
  refine ⟨g.paths, ?_, g.size, ?_⟩
  · have hl : n.ids.Nodup := List.Nodup.of_map _ hnd
    refine List.Nodup.map_on ?_ hl
    rintro ⟨p, i⟩ h1 ⟨q, j⟩ h2 e
    simp only at e
    subst e
    rw [S.T_inj _ g.inv p q i (g.mem_iff.1 h1) (g.mem_iff.1 h2)]
  · intro p v hpv
    have hT := g.mem_iff.1 hpv
    refine ⟨by have := (S.T_bound _ g.inv p v hT).2; omega, fun s hs => ⟨fun i hi => ?_, fun hni => ?_⟩⟩
    · rw [S.find _ g.inv p v s hT hs, g.mem_iff.1 hi]; rfl
    · rw [S.find _ g.inv p v s hT hs, g.tree]
      have : n.id? (s :: p) = none := (Notes.lookup_none_iff _ _).2 (by rw [g.paths]; exact hni)
      rw [this]; rfl

/-- **C24** `add_child` of an existing child returns its id and `false`, and of a new child a new id and `true`. -/
theorem C24_add (h : TrieUse c cb sb os) {n : Notes c.Obj} (hn : Notes.build c.ops cb sb os = .ok n)
    {p : Path} {v s : Nat} (hv : (p, v) ∈ n.ids) (hs : s < 2 ^ sb) (ha : c.AssertOk [.add p s])
    {t : c.Obj} {i : Nat} {b : Bool} (he : c.ops.addChild n.trie v s = .ok (t, i, b)) :
    (b = true ↔ s :: p ∉ Spec.Tree.run os) ∧ (b = true → i ∉ n.ids.map (·.2) ∧ i ≠ u64max) ∧ (b = false → (s :: p, i) ∈ n.ids) ∧
      c.ops.findChild t v s = .ok i := by
  obtain ⟨z0, S, hm, hmf, hz⟩ := specOf c h.valid sb cb h.symb (os ++ [.add p s]) (by
    cases c with
    | plainFkhash cfg =>
      rcases h.assertOk with h1 | h1
      · exact Or.inl h1
      · rcases ha with h2 | h2
        · exact Or.inl h2
        · refine Or.inr (fun o ho => ?_)
          rcases List.mem_append.1 ho with ho | ho
          · exact h1 o ho
          · exact h2 o ho
    | _ => trivial)
  have g := (Notes.build_good S hz.1 (by rw [hm]; exact h.width) h.legal (hz.2.imp id (fun hz o ho => hz o (by simp [ho])))).of_eq hn
  have hT := g.mem_iff.1 hv
  have hadd := (S.add n.trie g.inv g.room p v s hT hs (hz.2.imp id (fun hz hc => hz (.add p s) (by simp) hc))).of_eq he
  obtain ⟨h1, h2, h3, h4, h5, h6, h7, h8⟩ := hadd
  dsimp only at *
  have hmem : s :: p ∉ Spec.Tree.run os ↔ S.T n.trie (s :: p) = none := by
    rw [g.tree, ← g.paths]; exact (Notes.lookup_none_iff _ _).symm
  have hTi : S.T t (s :: p) = some i := by rw [h3]; simp
  have hTv : S.T t p = some v := by
    rw [h3, if_neg, hT]
    intro e
    have := congrArg List.length e
    simp at this
  refine ⟨?_, ?_, ?_, ?_⟩
  · rw [hmem, h2]; cases S.T n.trie (s :: p) <;> simp
  · intro hb
    rw [hb] at h2
    have hnone : S.T n.trie (s :: p) = none := by
      cases hx : S.T n.trie (s :: p) with
      | none => rfl
      | some j => rw [hx] at h2; cases h2
    refine ⟨?_, by have := (S.T_bound _ h1 _ _ hTi).2; omega⟩
    intro hc
    obtain ⟨⟨q, j⟩, hq, rfl⟩ := List.mem_map.1 hc
    have hTq := g.mem_iff.1 hq
    have hTq' : S.T t q = some j := by
      rw [h3]; split
      · rfl
      · exact hTq
    have := S.T_inj _ h1 _ _ _ hTi hTq'
    rw [this, hTq] at hnone
    cases hnone
  · intro hb
    rw [hb] at h2
    cases hx : S.T n.trie (s :: p) with
    | none => rw [hx] at h2; cases h2
    | some j => rw [g.mem_iff, hx, h4 j hx]
  · rw [S.find _ h1 p v s hTv hs, hTi]; rfl

/-- **C25** `expand` in any reachable state of a bonsai trie (unless the keys get too wide): it succeeds and doubles the
capacity; the returned map has one entry per slot, it maps every old node to the node with the same path in the new
trie, and every unused slot to UINT64_MAX; the new trie has no other nodes. -/
theorem C25_expand (h : TrieUse c cb sb os) (hk : c.ops.kind = .bonsai) {n : Notes c.Obj}
    (hn : Notes.build c.ops cb sb os = .ok n) (hw : c.ops.capaBits n.trie + 1 + sb < 64) :
    ∃ t nm, c.ops.expand n.trie = .ok (t, nm) ∧ c.ops.capaSize t = 2 * c.ops.capaSize n.trie ∧
      c.ops.size t = c.ops.size n.trie ∧ nm.size = c.ops.capaSize n.trie ∧
      (∀ p i, (p, i) ∈ n.ids → ∃ j, nm.get i = .ok j ∧ nodeAt c.ops t p = .ok j ∧ j ≠ u64max) ∧
      (∀ i < c.ops.capaSize n.trie, i ∉ n.ids.map (·.2) → nm.get i = .ok u64max) ∧
      (∀ i k j, i ∈ n.ids.map (·.2) → k ∈ n.ids.map (·.2) → nm.get i = .ok j → nm.get k = .ok j → i = k) := by
  obtain ⟨z0, S, _, _, hp⟩ := good h
  have g := hp.of_eq hn
  obtain ⟨⟨t, nm⟩, e, h1, h2, h3, h4, h5, f, h6, h7, h8⟩ := (S.expandAny hk n.trie g.inv).get (by omega)
  refine ⟨t, nm, e, h4, h3, h5, ?_, ?_, ?_⟩
  · intro p i hi
    have hT := g.mem_iff.1 hi
    have hT' : S.T t p = some (f i) := by rw [h8, hT]; rfl
    refine ⟨f i, h6 p i hT, Notes.walk_ok S h1 hT' ?_, by have := (S.T_bound _ h1 _ _ hT').2; omega⟩
    exact paths_legal (ps := [[]]) h.legal (by simp) p (by
      have : p ∈ n.ids.map (·.1) := List.mem_map.2 ⟨_, hi, rfl⟩
      rw [g.paths] at this; exact this)
  · intro i hi hni
    apply h7 i hi
    intro p hp
    exact hni (List.mem_map.2 ⟨(p, i), g.mem_iff.2 hp, rfl⟩)
  · intro i k j hi hk' h9 h10
    obtain ⟨⟨p, i'⟩, hpi, rfl⟩ := List.mem_map.1 hi
    obtain ⟨⟨q, k'⟩, hqk, rfl⟩ := List.mem_map.1 hk'
    have hTp := g.mem_iff.1 hpi
    have hTq := g.mem_iff.1 hqk
    have e1 := h6 p i' hTp
    have e2 := h6 q k' hTq
    simp only at h9 h10
    rw [h9] at e1; rw [h10] at e2
    injection e1 with e1; injection e2 with e2
    have hp' : S.T t p = some j := by rw [h8, hTp, e1]; rfl
    have hq' : S.T t q = some j := by rw [h8, hTq, e2]; rfl
    have := S.T_inj _ h1 p q j hp' hq'
    subst this
    rw [hTp] at hTq
    injection hTq

/-- **C26** (`plain_bonsai_trie`) `get_parent_and_symb` gives the parent's id and the symbol of every node, and
nil for the root. -/
theorem C26_parent_plain {cfg : PlainCfg} (h : TrieUse (.plainBonsai cfg) cb sb os) {n : Notes PlainBonsai}
    (hn : Notes.build (PlainBonsai.ops cfg) cb sb os = .ok n) :
    (∀ r, ([], r) ∈ n.ids → n.trie.getParentAndSymb r = .ok (u64max, 0)) ∧
    ∀ p s i, (s :: p, i) ∈ n.ids → ∃ v, (p, v) ∈ n.ids ∧ n.trie.getParentAndSymb i = .ok (v, s) := by
  have hf : FactorOK cfg.minCapaBits cfg.maxFactor := ⟨h.valid.1, h.valid.2.1, h.valid.2.2.1⟩
  have g := (Notes.build_good (PlainBonsai.spec cfg hf sb h.symb) (Nat.zero_le _) h.width h.legal (Or.inl trivial)).of_eq hn
  constructor
  · intro r hr
    have hT := g.mem_iff.1 hr
    have : r = 1 := by
      change some 1 = some r at hT
      injection hT with hT; exact hT.symm
    subst this
    exact PlainBonsai.Inv.parentSymb_root hf g.inv
  · intro p s i hi
    have hT := g.mem_iff.1 hi
    obtain ⟨v, hv⟩ := (PlainBonsai.spec cfg hf sb h.symb).T_prefix _ g.inv s p i hT
    refine ⟨v, g.mem_iff.2 hv, ?_⟩
    change tpath (some 1) (n.trie.child sb) (s :: p) = some i at hT
    change tpath (some 1) (n.trie.child sb) p = some v at hv
    rw [tpath, hv] at hT
    exact PlainBonsai.Inv.parentSymb_ok g.inv hT

/-- **C26** (`compact_bonsai_trie`) the same -/
theorem C26_parent_compact {cfg : CompactCfg} (h : TrieUse (.compactBonsai cfg) cb sb os) {n : Notes CompactBonsai}
    (hn : Notes.build (CompactBonsai.ops cfg) cb sb os = .ok n) :
    (∀ r, ([], r) ∈ n.ids → n.trie.getParentAndSymb cfg r = .ok (u64max, 0)) ∧
    ∀ p s i, (s :: p, i) ∈ n.ids → ∃ v, (p, v) ∈ n.ids ∧ n.trie.getParentAndSymb cfg i = .ok (v, s) := by
  have hf : cfg.OK := cfgOK h.valid
  have g := (Notes.build_good (CompactBonsai.spec0 cfg hf sb h.symb) (Nat.zero_le _) h.width h.legal (Or.inl trivial)).of_eq hn
  constructor
  · intro r hr
    have hT := g.mem_iff.1 hr
    have : r = 0 := by
      change some 0 = some r at hT
      injection hT with hT; exact hT.symm
    subst this
    exact CompactBonsai.Inv.parentSymb_root g.inv
  · intro p s i hi
    have hT := g.mem_iff.1 hi
    obtain ⟨v, hv⟩ := (CompactBonsai.spec0 cfg hf sb h.symb).T_prefix _ g.inv s p i hT
    refine ⟨v, g.mem_iff.2 hv, ?_⟩
    change tpath (some 0) (n.trie.child cfg sb) (s :: p) = some i at hT
    change tpath (some 0) (n.trie.child cfg sb) p = some v at hv
    rw [tpath, hv] at hT
    exact CompactBonsai.Inv.parentSymb_ok g.inv hT

/-- **C27** FK-hash tries: the ids in order of creation are 0, 1, 2, ..., whatever expansions have happened since (the user
never translates ids of these classes). -/
theorem C27_dense_ids (h : TrieUse c cb sb os) (hk : c.ops.kind = .fkhash) {n : Notes c.Obj}
    (hn : Notes.build c.ops cb sb os = .ok n) :
    n.ids = (Spec.Tree.run os).zip (List.range (Spec.Tree.run os).length) := by
  obtain ⟨z0, S, _, _, hp⟩ := good h
  have g := hp.of_eq hn
  have := List.zip_of_prod g.paths (g.dense hk)
  exact this

/-- the capacity of a trie: a power of two, at least the initial capacity's minimum, with `MaxFactor` percent or fewer slots used -/
theorem C24_capacity (h : TrieUse c cb sb os) {n : Notes c.Obj} (hn : Notes.build c.ops cb sb os = .ok n) :
    c.ops.capaSize n.trie = 2 ^ c.ops.capaBits n.trie ∧ c.minCapaBits ≤ c.ops.capaBits n.trie ∧
      (Spec.Tree.run os).length ≤ maxSize (c.ops.capaSize n.trie) c.maxFactor := by
  obtain ⟨z0, S, hm, hmf, hp⟩ := good h
  have g := hp.of_eq hn
  obtain ⟨h1, h2, h3, h4⟩ := S.capa n.trie (Or.inr g.inv)
  refine ⟨h3, by rw [← hm]; exact h1, ?_⟩
  rw [h3, ← g.size, ← hmf]
  exact h4

/-- the hypotheses are met for all four classes, and the history builds a tree with six nodes -/
example (c : TrieClass) (hc : c = .plainBonsai ⟨16, 90, id⟩ ∨ c = .compactBonsai ⟨16, 90, ⟨5, 6⟩⟩ ∨
    c = .plainFkhash ⟨⟨16, 90, id⟩, false⟩ ∨ c = .compactFkhash ⟨16, 90, {}⟩) :
    ∃ n, Notes.build c.ops 0 13 demoTree = .ok n ∧ n.ids.map (·.1) = [[], [5], [0], [7, 5], [1, 7, 5], [5, 0]] := by
  have hu := demoUse c hc
  have hl : ¬ c.nodeLimit 13 0 ≤ 1 + adds demoTree := by
    rcases hc with rfl | rfl | rfl | rfl <;> simp only [TrieClass.nodeLimit] <;> decide
  rcases C24_no_failure hu with ⟨n, hn⟩ | ⟨h, _⟩
  · exact ⟨n, hn, (C24_search hu hn).1.trans (by decide)⟩
  · exact absurd h hl

/-- C25's extra hypothesis is met: with 2^16 initial slots the key width allows an expansion -/
example : ∃ n, Notes.build (TrieClass.compactBonsai ⟨16, 90, {}⟩).ops 0 13 [] = .ok n ∧
    (TrieClass.compactBonsai ⟨16, 90, {}⟩).ops.capaBits n.trie + 1 + 13 < 64 := by
  obtain ⟨t, e1, hf, hcb⟩ := (CompactBonsai.spec ⟨16, 90, {}⟩ ⟨by unfold FactorOK; decide, by decide, ⟨by decide, by decide, by decide, by decide⟩, by decide⟩ 13 (by decide) 0).make_ok 0 (by decide) (by decide)
  obtain ⟨t', r, e2, h1, h2, h3, h4, h5, h6, h7⟩ := (CompactBonsai.spec ⟨16, 90, {}⟩ ⟨by unfold FactorOK; decide, by decide, ⟨by decide, by decide, by decide, by decide⟩, by decide⟩ 13 (by decide) 0).fresh_root t hf
  refine ⟨{ trie := t', ids := [([], r)] }, ?_, ?_⟩
  · unfold Notes.build Notes.start TrieClass.ops
    dsimp only
    rw [e1, R.bind_ok, e2, R.bind_ok, h2]
    rfl
  · have c1 := (CompactBonsai.spec ⟨16, 90, {}⟩ ⟨by unfold FactorOK; decide, by decide, ⟨by decide, by decide, by decide, by decide⟩, by decide⟩ 13 (by decide) 0).capa t (Or.inl hf)
    have c2 := (CompactBonsai.spec ⟨16, 90, {}⟩ ⟨by unfold FactorOK; decide, by decide, ⟨by decide, by decide, by decide, by decide⟩, by decide⟩ 13 (by decide) 0).capa t' (Or.inr h1)
    have : (CompactBonsai.ops ⟨16, 90, {}⟩).capaBits t' = 16 := by
      have e := c1.2.2.1; rw [hcb, ← h6, c2.2.2.1] at e
      exact (Nat.pow_right_inj (by decide)).1 e
    show (CompactBonsai.ops ⟨16, 90, {}⟩).capaBits t' + 1 + 13 < 64
    omega

end Props
end Poplar
