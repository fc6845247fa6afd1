import Mathlib.Data.List.Perm.Subperm
import Verif.Props.Demo
import Verif.Props.C15_Pointers
import Verif.Proof.Dangling
/-
  C16: value pointers of the maps with compact node label maps are not stable.
-/
namespace Poplar.Props
open Poplar Poplar.Spec

/-- the aliases with `compact_bonsai_nlm` (poplar.hpp:45-49,59-63) -/
def CompactBonsaiLabels : Alias → Prop
  | .semiCompactBonsai | .compactBonsai => True
  | _ => False

/-- the aliases with `compact_fkhash_nlm` (poplar.hpp) -/
def CompactFkhashLabels : Alias → Prop
  | .semiCompactFkhash | .compactFkhash => True
  | _ => False

/-- call `update` for every key of the list and keep everything it returns -/
def updateAll {τ ν : Type} (cfg : MapCfg τ ν) : Map τ ν → List Key → R (Map τ ν × List UpdOut)
  | m, [] => .ok (m, [])
  | m, k :: ks => do
    let (m, r) ← Map.update cfg m k
    let (m, rs) ← updateAll cfg m ks
    pure (m, r :: rs)

/-- dereferencing the pointer is an access to memory that has been released -/
def dangling {τ ν : Type} (cfg : MapCfg τ ν) (m : Map τ ν) (l : Loc) : Bool := decide (Map.load cfg m l = .error .oob)

section
variable {τ ν : Type} {cfg : MapCfg τ ν}

private theorem updateAll_of_run : ∀ (ks : List Key) {m m' : Map τ ν} {xs : List Out},
    Map.run cfg m (ks.map .update) = .ok (m', xs) → ∃ rs, updateAll cfg m ks = .ok (m', rs) := by
  intro ks
  induction ks with
  | nil => intro m m' xs h; cases h; exact ⟨_, rfl⟩
  | cons k ks ih =>
    intro m m' xs h
    obtain ⟨⟨m1, x⟩, h1, h⟩ := R.bind_eq_ok h
    obtain ⟨⟨m2, ys⟩, h2, h⟩ := R.bind_eq_ok h
    cases h
    obtain ⟨⟨m3, r⟩, h3, h1⟩ := R.bind_eq_ok h1
    have e : m3 = m1 := by
      dsimp only at h1
      split at h1
      · obtain ⟨v, _, h1⟩ := R.bind_eq_ok h1
        cases h1; rfl
      · cases h1; rfl
      · cases h1; rfl
    subst e
    obtain ⟨rs, h4⟩ := ih h2
    exact ⟨r :: rs, by simp only [updateAll, h3, R.bind_ok, h4, R.pure_eq]⟩
end

section
variable {τ : Type} {W vs : Nat} {T : TrieOps τ} {d : Bool}

private theorem updateAll_blocks {cfg : MapCfg τ CompactBonsaiNlm} (hL : cfg.L = CompactBonsaiNlm.ops W vs) :
    ∀ (ks : List Key) {m m' : Map τ CompactBonsaiNlm} {rs : List UpdOut},
    Map.Reg cfg CompactBonsaiNlm.Own m → updateAll cfg m ks = .ok (m', rs) →
    Map.Reg cfg CompactBonsaiNlm.Own m' ∧ m'.size ≤ m.size + ks.length ∧ CompactBonsaiNlm.Ev m.nlm m'.nlm ∧
    (m'.size = m.size + ks.length → ∃ (ls : List Loc) (as : List Nat), rs = ls.map .ptr ∧ ls.map Loc.blk = as.map .heap ∧
      ls.length = ks.length ∧ as.Pairwise (· < ·) ∧ ∀ a ∈ as, m.nlm.heap.next ≤ a) := by
  have E : Evo cfg.L CompactBonsaiNlm.Own CompactBonsaiNlm.Ev := by rw [hL]; exact CompactBonsaiNlm.evo
  intro ks
  induction ks with
  | nil =>
    intro m m' rs hm h; cases h
    exact ⟨hm, by simp, E.refl _, fun _ => ⟨[], [], rfl, rfl, rfl, List.Pairwise.nil, by simp⟩⟩
  | cons k ks ih =>
    intro m m' rs hm h
    obtain ⟨⟨m1, r⟩, h1, h⟩ := R.bind_eq_ok h
    obtain ⟨⟨m2, rs'⟩, h2, h⟩ := R.bind_eq_ok h
    cases h
    obtain ⟨q1, q2, _, q3⟩ := Map.update_evo E hm h1
    obtain ⟨i1, i2, i3, i4⟩ := ih q1 h2
    refine ⟨i1, ?_, E.trans q2 i3, ?_⟩
    · simp only [List.length_cons]
      rcases q3 with q3 | ⟨q3, _⟩ <;> omega
    · intro hsz
      simp only [List.length_cons] at hsz
      rcases q3 with q3 | ⟨q3, n, l, e1, e2, e3, e4⟩
      · omega
      · obtain ⟨ls, as, f1, f2, f3, f4, f5⟩ := i4 (by omega)
        have e4 : ∃ i k, CompactBonsaiNlm.insert W vs n i k = .ok (m1.nlm, l) := by
          rcases e4 with ⟨i, k, e4⟩ | ⟨k, e4⟩
          · rw [hL] at e4; exact ⟨i, k, e4⟩
          · rw [hL] at e4; cases e4
        obtain ⟨i, k', e4⟩ := e4
        obtain ⟨p1, p2⟩ := CompactBonsaiNlm.insert_put e4
        have hn : m1.nlm.heap.next = n.heap.next + 1 := by
          obtain ⟨c, ptr, _, _, h3, _⟩ := p1; exact h3
        refine ⟨l :: ls, n.heap.next :: as, by simp [f1, e3], by simp [f2, p2], by simp [f3], ?_, ?_⟩
        · refine List.pairwise_cons.2 ⟨fun a ha => ?_, f4⟩
          have := f5 a ha; omega
        · intro a ha
          rcases List.mem_cons.1 ha with rfl | ha
          · exact e2.1
          · have := f5 a ha; have := e2.1; omega

private theorem count_dangling {cfg : MapCfg τ CompactBonsaiNlm} (hL : cfg.L = CompactBonsaiNlm.ops W vs) {m : Map τ CompactBonsaiNlm}
    (hm : CompactBonsaiNlm.Own m.nlm) {ls : List Loc} {as : List Nat} (h1 : ls.map Loc.blk = as.map .heap) (h2 : as.Pairwise (· < ·)) :
    ls.length ≤ (ls.filter (dangling cfg m)).length + m.nlm.ptrs.size := by
  have hnd : (ls.map Loc.blk).Nodup := by
    rw [h1]
    refine List.Nodup.map (fun a b h => by injection h) (h2.imp (fun h => Nat.ne_of_lt h))
  let T := m.nlm.ptrs.toList.map (fun o => match o with | some a => Blk.heap a | none => Blk.buf 0)
  have hsub : (ls.filter (fun l => !dangling cfg m l)).map Loc.blk ⊆ T := by
    intro b hb
    obtain ⟨l, hl, rfl⟩ := List.mem_map.1 hb
    obtain ⟨hl1, hl2⟩ := List.mem_filter.1 hl
    have hmem : l.blk ∈ as.map Blk.heap := by rw [← h1]; exact List.mem_map_of_mem hl1
    obtain ⟨a, _, ha⟩ := List.mem_map.1 hmem
    have hlive : m.nlm.heap.B a ≠ none := by
      intro hd
      have : Map.load cfg m l = .error .oob := by
        show cfg.L.load m.nlm l = _
        rw [hL]; exact CompactBonsaiNlm.load_dead ha.symm hd
      simp [dangling, this] at hl2
    obtain ⟨c, hc⟩ := hm a hlive
    rw [← ha]
    exact List.mem_map.2 ⟨some a, Array.mem_toList_iff.2 (Array.mem_of_getElem? hc), rfl⟩
  have hnd2 : ((ls.filter (fun l => !dangling cfg m l)).map Loc.blk).Nodup :=
    hnd.sublist ((List.filter_sublist).map _)
  have hle := (List.subperm_of_subset hnd2 hsub).length_le
  simp only [List.length_map, T, Array.length_toList] at hle
  have hsplit : ls.length = (ls.filter (dangling cfg m)).length + (ls.filter (fun l => !dangling cfg m l)).length := by
    clear hle hnd2 hsub hnd h1
    induction ls with
    | nil => rfl
    | cons l ls ih =>
      simp only [List.filter_cons]
      cases dangling cfg m l <;> simp [ih] <;> omega
  omega
end

variable {a : Alias} {p : Params} {i : Init} {K : Key → Prop} {os1 os2 : List Op} {k : Key} {ks : List Key}
  {m0 m1 m2 m3 : Map a.Trie a.Nlm} {xs ys : List Out} {l : Loc}

private theorem reg_new {I : a.Nlm → Prop} {P : a.Nlm → a.Nlm → Prop} (E : Evo (a.cfg p).L I P) (h0 : a.new p i = .ok m0) :
    Map.Reg (a.cfg p) I m0 ∧ m0.size = 0 := by
  cases i with
  | default =>
    cases h0
    refine ⟨⟨E.empty, Or.inr ⟨rfl, rfl, ?_⟩⟩, rfl⟩
    cases a <;> rfl
  | make cb lam =>
    obtain ⟨q1, _, q3, q4⟩ := Map.make_evo E h0
    exact ⟨⟨q1, Or.inl q3⟩, q4⟩

/-- **C16** In a map with a `compact_bonsai_nlm` every chunk has one block, which is replaced whenever a key is
added to the chunk. So of the pointers returned when inserting `n` different keys, at least
`n - capa_size() / ChunkSize` dangle in the end. -/
theorem C16_bonsai_most_dangle (ha : CompactBonsaiLabels a) (h : a.Admissible p i K (ks.map .update))
    (hs : Supported p.valSize (ks.map .update)) (h0 : a.new p i = .ok m0)
    (h1 : Map.run (a.cfg p) m0 (ks.map .update) = .ok (m1, xs)) (hsz : m1.size = ks.length) :
    ∃ ls : List Loc, updateAll (a.cfg p) m0 ks = .ok (m1, ls.map .ptr) ∧ ls.length = ks.length ∧
      ks.length ≤ (ls.filter (dangling (a.cfg p) m1)).length + Map.capaSize (a.cfg p) m1 / p.chunkSize := by
  obtain ⟨s, zs, hs⟩ := hs
  obtain ⟨hsb, r1, _⟩ := Alias.reach h hs h0 h1
  have hW : 0 < p.chunkSize := by have := h.params.chunk; omega
  obtain ⟨rs, hu⟩ := updateAll_of_run _ h1
  cases a with
  | plainBonsai => exact ha.elim
  | plainFkhash => exact ha.elim
  | semiCompactFkhash => exact ha.elim
  | compactFkhash => exact ha.elim
  | semiCompactBonsai =>
    obtain ⟨g1, g2⟩ := reg_new (a := .semiCompactBonsai) (p := p) (I := CompactBonsaiNlm.Own) CompactBonsaiNlm.evo h0
    obtain ⟨b1, b2, b3, b4⟩ := updateAll_blocks (W := p.chunkSize) (vs := p.valSize) rfl ks g1 hu
    obtain ⟨ls, as, e1, e2, e3, e4, e5⟩ := b4 (by omega)
    refine ⟨ls, by rw [hu, e1], e3, ?_⟩
    have hc := count_dangling (W := p.chunkSize) (vs := p.valSize) (cfg := Alias.cfg .semiCompactBonsai p) rfl b1.1 e2 e4
    rcases r1 with ⟨rfl, _, _⟩ | ⟨r1, _⟩ | r1
    · have : ks.length = 0 := by rw [← hsz]; rfl
      rw [this]; exact Nat.zero_le _
    · rw [← hsz, r1.size]; exact Nat.zero_le _
    · have h3 : m1.nlm.ptrs.size * p.chunkSize = Map.capaSize (Alias.cfg .semiCompactBonsai p) m1 := r1.inv.core.nlm.1.1
      rw [← h3, Nat.mul_div_cancel _ hW]; omega
  | compactBonsai =>
    obtain ⟨g1, g2⟩ := reg_new (a := .compactBonsai) (p := p) (I := CompactBonsaiNlm.Own) CompactBonsaiNlm.evo h0
    obtain ⟨b1, b2, b3, b4⟩ := updateAll_blocks (W := p.chunkSize) (vs := p.valSize) rfl ks g1 hu
    obtain ⟨ls, as, e1, e2, e3, e4, e5⟩ := b4 (by omega)
    refine ⟨ls, by rw [hu, e1], e3, ?_⟩
    have hc := count_dangling (W := p.chunkSize) (vs := p.valSize) (cfg := Alias.cfg .compactBonsai p) rfl b1.1 e2 e4
    rcases r1 with ⟨rfl, _, _⟩ | ⟨r1, _⟩ | r1
    · have : ks.length = 0 := by rw [← hsz]; rfl
      rw [this]; exact Nat.zero_le _
    · rw [← hsz, r1.size]; exact Nat.zero_le _
    · have h3 : m1.nlm.ptrs.size * p.chunkSize = Map.capaSize (Alias.cfg .compactBonsai p) m1 := r1.inv.core.nlm.1.1
      rw [← h3, Nat.mul_div_cancel _ hW]; omega

private theorem expand_dangles {W vs : Nat} {τ : Type} {cfg : MapCfg τ CompactBonsaiNlm} (hL : cfg.L = CompactBonsaiNlm.ops W vs)
    {m1 m2 : Map τ CompactBonsaiNlm} (hm : Map.Reg cfg CompactBonsaiNlm.Own m1)
    (h2 : Map.run cfg m1 os2 = .ok (m2, ys)) (hc : m2.nlm.ptrs.size ≠ m1.nlm.ptrs.size) {v : List UInt8}
    (hl : Map.load cfg m1 l = .ok v) : Map.load cfg m2 l = .error .oob := by
  have E : Evo cfg.L CompactBonsaiNlm.Own CompactBonsaiNlm.Ev := by rw [hL]; exact CompactBonsaiNlm.evo
  obtain ⟨_, q⟩ := Map.run_evo E os2 hm h2
  have hl : cfg.L.load m1.nlm l = .ok v := hl
  rw [hL] at hl
  obtain ⟨x, x1, x2⟩ := CompactBonsaiNlm.load_live hl
  have hx : x < m1.nlm.heap.next := by
    rcases Nat.lt_or_ge x m1.nlm.heap.next with h | h
    · exact h
    · refine absurd ?_ x2
      unfold Heap.B Heap.next at *
      rw [Array.getElem?_eq_none h]; rfl
  show cfg.L.load m2.nlm l = _
  rw [hL]
  exact CompactBonsaiNlm.load_dead x1 (q.2.2 hc x hx)

/-- **C16** When the capacity of a map with a `compact_bonsai_nlm` grows, all pointers into it dangle. -/
theorem C16_bonsai_expand (ha : CompactBonsaiLabels a) (h : a.Admissible p i K (os1 ++ os2)) (hs : Supported p.valSize (os1 ++ os2))
    (h0 : a.new p i = .ok m0) (h1 : Map.run (a.cfg p) m0 os1 = .ok (m1, xs)) (h2 : Map.run (a.cfg p) m1 os2 = .ok (m2, ys))
    (hc : Map.capaSize (a.cfg p) m2 ≠ Map.capaSize (a.cfg p) m1) {v : Val} (hl : Map.load (a.cfg p) m1 l = .ok v) :
    Map.load (a.cfg p) m2 l = .error .oob := by
  obtain ⟨s, zs, hs⟩ := hs
  obtain ⟨s1, xs1, xs2, f1, f2, _⟩ := AState.run_split hs
  obtain ⟨hsb, r1, r2, _⟩ := Alias.reach h.append_left f1 h0 h1
  obtain ⟨_, r3, _, r4, _⟩ := Alias.cont h f1 f2 hsb r1 r2 h2
  have hW : 0 < p.chunkSize := by have := h.params.chunk; omega
  cases a with
  | plainBonsai => exact ha.elim
  | plainFkhash => exact ha.elim
  | semiCompactFkhash => exact ha.elim
  | compactFkhash => exact ha.elim
  | semiCompactBonsai =>
    have E : Evo (Alias.cfg .semiCompactBonsai p).L CompactBonsaiNlm.Own CompactBonsaiNlm.Ev := CompactBonsaiNlm.evo
    have hreg := (Map.run_evo E os1 (reg_new E h0).1 h1).1
    refine expand_dangles (W := p.chunkSize) (vs := p.valSize) rfl hreg h2 ?_ hl
    have hlab : ∀ {m : Map PlainBonsai CompactBonsaiNlm} {d : Dict}, m.isReady = true →
        Map.State (Alias.trieSpec .semiCompactBonsai p i.symbBits i.capa0 hsb) (Alias.nlmSpec .semiCompactBonsai p h.params) K m d →
        m.nlm.ptrs.size * p.chunkSize = Map.capaSize (Alias.cfg .semiCompactBonsai p) m := by
      intro m d hr hm
      rcases hm with ⟨rfl, _, _⟩ | ⟨hm, _⟩ | hm
      · cases hr
      · exact hm.nlm.1.1
      · exact hm.inv.core.nlm.1.1
    have hr1 : m1.isReady = true := by
      rcases r1 with ⟨rfl, _, _⟩ | ⟨r1, _⟩ | r1
      · obtain ⟨x, x1, x2⟩ := CompactBonsaiNlm.load_live (vs := p.valSize) (show CompactBonsaiNlm.load p.valSize _ l = .ok v from hl)
        exact absurd rfl x2
      · exact r1.ready
      · exact r1.inv.ready
    have e1 := hlab hr1 r1
    have e2 := hlab (r4.1 hr1).1 r3
    intro e
    rw [← e1, ← e2, e] at hc
    exact hc rfl
  | compactBonsai =>
    have E : Evo (Alias.cfg .compactBonsai p).L CompactBonsaiNlm.Own CompactBonsaiNlm.Ev := CompactBonsaiNlm.evo
    have hreg := (Map.run_evo E os1 (reg_new E h0).1 h1).1
    refine expand_dangles (W := p.chunkSize) (vs := p.valSize) rfl hreg h2 ?_ hl
    have hlab : ∀ {m : Map CompactBonsai CompactBonsaiNlm} {d : Dict}, m.isReady = true →
        Map.State (Alias.trieSpec .compactBonsai p i.symbBits i.capa0 hsb) (Alias.nlmSpec .compactBonsai p h.params) K m d →
        m.nlm.ptrs.size * p.chunkSize = Map.capaSize (Alias.cfg .compactBonsai p) m := by
      intro m d hr hm
      rcases hm with ⟨rfl, _, _⟩ | ⟨hm, _⟩ | hm
      · cases hr
      · exact hm.nlm.1.1
      · exact hm.inv.core.nlm.1.1
    have hr1 : m1.isReady = true := by
      rcases r1 with ⟨rfl, _, _⟩ | ⟨r1, _⟩ | r1
      · obtain ⟨x, x1, x2⟩ := CompactBonsaiNlm.load_live (vs := p.valSize) (show CompactBonsaiNlm.load p.valSize _ l = .ok v from hl)
        exact absurd rfl x2
      · exact r1.ready
      · exact r1.inv.ready
    have e1 := hlab hr1 r1
    have e2 := hlab (r4.1 hr1).1 r3
    intro e
    rw [← e1, ← e2, e] at hc
    exact hc rfl

/-- **C16** In a map with a `compact_fkhash_nlm` the labels are collected in a buffer that is moved to a block of its
own when `ChunkSize` of them are complete. So the pointer returned for a new key dangles as soon as `ChunkSize`
further keys have been inserted. -/
theorem C16_fkhash_dangles (ha : CompactFkhashLabels a) (hp : p.Valid) (h0 : a.new p i = .ok m0)
    (h1 : Map.run (a.cfg p) m0 os1 = .ok (m1, xs)) (hu : Map.update (a.cfg p) m1 k = .ok (m2, .ptr l))
    (hnew : m2.size = m1.size + 1) (h2 : Map.run (a.cfg p) m2 os2 = .ok (m3, ys)) (hsz : m2.size + p.chunkSize ≤ m3.size) :
    Map.load (a.cfg p) m3 l = .error .oob := by
  have hW : 0 < p.chunkSize := by have := hp.chunk; omega
  have main : ∀ {τ : Type} {cfg : MapCfg τ CompactFkNlm} (_ : cfg.L = CompactFkNlm.ops p.chunkSize p.valSize)
      {m1 m2 m3 : Map τ CompactFkNlm}, Map.Reg cfg (CompactFkNlm.Rel p.chunkSize) m1 → Map.update cfg m1 k = .ok (m2, .ptr l) →
      m2.size = m1.size + 1 → Map.run cfg m2 os2 = .ok (m3, ys) → m2.size + p.chunkSize ≤ m3.size →
      Map.load cfg m3 l = .error .oob := by
    intro τ cfg hL m1 m2 m3 hm hu hnew h2 hsz
    have E : Evo cfg.L (CompactFkNlm.Rel p.chunkSize) (fun m m' => m.size ≤ m'.size) := by rw [hL]; exact CompactFkNlm.evo hW
    have hA : ∀ {n n' l}, CompactFkNlm.Rel p.chunkSize n → Map.Added cfg n n' l → CompactFkNlm.Rel p.chunkSize n' ∧
        n'.size = n.size + 1 ∧ l.blk = .buf n'.chunkPtrs.size := by
      intro n n' l hn h
      rcases h with ⟨i, k, h⟩ | ⟨k, h⟩
      · rw [hL] at h; cases h
      · rw [hL] at h; exact CompactFkNlm.append_inv hW hn h
    obtain ⟨q1, _, _, q3⟩ := Map.update_evo E hm hu
    rcases q3 with q3 | ⟨_, n, l', e1, _, e3, e4⟩
    · omega
    · cases e3
      obtain ⟨f1, f2, f3⟩ := hA e1 e4
      obtain ⟨g1, _⟩ := Map.run_evo E os2 q1 h2
      have hc := Map.run_count E (fun n => n.size) (fun h => h) (fun hn h => by have := (hA hn h).2.1; omega) os2 q1 h2
      show cfg.L.load m3.nlm l = _
      rw [hL]
      exact CompactFkNlm.load_stale hW f1 g1.1 f3 (by omega) (by omega)
  cases a with
  | plainBonsai => exact ha.elim
  | plainFkhash => exact ha.elim
  | semiCompactBonsai => exact ha.elim
  | compactBonsai => exact ha.elim
  | semiCompactFkhash =>
    have E : Evo (Alias.cfg .semiCompactFkhash p).L (CompactFkNlm.Rel p.chunkSize) (fun m m' => m.size ≤ m'.size) := CompactFkNlm.evo hW
    exact main rfl (Map.run_evo E os1 (reg_new E h0).1 h1).1 hu hnew h2 hsz
  | compactFkhash =>
    have E : Evo (Alias.cfg .compactFkhash p).L (CompactFkNlm.Rel p.chunkSize) (fun m m' => m.size ≤ m'.size) := CompactFkNlm.evo hW
    exact main rfl (Map.run_evo E os1 (reg_new E h0).1 h1).1 hu hnew h2 hsz

/-- `n` different keys of three bytes (for `n ≤ 60000`) -/
def manyKeys (n : Nat) : List Key :=
  (List.range n).map (fun j => [UInt8.ofNat (1 + j / 250), UInt8.ofNat (1 + j % 250), 0])

private theorem ofNat_inj {x y : Nat} (hx : x < 256) (hy : y < 256) (h : UInt8.ofNat x = UInt8.ofNat y) : x = y := by
  have := congrArg UInt8.toNat h
  simpa [Nat.mod_eq_of_lt hx, Nat.mod_eq_of_lt hy] using this

private theorem many_nodup {n : Nat} (hn : n ≤ 60000) : (manyKeys n).Nodup := by
  refine List.Nodup.map_on ?_ List.nodup_range
  intro x hx y hy h
  rw [List.mem_range] at hx hy
  injection h with h1 h2
  injection h2 with h2 _
  have := ofNat_inj (by omega) (by omega) h1
  have := ofNat_inj (by omega) (by omega) h2
  omega

private theorem many_key {n : Nat} (hn : n ≤ 60000) {k : Key} (h : k ∈ manyKeys n) :
    ∃ x y : Nat, 1 ≤ x ∧ x ≤ 250 ∧ 1 ≤ y ∧ y ≤ 250 ∧ k = [UInt8.ofNat x, UInt8.ofNat y, 0] := by
  obtain ⟨j, hj, rfl⟩ := List.mem_map.1 h
  rw [List.mem_range] at hj
  exact ⟨1 + j / 250, 1 + j % 250, by omega, by omega, by omega, by omega, rfl⟩

private theorem ofNat_ne {x : Nat} (h1 : 1 ≤ x) (h2 : x ≤ 250) : UInt8.ofNat x ≠ 0 := by
  intro h
  have := ofNat_inj (x := x) (y := 0) (by omega) (by omega) h
  omega

private theorem many_cstr {n : Nat} (hn : n ≤ 60000) {k : Key} (h : k ∈ manyKeys n) : CString k := by
  obtain ⟨x, y, x1, x2, y1, y2, rfl⟩ := many_key hn h
  refine ⟨[UInt8.ofNat x, UInt8.ofNat y], ?_, rfl⟩
  intro c hc
  simp only [List.mem_cons, List.not_mem_nil, or_false] at hc
  rcases hc with rfl | rfl
  · exact ofNat_ne x1 x2
  · exact ofNat_ne y1 y2

private theorem inserted_updates {ks : List Key} (h : ∀ k ∈ ks, CString k) : inserted (ks.map .update) = ks := by
  induction ks with
  | nil => rfl
  | cons k ks ih =>
    have := CString.not_malformed (h k (by simp))
    simp only [inserted, List.map_cons, List.filterMap_cons, Op.inserts, this, if_false]
    congr 1
    exact ih (fun k hk => h k (by simp [hk]))

private theorem distinct_nodup {ks : List Key} (h : ks.Nodup) : distinct ks = ks.length := by
  induction ks with
  | nil => rfl
  | cons k ks ih =>
    obtain ⟨h1, h2⟩ := List.nodup_cons.1 h
    simp only [distinct, h1, if_false, ih h2, List.length_cons]

private theorem many_cost (n : Nat) : cost ((manyKeys n).map .update) = 3 * n := by
  unfold cost manyKeys
  rw [List.map_map, List.map_map]
  have : ((Op.cost ∘ Op.update) ∘ fun j => [UInt8.ofNat (1 + j / 250), UInt8.ofNat (1 + j % 250), (0 : UInt8)]) = fun _ : Nat => 3 := by
    funext j; rfl
  rw [this]
  simp [Nat.mul_comm]

/-- inserting many keys in any map -/
private theorem many_run (a : Alias) {n : Nat} (hn : n ≤ 60000) (hw : ¬ a.AtLimit demoParams .default ((manyKeys n).map .update)) : a.Admissible demoParams .default (CStrings 4) ((manyKeys n).map .update) ∧
    Supported 4 ((manyKeys n).map .update) ∧ ∃ m0 m xs, a.new demoParams .default = .ok m0 ∧
      Map.run (a.cfg demoParams) m0 ((manyKeys n).map .update) = .ok (m, xs) ∧ m.size = n ∧ m.isReady = decide (n ≠ 0) := by
  have hins := inserted_updates (fun k hk => many_cstr hn hk)
  have hadm : a.Admissible demoParams .default (CStrings 4) ((manyKeys n).map .update) := by
    refine ⟨demo_valid, trivial, keySet_cstrings 4, ?_, Or.inr (Or.inr (Or.inl ?_))⟩
    · intro o ho
      obtain ⟨k, hk, rfl⟩ := List.mem_map.1 ho
      refine ⟨fun k' e => ?_, fun k' v e => by cases e⟩
      injection e with e; subst e
      refine Or.inl ⟨many_cstr hn hk, ?_⟩
      obtain ⟨x, y, _, _, _, _, rfl⟩ := many_key hn hk
      show 3 + 4 < 2 ^ 64
      decide
    · rw [hins]
      intro k h
      obtain ⟨x, y, x1, x2, _, _, rfl⟩ := many_key hn h
      simp only [List.head?_cons, ne_eq, Option.some.injEq]
      intro e
      have := congrArg UInt8.toNat e
      simp only [UInt8.toNat_ofNat', UInt8.toNat_zero] at this
      omega
  have hA : SmallAlphabet ((manyKeys n).map .update) := by
    refine ⟨(List.range 251).map UInt8.ofNat, by simp, ?_⟩
    rw [hins]
    intro k hk c hc h0
    obtain ⟨x, y, x1, x2, y1, y2, rfl⟩ := many_key hn hk
    simp only [List.mem_cons, List.not_mem_nil, or_false] at hc
    rcases hc with rfl | rfl | rfl
    · exact List.mem_map.2 ⟨x, by simp; omega, rfl⟩
    · exact List.mem_map.2 ⟨y, by simp; omega, rfl⟩
    · exact absurd rfl h0
  obtain ⟨bs, hb⟩ := hA.run (vs := 4)
  obtain ⟨hsb, m0, e1, e2⟩ := Alias.after hadm hb
  obtain ⟨⟨m1, xs⟩, e3, _, e5, _⟩ := e2.get hw
  have hd : (Spec.run 4 [] ((manyKeys n).map .update)).1.length = n := by
    rw [Spec.length_run, hins, distinct_nodup (many_nodup hn)]; simp [manyKeys]
  refine ⟨hadm, ⟨_, _, hb⟩, m0, m1, xs, e1, e3, by rw [e5.size]; exact hd, ?_⟩
  by_cases h0 : n = 0
  · subst h0
    injection e1 with e1
    subst e1
    cases e3; rfl
  · rw [decide_eq_true h0]
    refine (e5.live (fun e => h0 ?_)).inv.ready
    dsimp only at e
    rw [← hd]
    have e : (Spec.run 4 [] ((manyKeys n).map .update)).1 = [] := e
    rw [e]; rfl

/-- C16 arises: inserting 4100 keys of three bytes in a new map with a `compact_bonsai_nlm` (`ChunkSize` 16) -/
example (a : Alias) (ha : CompactBonsaiLabels a) : ∃ (m0 m : Map a.Trie a.Nlm) (ls : List Loc) (l : Loc), a.new demoParams .default = .ok m0 ∧
    updateAll (a.cfg demoParams) m0 (manyKeys 4100) = .ok (m, ls.map .ptr) ∧ l ∈ ls ∧ Map.load (a.cfg demoParams) m l = .error .oob := by
  obtain ⟨q1, q2, m0, m, xs, q3, q4, q5, q6⟩ := many_run a (n := 4100) (by decide) (within a (by rw [many_cost]; decide))
  obtain ⟨ls, r1, r2, r3⟩ := C16_bonsai_most_dangle ha q1 q2 q3 q4 (by rw [q5]; simp [manyKeys])
  have hcap : Map.capaSize (a.cfg demoParams) m = 2 ^ 16 := by
    rcases C17_capacity_needed q1 q2 q3 q4 q6 with h | ⟨c, _, h2, h3⟩
    · exact h
    · have h4 := C17_nodes_le_bytes q1 q2 q3 q4
      rw [many_cost] at h4
      simp only [initialCapa] at h2
      have h3 : 90 * c / 100 ≤ _ := h3
      omega
  rw [hcap] at r3
  have hlen : (manyKeys 4100).length = 4100 := by simp [manyKeys]
  have h16 : (2 : Nat) ^ 16 / demoParams.chunkSize = 4096 := by decide
  rw [hlen, h16] at r3
  have hpos : 0 < (ls.filter (dangling (a.cfg demoParams) m)).length := by omega
  obtain ⟨l, hl⟩ := List.exists_mem_of_length_pos hpos
  obtain ⟨l1, l2⟩ := List.mem_filter.1 hl
  exact ⟨m0, m, ls, l, q3, r1, l1, of_decide_eq_true l2⟩

private theorem size_growth (cfg : MapCfg a.Trie a.Nlm) : ∀ (os : List Op) {m m' : Map a.Trie a.Nlm} {xs : List Out},
    Map.Reg cfg (fun _ => True) m → Map.run cfg m os = .ok (m', xs) → m'.size ≤ m.size + os.length := by
  have E : Evo cfg.L (fun _ => True) (fun _ _ => True) := by constructor <;> intros <;> trivial
  intro os
  induction os with
  | nil => intro m m' xs hm h; cases h; exact Nat.le_refl _
  | cons o os ih =>
    intro m m' xs hm h
    obtain ⟨⟨m1, x⟩, h1, h⟩ := R.bind_eq_ok h
    obtain ⟨⟨m2, ys⟩, h2, h⟩ := R.bind_eq_ok h
    cases h
    obtain ⟨q1, q2, q3⟩ := Map.exec_evo E hm h1
    have := ih q1 h2
    simp only [List.length_cons]
    rcases q3 with q3 | ⟨q3, _⟩ <;> omega

/-- C16 arises: the first of 20 keys inserted in a new map with a `compact_fkhash_nlm` (`ChunkSize` 16) -/
example (a : Alias) (ha : CompactFkhashLabels a) : ∃ (m0 m2 m3 : Map a.Trie a.Nlm) (l : Loc) (xs : List Out),
    a.new demoParams .default = .ok m0 ∧ Map.update (a.cfg demoParams) m0 [1, 1, 0] = .ok (m2, .ptr l) ∧
    Map.run (a.cfg demoParams) m2 ((manyKeys 20).tail.map .update) = .ok (m3, xs) ∧ Map.load (a.cfg demoParams) m3 l = .error .oob := by
  obtain ⟨q1, q2, m0, m, xs, q3, q4, q5, q6⟩ := many_run a (n := 20) (by decide) (within a (by rw [many_cost]; decide))
  have hk : (manyKeys 20).map Op.update = .update [1, 1, 0] :: (manyKeys 20).tail.map .update := rfl
  rw [hk] at q4
  have E : Evo (a.cfg demoParams).L (fun _ => True) (fun _ _ => True) := by constructor <;> intros <;> trivial
  obtain ⟨g1, g2⟩ := reg_new E q3
  obtain ⟨⟨m1, x⟩, h1, h⟩ := R.bind_eq_ok q4
  obtain ⟨⟨m2, ys⟩, h2, h⟩ := R.bind_eq_ok h
  cases h
  obtain ⟨⟨m3, r⟩, h3, h1⟩ := R.bind_eq_ok h1
  have e : m3 = m1 := by
    dsimp only at h1
    split at h1
    · obtain ⟨v, _, h1⟩ := R.bind_eq_ok h1
      cases h1; rfl
    · cases h1; rfl
    · cases h1; rfl
  subst e
  obtain ⟨s1, _, _, s2⟩ := Map.update_evo E g1 h3
  have hle := size_growth _ _ s1 h2
  have h19 : ((manyKeys 20).tail.map Op.update).length = 19 := rfl
  rw [h19] at hle
  rcases s2 with s2 | ⟨s2, _, l, _, _, rfl, _⟩
  · omega
  · exact ⟨m0, m3, m, l, ys, q3, h3, h2, C16_fkhash_dangles (os1 := []) ha demo_valid q3 rfl h3 s2 h2 (by
      rw [s2, g2, q5]; decide)⟩

private theorem many_cons (n : Nat) (hn : 0 < n) : ∃ os2, (manyKeys n).map Op.update = [.update [1, 1, 0]] ++ os2 := by
  cases n with
  | zero => cases hn
  | succ n =>
    refine ⟨(((List.range n).map Nat.succ).map (fun j => [UInt8.ofNat (1 + j / 250), UInt8.ofNat (1 + j % 250), 0])).map Op.update, ?_⟩
    rw [manyKeys, List.range_succ_eq_map]
    rfl

/-- the situation of `C16_bonsai_expand` arises: a pointer to the value of the first of 60000 keys -/
example : ∃ (os2 : List Op) (m0 m1 m2 : Map PlainBonsai CompactBonsaiNlm) (l : Loc) (v : Val) (xs ys : List Out),
    Alias.Admissible .semiCompactBonsai demoParams .default (CStrings 4) ([.update [1, 1, 0]] ++ os2) ∧ Supported 4 ([.update [1, 1, 0]] ++ os2) ∧
    Alias.new .semiCompactBonsai demoParams .default = .ok m0 ∧
    Map.run (Alias.cfg .semiCompactBonsai demoParams) m0 [.update [1, 1, 0]] = .ok (m1, xs) ∧
    Map.find (Alias.cfg .semiCompactBonsai demoParams) m1 [1, 1, 0] = .ok (some l) ∧
    Map.load (Alias.cfg .semiCompactBonsai demoParams) m1 l = .ok v ∧
    Map.run (Alias.cfg .semiCompactBonsai demoParams) m1 os2 = .ok (m2, ys) ∧
    Map.capaSize (Alias.cfg .semiCompactBonsai demoParams) m2 ≠ Map.capaSize (Alias.cfg .semiCompactBonsai demoParams) m1 := by
  obtain ⟨q1, q2, m0, m, zs, q3, q4, q5, q6⟩ := many_run .semiCompactBonsai (n := 60000) (by decide) (by
    intro hl; have := hl.cost; rw [many_cost] at this; exact absurd this (by decide))
  have hk := many_cons 60000 (by decide)
  obtain ⟨os2, hk⟩ := hk
  rw [hk] at q1 q2 q4
  rw [Map.run_append] at q4
  obtain ⟨⟨m1, xs⟩, h1, q4⟩ := R.bind_eq_ok q4
  obtain ⟨⟨m2, ys⟩, h2, q4⟩ := R.bind_eq_ok q4
  cases q4
  have hboth : Map.run (Alias.cfg .semiCompactBonsai demoParams) m0 ([.update [1, 1, 0]] ++ os2) = .ok (m, xs ++ ys) := by
    rw [Map.run_append, h1]; simp only [R.bind_ok, h2, R.pure_eq]
  have q2' : Supported demoParams.valSize ([.update [1, 1, 0]] ++ os2) := q2
  obtain ⟨s, ws, hs⟩ := q2
  obtain ⟨s1, xs1, xs2, f1, f2, _⟩ := AState.run_split hs
  obtain ⟨hsb, r1, _, _, _⟩ := Alias.reach q1.append_left f1 q3 h1
  have hs1 : s1.dict = [([1, 1, 0], [0, 0, 0, 0])] := by
    have : AState.run 4 {} [.update [1, 1, 0]] = some (⟨[([1, 1, 0], [0, 0, 0, 0])], []⟩, [.value [0, 0, 0, 0]]) := rfl
    have := (Option.some.inj (f1.symm.trans this))
    exact congrArg (fun x => x.1.dict) this
  have hkey : CStrings 4 [1, 1, 0] := ⟨⟨[1, 1], by decide, rfl⟩, by decide⟩
  rcases r1.find (keySet_cstrings 4) hkey with ⟨g1, _⟩ | ⟨l, g1, g2, g3⟩
  · rw [hs1] at g1; exact absurd g1 (by decide)
  · obtain ⟨v, _, g4, _⟩ := g2.load hkey g3
    refine ⟨os2, m0, m1, m, l, v, xs, ys, q1, q2', q3, h1, g1, g4, h2, ?_⟩
    have c1 : Map.capaSize (Alias.cfg .semiCompactBonsai demoParams) m1 = 2 ^ 16 := by
      rcases C17_capacity_needed q1.append_left ⟨_, _, f1⟩ q3 h1 g2.inv.ready with h | ⟨c, _, h5, h6⟩
      · exact h
      · have h7 := C17_nodes_le_bytes q1.append_left ⟨_, _, f1⟩ q3 h1
        have h8 : cost [.update [1, 1, 0]] = 3 := rfl
        simp only [initialCapa] at h5
        have h6 : 90 * c / 100 ≤ _ := h6
        omega
    obtain ⟨b, _, _, _, h9⟩ := C17_capacity q1 q2' q3 hboth q6
    have h10 := C17_keys_le_nodes q1 q2' q3 hboth
    have h9 : _ ≤ 90 * _ := h9
    omega

end Poplar.Props
