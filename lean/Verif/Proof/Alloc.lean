import Verif.Spec.Memory
import Verif.Proof.AuxTables
import Verif.Proof.Pointers
/-
  The sizes of the tables of the tries.
-/
namespace Poplar
open Spec

theorem CompactVector.WF.bytes {v : CompactVector} (h : v.WF) {b w : Nat} (hs : v.size = 2 ^ b) (hw : v.width = w) (hb : 6 ≤ b) :
    v.allocBytes = fieldBytes (2 ^ b) w := by
  unfold allocBytes fieldBytes
  rw [h.chunks_size, hs, hw]
  obtain ⟨c, rfl⟩ : ∃ c, b = c + 6 := ⟨b - 6, by omega⟩
  unfold wordsFor
  rw [Nat.pow_add, show 2 ^ c * 2 ^ 6 * w = 2 ^ c * w * 64 from Nat.mul_right_comm _ _ _]
  omega

theorem PlainBonsai.Shape.bytes {cfg : PlainCfg} {sb : Nat} {t : PlainBonsai} (h : Shape cfg sb t) (hm : 6 ≤ cfg.minCapaBits) :
    t.allocBytes = fieldBytes (2 ^ t.capa.bits) (t.capa.bits + sb) :=
  h.wf.bytes h.tsize h.twidth (Nat.le_trans hm h.minc)

theorem PlainFk.Core.bytes {cfg : PlainFkCfg} {sb : Nat} {t : PlainFk} (h : Core cfg sb t) (hm : 6 ≤ cfg.minCapaBits) :
    t.allocBytes = fieldBytes (2 ^ t.capa.bits) (t.capa.bits + sb) + fieldBytes (2 ^ t.capa.bits) t.capa.bits := by
  unfold allocBytes
  rw [h.wf.bytes h.tsize h.twidth (Nat.le_trans hm h.minc), h.iwf.bytes h.isize h.iwidth (Nat.le_trans hm h.minc)]

theorem cnt_disjoint {p q r : Nat → Bool} {n : Nat} (hp : ∀ i < n, p i = true → r i = true) (hq : ∀ i < n, q i = true → r i = true)
    (hd : ∀ i < n, p i = true → q i = true → False) : cnt p n + cnt q n ≤ cnt r n := by
  induction n with
  | zero => exact Nat.le_refl _
  | succ n ih =>
    have := ih (fun i hi => hp i (by omega)) (fun i hi => hq i (by omega)) (fun i hi => hd i (by omega))
    have h1 := hp n (by omega)
    have h2 := hq n (by omega)
    have h3 := hd n (by omega)
    unfold cnt
    cases e1 : p n <;> cases e2 : q n <;> simp_all <;> omega

/-- a table that has been doubled only when it was 80 % full -/
theorem Needed.sized {b0 b n : Nat} (h : Needed 80 b0 b n) (hn : n ≤ maxSize (2 ^ b) 80) : RightSized b0 b n := by
  unfold maxSize at hn
  refine ⟨?_, by omega, ?_⟩
  · rcases h with rfl | ⟨h, _⟩ <;> omega
  · rcases h with rfl | ⟨h1, h2⟩
    · exact Nat.le_max_left _ _
    · refine Nat.le_trans ?_ (Nat.le_max_right _ _)
      obtain ⟨c, rfl⟩ : ∃ c, b = c + 1 := ⟨b - 1, by omega⟩
      rw [Nat.add_sub_cancel] at h2
      unfold maxSize at h2
      rw [Nat.pow_succ]
      omega

/-- the size of the auxiliary tables -/
theorem DspTable.aux_bytes {c : DspCfg} {cb sb : Nat} {d : DspTable} (h : OK c cb sb d) (ht : Tight c d) {nodes : Nat}
    (hn : cnt (fun i => decide (d.table.val i ≠ 0)) (2 ^ cb) ≤ nodes - 1) :
    AuxBytes c.dsp2Bits cb nodes (d.cht.allocBytes + d.map.allocBytes) := by
  obtain ⟨Mc, h⟩ := h
  have hc := h.holds.core
  have hmin : 12 ≤ d.cht.capa.bits := hc.minc
  refine ⟨d.cht.size, d.map.size, d.cht.capa.bits, d.map.table.size, Nat.le_trans ?_ hn, ?_, ?_, ?_, ?_⟩
  · have h1 := h.holds.size_eq
    rw [h.univ] at h1
    have h2 := h.msize
    refine Nat.le_trans (Nat.add_le_add (Nat.le_of_eq h1) h2) (cnt_disjoint ?_ ?_ ?_)
    all_goals intro i hi
    · intro hm
      rcases h.slots i hi with ⟨_, a, _⟩ | ⟨a, _⟩ | ⟨_, a, _⟩
      · rw [a] at hm; simp at hm
      · simp only [decide_eq_true_eq]; exact fun e => absurd (e ▸ a) (by rw [Nat.zero_mod]; have := (masks h.cfg).2.1; omega)
      · rw [a] at hm; simp at hm
    · intro hm
      rcases h.slots i hi with ⟨_, _, a⟩ | ⟨_, _, _, a⟩ | ⟨a, _⟩
      · rw [a] at hm; simp at hm
      · rw [a] at hm; simp at hm
      · simp only [decide_eq_true_eq]; exact fun e => absurd (e ▸ a) (by rw [Nat.zero_mod]; have := (masks h.cfg).2.1; omega)
    · intro hm hm'
      rcases h.slots i hi with ⟨_, _, a⟩ | ⟨_, _, _, a⟩ | ⟨_, a, _⟩
      · rw [a] at hm'; simp at hm'
      · rw [a] at hm'; simp at hm'
      · rw [a] at hm; simp at hm
  · unfold Cht.allocBytes Sht.allocBytes
    rw [hc.wf.bytes hc.tsize hc.twidth (by omega), h.univ, Nat.mul_comm]
    rfl
  · rw [← h.univ]; exact hc.cu
  · refine ht.1.2.sized ?_
    have := h.holds.le
    rwa [hc.maxs] at this
  · rcases h.map with e | ⟨hm, _, hle⟩
    · rw [e]; exact Or.inl ⟨rfl, rfl⟩
    · rcases ht.2 with e | ⟨e, _⟩
      · rw [e]; exact Or.inl ⟨rfl, rfl⟩
      · refine Or.inr ⟨_, hm.tsize, e.2.sized ?_⟩
        rwa [hm.maxs] at hle

/-- what is known about the memory of a compact trie: `main` is the size of the main tables -/
def AuxBound (d2 b nodes bytes main : Nat) : Prop := ∃ aux, AuxBytes d2 b nodes aux ∧ bytes = main + aux

namespace CompactBonsai
variable {cfg : CompactCfg} {sb : Nat} {t : CompactBonsai}

theorem Shape.bytes (h : Shape cfg sb t) (hm : 6 ≤ cfg.minCapaBits) (ht : t.d.Tight cfg.dsp)
    (hn : cnt (fun i => decide (t.d.table.val i ≠ 0)) (2 ^ t.capa.bits) ≤ t.size - 1) :
    AuxBound cfg.dsp.dsp2Bits t.capa.bits t.size t.allocBytes (fieldBytes (2 ^ t.capa.bits) (sb + cfg.dsp.dsp1Bits)) := by
  obtain ⟨Mc, ho⟩ := h.ok
  refine ⟨_, DspTable.aux_bytes h.ok ht hn, ?_⟩
  unfold allocBytes
  rw [ho.wf.bytes ho.tsize ho.twidth (Nat.le_trans hm h.minc)]
  omega

theorem Inv.bytes (h : Inv cfg sb t) (hm : 6 ≤ cfg.minCapaBits) (ht : t.d.Tight cfg.dsp) :
    AuxBound cfg.dsp.dsp2Bits t.capa.bits t.size t.allocBytes (fieldBytes (2 ^ t.capa.bits) (sb + cfg.dsp.dsp1Bits)) := by
  refine h.toShape.bytes hm ht ?_
  rw [h.size, Nat.add_sub_cancel_left]
  refine cnt_mono ?_
  intro i hi hv
  simp only [decide_eq_true_eq] at hv
  unfold occ
  rw [if_neg (by intro e; subst e; exact hv h.root0), if_neg (fun e => hv (h.zero i hi e))]
  rfl

theorem Fresh.bytes (h : Fresh cfg sb t) (hm : 6 ≤ cfg.minCapaBits) (ht : t.d.Tight cfg.dsp) :
    AuxBound cfg.dsp.dsp2Bits t.capa.bits t.size t.allocBytes (fieldBytes (2 ^ t.capa.bits) (sb + cfg.dsp.dsp1Bits)) := by
  refine h.toShape.bytes hm ht ?_
  rw [cnt_zero (fun i hi => by rw [h.empty i hi]; rfl)]
  exact Nat.zero_le _

end CompactBonsai

namespace CompactFk
variable {cfg : CompactCfg} {sb : Nat} {t : CompactFk}

theorem Core.bytes (h : Core cfg sb t) (hm : 6 ≤ cfg.minCapaBits) (ht : t.d.Tight cfg.dsp) (hn : t.used cfg sb ≤ t.size - 1) :
    AuxBound cfg.dsp.dsp2Bits t.capa.bits t.size t.allocBytes (fieldBytes (2 ^ t.capa.bits) (sb + cfg.dsp.dsp1Bits) + fieldBytes (2 ^ t.capa.bits) t.capa.bits) := by
  obtain ⟨Mc, ho⟩ := h.ok
  refine ⟨_, DspTable.aux_bytes h.ok ht (Nat.le_trans (cnt_mono ?_) hn), ?_⟩
  · intro i hi hv
    simp only [decide_eq_true_eq] at hv
    unfold occ
    rw [if_neg (fun e => hv (h.zero i hi e))]
    rfl
  · unfold allocBytes
    rw [ho.wf.bytes ho.tsize ho.twidth (Nat.le_trans hm h.minc), h.iwf.bytes h.isize h.iwidth (Nat.le_trans hm h.minc)]
    omega

theorem Inv.bytes (h : Inv cfg sb t) (hm : 6 ≤ cfg.minCapaBits) (ht : t.d.Tight cfg.dsp) :
    AuxBound cfg.dsp.dsp2Bits t.capa.bits t.size t.allocBytes (fieldBytes (2 ^ t.capa.bits) (sb + cfg.dsp.dsp1Bits) + fieldBytes (2 ^ t.capa.bits) t.capa.bits) :=
  h.toCore.bytes hm ht (by rw [h.size]; omega)

theorem Fresh.bytes (h : Fresh cfg sb t) (hm : 6 ≤ cfg.minCapaBits) (ht : t.d.Tight cfg.dsp) :
    AuxBound cfg.dsp.dsp2Bits t.capa.bits t.size t.allocBytes (fieldBytes (2 ^ t.capa.bits) (sb + cfg.dsp.dsp1Bits) + fieldBytes (2 ^ t.capa.bits) t.capa.bits) := by
  refine h.toCore.bytes hm ht ?_
  unfold used
  rw [cnt_zero (fun i hi => by rw [h.empty i hi]; rfl)]
  exact Nat.zero_le _

end CompactFk

namespace Alias
variable {a : Alias} {p : Params} {i : Init} {K : Key → Prop} {os : List Op}

/-- the tables of the trie of a map -/
theorem trie_bytes (h : a.Admissible p i K os) {s : AState} {ys : List Out} (hs : AState.run p.valSize {} os = some (s, ys))
    {m0 m : Map a.Trie a.Nlm} {xs : List Out} (h0 : a.new p i = .ok m0) (h1 : Map.run (a.cfg p) m0 os = .ok (m, xs))
    (hr : m.isReady = true) :
    (hasAux a = false → a.trieBytes m.trie = tableBytes a ((a.cfg p).T.capaBits m.trie) i.symbBits p.dsp1Bits) ∧
    (hasAux a = true → AuxBound p.dsp2Bits ((a.cfg p).T.capaBits m.trie) ((a.cfg p).T.size m.trie) (a.trieBytes m.trie)
      (tableBytes a ((a.cfg p).T.capaBits m.trie) i.symbBits p.dsp1Bits)) := by
  obtain ⟨hsb, r1, _⟩ := reach h hs h0 h1
  have hst : (a.trieSpec p i.symbBits i.capa0 hsb).Fresh m.trie ∨ (a.trieSpec p i.symbBits i.capa0 hsb).Inv m.trie := by
    rcases r1 with ⟨rfl, _, _⟩ | ⟨h, _⟩ | h
    · cases hr
    · exact Or.inl h.trie
    · exact Or.inr h.inv.core.trie
  clear r1
  cases a with
  | plainBonsai =>
    refine ⟨fun _ => ?_, (by intro h; cases h)⟩
    rcases hst with e | e
    · exact PlainBonsai.Shape.bytes (cfg := plainCfg p) (PlainBonsai.Fresh.toShape e) (by show 6 ≤ 16; decide)
    · exact PlainBonsai.Shape.bytes (cfg := plainCfg p) (PlainBonsai.Inv.toShape e) (by show 6 ≤ 16; decide)
  | semiCompactBonsai =>
    refine ⟨fun _ => ?_, (by intro h; cases h)⟩
    rcases hst with e | e
    · exact PlainBonsai.Shape.bytes (cfg := plainCfg p) (PlainBonsai.Fresh.toShape e) (by show 6 ≤ 16; decide)
    · exact PlainBonsai.Shape.bytes (cfg := plainCfg p) (PlainBonsai.Inv.toShape e) (by show 6 ≤ 16; decide)
  | compactBonsai =>
    refine ⟨(by intro h; cases h), fun _ => ?_⟩
    obtain ⟨b0, _, ht⟩ := Map.run_reach (a := .compactBonsai) (CompactBonsai.counts_tight (compactCfg p)) h0 h1 hr
    rcases hst with e | e
    · exact CompactBonsai.Fresh.bytes (cfg := (compactCfg p)) e.1 (by show 6 ≤ 16; decide) ht
    · exact CompactBonsai.Inv.bytes (cfg := (compactCfg p)) e.1 (by show 6 ≤ 16; decide) ht
  | plainFkhash =>
    refine ⟨fun _ => ?_, (by intro h; cases h)⟩
    rcases hst with e | e
    · exact PlainFk.Core.bytes (cfg := { plainCfg p with dbg := p.dbg }) (PlainFk.Fresh.toCore e) (by show 6 ≤ 16; decide)
    · exact PlainFk.Core.bytes (cfg := { plainCfg p with dbg := p.dbg }) (PlainFk.Inv.toCore e) (by show 6 ≤ 16; decide)
  | semiCompactFkhash =>
    refine ⟨fun _ => ?_, (by intro h; cases h)⟩
    rcases hst with e | e
    · exact PlainFk.Core.bytes (cfg := { plainCfg p with dbg := p.dbg }) (PlainFk.Fresh.toCore e) (by show 6 ≤ 16; decide)
    · exact PlainFk.Core.bytes (cfg := { plainCfg p with dbg := p.dbg }) (PlainFk.Inv.toCore e) (by show 6 ≤ 16; decide)
  | compactFkhash =>
    refine ⟨(by intro h; cases h), fun _ => ?_⟩
    obtain ⟨b0, _, ht⟩ := Map.run_reach (a := .compactFkhash) (CompactFk.counts_tight (compactCfg p)) h0 h1 hr
    rcases hst with e | e
    · exact CompactFk.Fresh.bytes (cfg := (compactCfg p)) e.1 (by show 6 ≤ 16; decide) ht
    · exact CompactFk.Inv.bytes (cfg := (compactCfg p)) e.1 (by show 6 ≤ 16; decide) ht

theorem dsp_counts (h : a.Admissible p i K os) {s : AState} {ys : List Out} (hs : AState.run p.valSize {} os = some (s, ys))
    {m0 m : Map a.Trie a.Nlm} {xs : List Out} (h0 : a.new p i = .ok m0) (h1 : Map.run (a.cfg p) m0 os = .ok (m, xs))
    {x y z : Nat} (hd : a.dspCounts m.trie = some (x, y, z)) :
    x + y + z = (a.cfg p).T.size m.trie - 1 ∧ a.auxSizes m.trie = some (y, z) := by
  obtain ⟨hsb, r1, _⟩ := reach h hs h0 h1
  have hst : m.trie = (a.cfg p).T.empty ∨ (a.trieSpec p i.symbBits i.capa0 hsb).Fresh m.trie ∨ (a.trieSpec p i.symbBits i.capa0 hsb).Inv m.trie := by
    rcases r1 with ⟨rfl, _, _⟩ | ⟨h, _⟩ | h
    · exact Or.inl rfl
    · exact Or.inr (Or.inl h.trie)
    · exact Or.inr (Or.inr h.inv.core.trie)
  clear r1 h1
  obtain ⟨t, ht⟩ : ∃ t, t = m.trie := ⟨_, rfl⟩
  rw [← ht] at hst hd ⊢
  clear ht
  cases a with
  | plainBonsai => cases hd
  | semiCompactBonsai => cases hd
  | plainFkhash => cases hd
  | semiCompactFkhash => cases hd
  | compactBonsai =>
    cases hd
    rcases hst with rfl | e | e
    · exact ⟨rfl, rfl⟩
    · have e : CompactBonsai.Fresh (compactCfg p) i.symbBits t := e.1
      obtain ⟨e2, e3⟩ := e.ok.nums
      refine ⟨?_, ?_⟩
      · exact e.dsps.trans (congrArg (· - 1) e.size).symm
      · rw [e2, e3]; rfl
    · have e : CompactBonsai.Inv (compactCfg p) i.symbBits t := e.1
      obtain ⟨e2, e3⟩ := e.ok.nums
      refine ⟨?_, ?_⟩
      · exact Nat.eq_sub_of_add_eq e.dsps
      · rw [e2, e3]; rfl
  | compactFkhash =>
    cases hd
    rcases hst with rfl | e | e
    · exact ⟨rfl, rfl⟩
    · have e : CompactFk.Fresh (compactCfg p) i.symbBits t := e.1
      obtain ⟨e2, e3⟩ := e.ok.nums
      refine ⟨?_, ?_⟩
      · exact (e.dsps.trans e.used_zero).trans (congrArg (· - 1) e.size).symm
      · rw [e2, e3]; rfl
    · have e : CompactFk.Inv (compactCfg p) i.symbBits t := e.1
      obtain ⟨e2, e3⟩ := e.ok.nums
      refine ⟨?_, ?_⟩
      · refine e.dsps.trans ?_
        show _ = t.size - 1
        rw [e.size]; omega
      · rw [e2, e3]; rfl

end Alias
end Poplar
