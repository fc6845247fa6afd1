import Verif.Proof.Alloc
import Verif.Proof.LabelCost
import Verif.Props.C39_Memory
/-
  C44: what `alloc_bytes()` reports.
-/
namespace Poplar.Props
open Poplar Poplar.Spec

variable {a : Alias} {p : Params} {i : Init} {K : Key → Prop} {os : List Op} {m0 m : Map a.Trie a.Nlm} {xs : List Out}

/-- what the label map reports: its arrays, and its label bytes -/
private theorem nlm_bytes (h : a.Admissible p i K os) {c : Caps}
    (hn : (a.nlmSpec p h.params).Inv (2 ^ ((a.cfg p).T.capaBits m.trie)) m.nlm) :
    a.nlmBytes p c m.nlm = labelArrayBytes a p.chunkSize ((a.cfg p).T.capaBits m.trie) c + a.labelBytes m.nlm := by
  have hW := h.params.chunk
  have hc : ∀ {b : Nat} {n : CompactBonsaiNlm}, (CompactBonsaiNlm.specB p.chunkSize p.valSize h.params.chunk h.params.val64).Inv (2 ^ b) n →
      CompactBonsaiNlm.allocBytes p.chunkSize n = 2 ^ b / p.chunkSize * 8 + 2 ^ b / 8 + n.labelBytes := by
    intro b n hn
    obtain ⟨⟨e1, _, g, e2⟩, _⟩ := hn
    unfold CompactBonsaiNlm.allocBytes
    rw [e2.sz, ← e1]
    rcases hW with e | e | e | e <;> rw [e] <;> omega
  cases a with
  | plainBonsai =>
    obtain ⟨⟨e1, _⟩, _⟩ := hn
    show PlainBonsaiNlm.allocBytes m.nlm = _
    unfold PlainBonsaiNlm.allocBytes
    rw [e1]; rfl
  | semiCompactBonsai => exact hc hn
  | compactBonsai => exact hc hn
  | plainFkhash => rfl
  | semiCompactFkhash => rfl
  | compactFkhash => rfl

/-- **C44** What `alloc_bytes()` of a constructed map reports is: the main tables of the trie, the two auxiliary tables, the
arrays of the label map, the heap blocks with labels and values, and the code table. Only the compact tries have auxiliary
tables (`AuxBytes` says what they may take). `c` are the capacities the standard library
has chosen for vectors that grow. -/
theorem C44_alloc_bytes (h : a.Admissible p i K os) (hs : Supported p.valSize os) (h0 : a.new p i = .ok m0)
    (h1 : Map.run (a.cfg p) m0 os = .ok (m, xs)) (hr : m.isReady = true) (c : Caps) :
    ∃ b aux, Map.capaSize (a.cfg p) m = 2 ^ b ∧
      a.allocBytes p c m = tableBytes a b i.symbBits p.dsp1Bits + aux + labelArrayBytes a p.chunkSize b c + (a.heap m.nlm).bytes + 256 ∧
      if hasAux a then AuxBytes p.dsp2Bits b ((a.cfg p).T.size m.trie) aux else aux = 0 := by
  have hl := C39_label_bytes h hs h0 h1
  obtain ⟨s, zs, hs⟩ := hs
  obtain ⟨t1, t2⟩ := Alias.trie_bytes h hs h0 h1 hr
  obtain ⟨hsb, r1, _⟩ := Alias.reach h hs h0 h1
  have hcap := Alias.capa_bits h.params hsb r1 hr
  have hn : (a.nlmSpec p h.params).Inv (2 ^ ((a.cfg p).T.capaBits m.trie)) m.nlm ∧ m.codes.size = 256 := by
    rcases r1 with ⟨rfl, _, _⟩ | ⟨r, _⟩ | r
    · cases hr
    · rw [← hcap]; exact ⟨r.nlm, r.codes.size⟩
    · rw [← hcap]; exact ⟨r.inv.core.nlm, r.inv.codes.size⟩
  have hb := nlm_bytes (c := c) h hn.1
  have hall : a.allocBytes p c m = a.trieBytes m.trie + (labelArrayBytes a p.chunkSize ((a.cfg p).T.capaBits m.trie) c +
      (a.heap m.nlm).bytes) + 256 := by
    unfold Alias.allocBytes
    rw [hb, hl, hn.2]
  cases ha : hasAux a with
  | false =>
    refine ⟨_, 0, hcap, ?_, by rw [if_neg (by decide)]⟩
    rw [hall, t1 ha]; omega
  | true =>
    obtain ⟨aux, h2, h3⟩ := t2 ha
    refine ⟨_, aux, hcap, ?_, by rw [if_pos rfl]; exact h2⟩
    rw [hall, h3]; omega

/-- **C44** A map that has not been used yet reports no table and no label: only its code table. -/
theorem C44_alloc_bytes_default (p : Params) (h0 : a.new p .default = .ok m0) :
    a.allocBytes p ⟨0, 0⟩ m0 = 256 := by
  injection h0 with h0
  subst h0
  have h1 : a.trieBytes (Map.default (a.cfg p)).trie = 0 := by cases a <;> rfl
  have h2 : a.nlmBytes p ⟨0, 0⟩ (Map.default (a.cfg p)).nlm = 0 := by
    have h4 : CompactBonsaiNlm.allocBytes p.chunkSize {} = 0 := by
      show 0 * 8 + 0 * (p.chunkSize / 8) + 0 = 0
      omega
    cases a
    all_goals first | rfl | exact h4
  have h3 : (Map.default (a.cfg p)).codes.size = 256 := Array.size_replicate
  show a.trieBytes (Map.default (a.cfg p)).trie + a.nlmBytes p ⟨0, 0⟩ (Map.default (a.cfg p)).nlm + (Map.default (a.cfg p)).codes.size = 256
  rw [h1, h2, h3]

/-- **C44** The tables have at most twice the slots needed to hold the nodes of the stored keys at a load of `MaxFactor` (90 in the aliases)
per cent, or the number
of slots asked for. -/
theorem C44_slots (h : a.Admissible p i K os) {s : AState} {ys : List Out} (hs : AState.run p.valSize {} os = some (s, ys))
    (h0 : a.new p i = .ok m0) (h1 : Map.run (a.cfg p) m0 os = .ok (m, xs)) (hr : m.isReady = true) :
    Map.capaSize (a.cfg p) m ≤ max (initialCapa i) (200 * (nodesFor i.lambda (s.dict.map (·.1)) + 1) / p.maxFactor) := by
  have hn := C17_nodes_le h hs h0 h1
  rcases C17_capacity_needed h ⟨_, _, hs⟩ h0 h1 hr with e | ⟨c, e1, e2, e3⟩
  · rw [e]; exact Nat.le_max_left _ _
  · rw [e1]
    refine Nat.le_trans ?_ (Nat.le_max_right _ _)
    rw [Nat.le_div_iff_mul_le p.factor_ok.1, Nat.mul_assoc, Nat.mul_comm c]
    omega

/-- **C44** The heap blocks with the labels and values take at most the bytes of the stored keys and their values (`labelCost`
for each), and for the compact fkhash maps one byte for every node that is not the node of a key. In particular, keys whose
insertion was refused and values overwritten cost nothing, and nothing is left of blocks that have been replaced. -/
theorem C44_label_bytes (h : a.Admissible p i K os) {s : AState} {ys : List Out} (hs : AState.run p.valSize {} os = some (s, ys))
    (h0 : a.new p i = .ok m0) (h1 : Map.run (a.cfg p) m0 os = .ok (m, xs)) :
    (a.heap m.nlm).bytes ≤ (s.dict.map (fun e => labelCost a p.valSize e.1)).sum +
      stepCost a * ((a.cfg p).T.size m.trie - m.size) := by
  have hl := C39_label_bytes h ⟨_, _, hs⟩ h0 h1
  obtain ⟨hsb, r1, _⟩ := Alias.reach h hs h0 h1
  have hn : m.numSteps = (a.cfg p).T.size m.trie - m.size := by
    rcases r1 with ⟨rfl, _, _⟩ | ⟨r, _⟩ | r
    · cases a <;> rfl
    · rw [r.steps, r.size]
      exact ((a.trieSpec p i.symbBits i.capa0 hsb).fresh_size _ r.trie).symm ▸ rfl
    · rw [r.nodes]; omega
  rw [← hl, ← hn]
  clear hl hn r1
  cases a with
  | plainBonsai => exact (Alias.label_cost (a := .plainBonsai) (PlainBonsaiNlm.meter p.valSize) h0 os h hs h1).2
  | semiCompactBonsai => exact (Alias.label_cost (a := .semiCompactBonsai) (CompactBonsaiNlm.meter p.chunkSize p.valSize) h0 os h hs h1).2
  | compactBonsai => exact (Alias.label_cost (a := .compactBonsai) (CompactBonsaiNlm.meter p.chunkSize p.valSize) h0 os h hs h1).2
  | plainFkhash => exact (Alias.label_cost (a := .plainFkhash) (PlainFkNlm.meter p.valSize) h0 os h hs h1).2
  | semiCompactFkhash =>
    exact Nat.le_trans (Nat.le_add_right _ _) (Alias.label_cost (a := .semiCompactFkhash) (CompactFkNlm.meter p.chunkSize p.valSize) h0 os h hs h1).2
  | compactFkhash =>
    exact Nat.le_trans (Nat.le_add_right _ _) (Alias.label_cost (a := .compactFkhash) (CompactFkNlm.meter p.chunkSize p.valSize) h0 os h hs h1).2

/-- the hypotheses are met by a map with three keys; its capacity is `2^16` -/
example (a : Alias) : ∃ m0 m xs, a.new demoParams .default = .ok m0 ∧ Map.run (a.cfg demoParams) m0 demo = .ok (m, xs) ∧
    m.size = 3 ∧ m.isReady = true ∧ Map.capaSize (a.cfg demoParams) m = 2 ^ 16 := by
  have hA : SmallAlphabet demo := small_of [97, 98, 99, 120] (by decide) (by decide)
  obtain ⟨bs, hb⟩ := hA.run (vs := 4)
  have h := demo_admissible a .default trivial demo (by decide) (by decide)
  obtain ⟨hsb, m0, e1, e2⟩ := Alias.after h hb
  obtain ⟨⟨m1, xs⟩, e3, _, e5, _⟩ := e2.get (within a (by decide))
  have hr : m1.isReady = true := (e5.live (show (Spec.run 4 [] demo).1 ≠ [] by decide)).inv.ready
  refine ⟨m0, m1, xs, e1, e3, ?_, hr, ?_⟩
  · rw [e5.size]; show (Spec.run 4 [] demo).1.length = 3; decide
  · have h1 := C44_slots h hb e1 e3 hr
    obtain ⟨b, b1, _, b3, _⟩ := C17_capacity h ⟨_, _, hb⟩ e1 e3 hr
    have h2 := Nat.pow_le_pow_right (n := 2) (by decide) b1
    have h3 : max (initialCapa .default) (200 * (nodesFor (Init.lambda .default) ((Spec.run 4 [] demo).1.map (·.1)) + 1) / demoParams.maxFactor) = 2 ^ 16 := by decide
    have h1 : Map.capaSize (a.cfg demoParams) m1 ≤ 2 ^ 16 := Nat.le_trans h1 (Nat.le_of_eq h3)
    omega

end Poplar.Props
