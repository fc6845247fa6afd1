import Verif.Model.Destroy
import Verif.Proof.Pointers
import Verif.Props.Demo
import Verif.Props.C15_Pointers
/-
  C39: the memory of the labels.
-/
namespace Poplar.Props
open Poplar Poplar.Spec

variable {a : Alias} {p : Params} {i : Init} {K : Key → Prop} {os : List Op} {m0 m : Map a.Trie a.Nlm} {xs : List Out}

private theorem reg_new {I : a.Nlm → Prop} {P : a.Nlm → a.Nlm → Prop} (E : Evo (a.cfg p).L I P) (h0 : a.new p i = .ok m0) :
    Map.Reg (a.cfg p) I m0 := by
  cases i with
  | default =>
    cases h0
    refine ⟨E.empty, Or.inr ⟨rfl, rfl, ?_⟩⟩
    cases a <;> rfl
  | make cb lam =>
    obtain ⟨q1, _, q3, q4⟩ := Map.make_evo E h0
    exact ⟨q1, Or.inl q3⟩

private theorem after_run {I : a.Nlm → Prop} {P : a.Nlm → a.Nlm → Prop} (E : Evo (a.cfg p).L I P) (h0 : a.new p i = .ok m0)
    (h1 : Map.run (a.cfg p) m0 os = .ok (m, xs)) : I m.nlm :=
  (Map.run_evo E os (reg_new E h0) h1).1.1

private theorem free_all (ps : List (Option Nat)) {h : Heap} (ho : Owns (ps.filterMap id) h) :
    ∃ h', ps.foldlM (fun h p => h.freeOpt p) h = .ok h' ∧ h'.live = [] := by
  have ho : Owns (ps.filterMap id ++ []) h := by rw [List.append_nil]; exact ho
  obtain ⟨h', e⟩ := Owns.freeAllOk ps ho
  exact ⟨h', e, (Owns.freeAll ps ho e).live_nil⟩

/-- **C39** Whatever is done with a map, destroying it afterwards releases each of its heap blocks exactly once
(releasing a block a second time is an error in the model) and leaves no block behind. No assumption on keys, number of
bytes values or capacity is made. -/
theorem C39_no_leak (h0 : a.new p i = .ok m0) (h1 : Map.run (a.cfg p) m0 os = .ok (m, xs)) :
    ∃ h, a.destroy m.nlm = .ok h ∧ h.live = [] := by
  have hfk : ∀ n : CompactFkNlm, CompactFkNlm.Owner n → ∃ h, CompactFkNlm.destroy n = .ok h ∧ h.live = [] := by
    intro n hn
    refine free_all (n.chunkPtrs.toList.map some) ?_
    rw [List.filterMap_map]
    have : (n.chunkPtrs.toList.filterMap (id ∘ some)) = n.chunkPtrs.toList := List.filterMap_some
    rw [this]; exact hn
  cases a with
  | plainBonsai => exact free_all _ (after_run (a := .plainBonsai) (PlainBonsaiNlm.evoOwn p.valSize) h0 h1)
  | semiCompactBonsai => exact free_all _ (after_run (a := .semiCompactBonsai) (CompactBonsaiNlm.evoOwn p.chunkSize p.valSize) h0 h1)
  | compactBonsai => exact free_all _ (after_run (a := .compactBonsai) (CompactBonsaiNlm.evoOwn p.chunkSize p.valSize) h0 h1)
  | plainFkhash => exact free_all _ (after_run (a := .plainFkhash) (PlainFkNlm.evoOwn p.valSize) h0 h1)
  | semiCompactFkhash => exact hfk _ (after_run (a := .semiCompactFkhash) (CompactFkNlm.evoOwn p.chunkSize p.valSize) h0 h1)
  | compactFkhash => exact hfk _ (after_run (a := .compactFkhash) (CompactFkNlm.evoOwn p.chunkSize p.valSize) h0 h1)

private theorem state_nlm {sb N vs : Nat} {z0 : Prop} {τ ν : Type} {cfg : MapCfg τ ν} {TS : TrieSpec cfg.T sb N z0}
    {NS : NlmSpec cfg.L cfg.T.kind vs} {m : Map τ ν} {d : Dict} (hm : Map.State TS NS K m d) :
    m.nlm = cfg.L.empty ∨ ∃ c, NS.Inv c m.nlm := by
  rcases hm with ⟨rfl, _, _⟩ | ⟨hm, _⟩ | hm
  · exact Or.inl rfl
  · exact Or.inr ⟨_, hm.nlm⟩
  · exact Or.inr ⟨_, hm.inv.core.nlm⟩

/-- **C39** The label bytes counted by `alloc_bytes()` are exactly the bytes of the heap blocks the label map owns. -/
theorem C39_label_bytes (h : a.Admissible p i K os) (hs : Supported p.valSize os) (h0 : a.new p i = .ok m0)
    (h1 : Map.run (a.cfg p) m0 os = .ok (m, xs)) : a.labelBytes m.nlm = (a.heap m.nlm).bytes := by
  obtain ⟨s, zs, hs⟩ := hs
  obtain ⟨hsb, r1, _⟩ := Alias.reach h hs h0 h1
  have hn := state_nlm r1
  cases a with
  | plainBonsai =>
    rcases hn with e | ⟨c, hn⟩
    · show PlainBonsaiNlm.labelBytes m.nlm = (PlainBonsaiNlm.heap m.nlm).bytes
      rw [e]; rfl
    · exact PlainBonsaiNlm.labelBytes_eq hn
  | semiCompactBonsai =>
    rcases hn with e | ⟨c, hn⟩
    · show CompactBonsaiNlm.labelBytes m.nlm = (CompactBonsaiNlm.heap m.nlm).bytes
      rw [e]; rfl
    · exact CompactBonsaiNlm.labelBytes_eq hn
  | compactBonsai =>
    rcases hn with e | ⟨c, hn⟩
    · show CompactBonsaiNlm.labelBytes m.nlm = (CompactBonsaiNlm.heap m.nlm).bytes
      rw [e]; rfl
    · exact CompactBonsaiNlm.labelBytes_eq hn
  | plainFkhash => exact after_run (a := .plainFkhash) (PlainFkNlm.evoBytes p.valSize) h0 h1
  | semiCompactFkhash => exact after_run (a := .semiCompactFkhash) (CompactFkNlm.evoBytes p.chunkSize p.valSize) h0 h1
  | compactFkhash => exact after_run (a := .compactFkhash) (CompactFkNlm.evoBytes p.chunkSize p.valSize) h0 h1

/-- the hypotheses are met by a map with three keys -/
example (a : Alias) : ∃ m0 m xs, a.new demoParams .default = .ok m0 ∧ Map.run (a.cfg demoParams) m0 demo = .ok (m, xs) ∧
    m.size = 3 ∧ (∃ h, a.destroy m.nlm = .ok h ∧ h.live = []) ∧ a.labelBytes m.nlm = (a.heap m.nlm).bytes := by
  have hA : SmallAlphabet demo := small_of [97, 98, 99, 120] (by decide) (by decide)
  obtain ⟨bs, hb⟩ := hA.run (vs := 4)
  have h := demo_admissible a .default trivial demo (by decide) (by decide)
  obtain ⟨hsb, m0, e1, e2⟩ := Alias.after h hb
  obtain ⟨⟨m1, xs⟩, e3, _, e5, _⟩ := e2.get (within a (by decide))
  refine ⟨m0, m1, xs, e1, e3, ?_, C39_no_leak e1 e3, C39_label_bytes h ⟨_, _, hb⟩ e1 e3⟩
  rw [e5.size]; show (Spec.run 4 [] demo).1.length = 3; decide

end Poplar.Props
