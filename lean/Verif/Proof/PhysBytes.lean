import Verif.Proof.PhysMap
import Mathlib.Algebra.BigOperators.Group.Finset.Basic
import Mathlib.Algebra.BigOperators.Intervals
import Mathlib.Data.Finset.Card
import Mathlib.Order.Interval.Finset.Nat
/-
  The bytes of the blocks in use in the flat memory.
-/
namespace Poplar.Phys
open Poplar

theorem Heap.B_ne {f : Heap} {p n : Nat} (h : (p, n) ∈ f.live) : f.B p ≠ none := by
  unfold Heap.B Heap.sizeAt
  cases hf : f.live.find? (fun e => e.1 == p) with
  | some x => simp
  | none =>
    rw [List.find?_eq_none] at hf
    exact absurd (hf _ h) (by simp)

theorem Heap.WF.nodup {f : Heap} (w : f.WF) : (f.live.map (·.1)).Nodup := by
  rw [List.Nodup, List.pairwise_map]
  exact List.Pairwise.imp (fun h => h.1) w

theorem Heap.WF.sizeAt {f : Heap} (w : f.WF) {p n : Nat} (h : (p, n) ∈ f.live) : f.sizeAt p = some n := by
  cases e : f.sizeAt p with
  | none => exact absurd (Heap.B_none e) (Heap.B_ne h)
  | some k =>
    have := List.inj_on_of_nodup_map (Heap.WF.nodup w) h (Heap.sizeAt_mem e) rfl
    injection this with _ this
    rw [this]

/-- the sum over a list of the values of a function of its first components, which are distinct -/
theorem sum_list_fst (l : List (Nat × Nat)) (hn : (l.map (·.1)).Nodup) (g : Nat → Nat) (hg : ∀ e ∈ l, g e.1 = e.2) :
    (l.map (·.2)).sum = ∑ p ∈ (l.map (·.1)).toFinset, g p := by
  induction l with
  | nil => rfl
  | cons e l ih =>
    simp only [List.map_cons, List.nodup_cons, List.sum_cons, List.toFinset_cons] at hn ⊢
    rw [Finset.sum_insert (by simpa using hn.1), ih hn.2 (fun x hx => hg x (List.mem_cons_of_mem _ hx)), hg e List.mem_cons_self]

theorem sum_list_range {α : Type} (l : List (Option α)) (g : Option α → Nat) :
    (l.map g).sum = ∑ i ∈ Finset.range l.length, g (l[i]?).join := by
  induction l with
  | nil => rfl
  | cons x l ih =>
    rw [List.length_cons, Finset.sum_range_succ', List.map_cons, List.sum_cons, ih, Nat.add_comm]
    simp

/-- the abstract heap and the flat memory use the same number of bytes -/
theorem Sim.bytes {ρ : Nat → Nat → Prop} {h : Poplar.Heap} {f : Heap} (s : Sim ρ h f) : (f.live.map (·.2)).sum = h.bytes := by
  have hB : ∀ i, (h.blocks.toList[i]?).join = h.B i := fun i => by simp [Poplar.Heap.B]
  have e1 : h.bytes = ∑ i ∈ Finset.range h.next, ((h.B i).getD []).length := by
    unfold Poplar.Heap.bytes
    rw [sum_list_range _ (fun b => (b.getD []).length)]
    simp only [hB]
    rfl
  have e2 : h.bytes = ∑ i ∈ (Finset.range h.next).filter (fun i => h.B i ≠ none), ((h.B i).getD []).length := by
    rw [e1, Finset.sum_filter]
    refine Finset.sum_congr rfl fun i _ => ?_
    split
    · rfl
    next hc => rw [not_not.1 hc]; rfl
  rw [e2, sum_list_fst _ (Heap.WF.nodup s.wf) (fun p => ((f.B p).getD []).length) (by
    intro e he
    unfold Heap.B
    rw [Heap.WF.sizeAt s.wf (n := e.2) he]
    simp [Heap.slice_length])]
  symm
  refine Finset.sum_bij (fun a ha => (s.tot a (Finset.mem_filter.1 ha).2).choose) ?_ ?_ ?_ ?_
  · intro a ha
    have hr := (s.tot a (Finset.mem_filter.1 ha).2).choose_spec
    obtain ⟨b, hb⟩ := Option.ne_none_iff_exists'.1 (Finset.mem_filter.1 ha).2
    have hv := s.val _ _ _ hr hb
    rw [List.mem_toFinset, List.mem_map]
    cases e : f.sizeAt (s.tot a (Finset.mem_filter.1 ha).2).choose with
    | none => rw [Heap.B_none e] at hv; cases hv
    | some n => exact ⟨_, Heap.sizeAt_mem e, rfl⟩
  · intro a ha b hb e
    refine s.inj _ _ _ (s.tot a (Finset.mem_filter.1 ha).2).choose_spec ?_ (Finset.mem_filter.1 ha).2 (Finset.mem_filter.1 hb).2
    rw [e]
    exact (s.tot b (Finset.mem_filter.1 hb).2).choose_spec
  · intro p hp
    rw [List.mem_toFinset, List.mem_map] at hp
    obtain ⟨e, he, rfl⟩ := hp
    obtain ⟨a, r, ha⟩ := s.cov e.1 (Heap.B_ne (n := e.2) he)
    refine ⟨a, Finset.mem_filter.2 ⟨Finset.mem_range.2 (s.lt _ _ r), ha⟩, ?_⟩
    exact s.fn _ _ _ (s.tot a ha).choose_spec r
  · intro a ha
    obtain ⟨b, hb⟩ := Option.ne_none_iff_exists'.1 (Finset.mem_filter.1 ha).2
    rw [s.val _ _ _ (s.tot a (Finset.mem_filter.1 ha).2).choose_spec hb, hb]

/-- blocks that do not overlap and lie in `[M, N)` have at most `N - M` bytes -/
theorem apart_sum (M N : Nat) (l : List (Nat × Nat)) (hp : l.Pairwise Apart) (hN : ∀ e ∈ l, M ≤ e.1 ∧ e.1 + e.2 ≤ N) :
    (l.map (·.2)).sum ≤ N - M := by
  have key : ∀ l : List (Nat × Nat), l.Pairwise Apart → (∀ e ∈ l, M ≤ e.1 ∧ e.1 + e.2 ≤ N) →
      ∃ S : Finset Nat, S.card = (l.map (·.2)).sum ∧ S ⊆ Finset.Ico M N ∧ ∀ x ∈ S, ∃ e ∈ l, e.1 ≤ x ∧ x < e.1 + e.2 := by
    intro l
    induction l with
    | nil => intro _ _; exact ⟨∅, rfl, Finset.empty_subset _, fun x hx => by simp at hx⟩
    | cons e l ih =>
      intro hp hN
      rw [List.pairwise_cons] at hp
      obtain ⟨S, h1, h2, h3⟩ := ih hp.2 (fun x hx => hN x (List.mem_cons_of_mem _ hx))
      have hd : Disjoint (Finset.Ico e.1 (e.1 + e.2)) S := by
        rw [Finset.disjoint_left]
        intro x hx hS
        obtain ⟨e', he', h4, h5⟩ := h3 x hS
        have := (hp.1 e' he').2
        rw [Finset.mem_Ico] at hx
        omega
      refine ⟨Finset.Ico e.1 (e.1 + e.2) ∪ S, ?_, ?_, ?_⟩
      · rw [Finset.card_union_of_disjoint hd, h1, Nat.card_Ico]
        simp
      · refine Finset.union_subset ?_ h2
        intro x hx
        rw [Finset.mem_Ico] at hx ⊢
        have := hN e List.mem_cons_self
        omega
      · intro x hx
        rcases Finset.mem_union.1 hx with hx | hx
        · rw [Finset.mem_Ico] at hx
          exact ⟨e, List.mem_cons_self, hx.1, hx.2⟩
        · obtain ⟨e', he', h4⟩ := h3 x hx
          exact ⟨e', List.mem_cons_of_mem _ he', h4⟩
  obtain ⟨S, h1, h2, _⟩ := key l hp hN
  rw [← h1, ← Nat.card_Ico]
  exact Finset.card_le_card h2

end Poplar.Phys
