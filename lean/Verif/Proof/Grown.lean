import Verif.Proof.MapBase
/-
  How the set of paths of a trie grows: exactly the nodes that are counted, at places on the way to a branch.
-/
namespace Poplar.Map
open Spec Poplar

/-- the paths of the trie `T'` are those of `T` and `n' - n` others, all of which satisfy `New` -/
def Grown (T T' : List Nat → Option Nat) (n n' : Nat) (New : List Nat → Prop) : Prop :=
  ∃ Ps : List (List Nat), Ps.Nodup ∧ (∀ q, T' q ≠ none ↔ T q ≠ none ∨ q ∈ Ps) ∧ (∀ q ∈ Ps, T q = none ∧ New q) ∧ n' = n + Ps.length

/-- the places for nodes on the way to the branch `b` -/
def NewAt (lam : Nat) (cd : UInt8 → Nat) (b : BP) (q : List Nat) : Prop :=
  q = flat lam cd b ∨ ∃ mt c bp j, ((mt, c) :: bp) <:+ b ∧ j ≤ mt / lam ∧ q = List.replicate j 255 ++ flat lam cd bp

variable {T T1 T2 T' : List Nat → Option Nat} {n n1 n2 n' : Nat} {A B C : List Nat → Prop}

theorem Grown.refl : Grown T T n n A := ⟨[], List.nodup_nil, by simp, by simp, rfl⟩

theorem Grown.of_eq (h : T' = T) (hn : n' = n) : Grown T T' n n' A := by rw [h, hn]; exact .refl

theorem Grown.one {p : List Nat} (h : ∀ q, T' q ≠ none ↔ T q ≠ none ∨ q = p) (hp : T p = none) (hA : A p) (hn : n' = n + 1) :
    Grown T T' n n' A := by
  refine ⟨[p], by simp, fun q => ?_, fun q hq => ?_, hn⟩
  · rw [List.mem_singleton]; exact h q
  · rw [List.mem_singleton.1 hq]; exact ⟨hp, hA⟩

theorem Grown.imp (h : Grown T T' n n' A) (hA : ∀ q, A q → B q) : Grown T T' n n' B := by
  obtain ⟨Ps, h1, h2, h3, h4⟩ := h
  exact ⟨Ps, h1, h2, fun q hq => ⟨(h3 q hq).1, hA q (h3 q hq).2⟩, h4⟩

theorem Grown.trans (h : Grown T T1 n n1 A) (h' : Grown T1 T2 n1 n2 A) : Grown T T2 n n2 A := by
  obtain ⟨Ps, h1, h2, h3, h4⟩ := h
  obtain ⟨Qs, g1, g2, g3, g4⟩ := h'
  refine ⟨Ps ++ Qs, List.nodup_append.2 ⟨h1, g1, ?_⟩, ?_, ?_, ?_⟩
  · rintro a ha b hb rfl
    exact (h2 a).2 (Or.inr ha) (g3 a hb).1
  · intro q
    rw [g2, h2, List.mem_append, or_assoc]
  · intro q hq
    rcases List.mem_append.1 hq with hq | hq
    · exact h3 q hq
    · refine ⟨?_, (g3 q hq).2⟩
      by_contra hc
      exact (h2 q).2 (Or.inl hc) (g3 q hq).1
  · rw [g4, h4, List.length_append, Nat.add_assoc]

end Poplar.Map
