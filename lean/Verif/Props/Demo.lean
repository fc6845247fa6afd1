import Verif.Proof.History
/-
  Concrete histories used to show that the hypotheses of the theorems can be met.
-/
namespace Poplar.Props
open Poplar Poplar.Spec

/-- decidable version of `Op.Legal` -/
def legalB (vs : Nat) (o : Op) : Bool :=
  (match o.key? with
   | none => true
   | some k => decide (Malformed k) || (k.getLast? == some 0 && k.dropLast.all (· ≠ 0) && decide (k.length + vs < 2 ^ 64))) &&
  (match o with
   | .write _ v => v.length == vs
   | _ => true)

theorem legal_of {vs : Nat} {os : List Op} (h : os.all (legalB vs) = true) : ∀ o ∈ os, o.Legal vs (CStrings vs) := by
  intro o ho
  have h := List.all_eq_true.1 h o ho
  simp only [legalB, Bool.and_eq_true] at h
  refine ⟨?_, ?_⟩
  · intro k hk
    have h1 := h.1
    rw [hk] at h1
    simp only [Bool.or_eq_true, decide_eq_true_eq, Bool.and_eq_true, beq_iff_eq, List.all_eq_true] at h1
    rcases h1 with h1 | ⟨⟨h1, h2⟩, h3⟩
    · exact Or.inr h1
    · left
      refine ⟨⟨k.dropLast, fun c hc => by simpa using h2 c hc, ?_⟩, h3⟩
      obtain ⟨s, hs⟩ := List.getLast?_eq_some_iff.1 h1
      subst hs
      simp
  · intro k v e
    subst e
    simpa using h.2

/-- three keys, one a prefix of another, one sharing a prefix, a rewrite, malformed keys -/
def demo : List Op :=
  [.write [97, 98, 99, 0] [1, 2, 3, 4], .write [97, 98, 0] [5, 6, 7, 8], .update [97, 120, 0], .find [97, 98, 99, 0],
   .write [97, 98, 99, 0] [9, 9, 9, 9], .find [], .update [97], .size]

/-- parameters used with `demo` -/
def demoParams : Params := { valSize := 4, dbg := true }

theorem demo_valid : demoParams.Valid := ⟨by decide, by decide, by decide⟩

theorem demo_admissible (a : Alias) (i : Init) (hi : i.Fits) (os : List Op) (h1 : os.all (legalB 4) = true)
    (h2 : ∀ k ∈ inserted os, k.head? ≠ some 0) : a.Admissible demoParams i (CStrings 4) os :=
  ⟨demo_valid, hi, keySet_cstrings 4, legal_of h1, Or.inr (Or.inr (Or.inl h2))⟩

theorem small_of {os : List Op} (A : List UInt8) (h1 : A.length ≤ 253)
    (h2 : ∀ k ∈ inserted os, ∀ c ∈ k, c ≠ 0 → c ∈ A) : SmallAlphabet os := ⟨A, h1, h2⟩

theorem within (a : Alias) {p : Params} {os : List Op} (h : cost os < 50000) (hp : p.maxFactor = 90 := by rfl) : ¬ a.AtLimit p .default os := by
  have : 50000 ≤ a.nodeLimit p 13 (Init.capa0 .default) := by cases a <;> simp only [Alias.nodeLimit, hp] <;> decide
  intro hl
  have := hl.cost
  simp only [Init.symbBits] at this
  omega

end Poplar.Props
