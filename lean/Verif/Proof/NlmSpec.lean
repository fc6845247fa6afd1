import Verif.Model.Interfaces
import Verif.Proof.Count
import Verif.Spec.Dict
/-
  The contract of a node label map, in terms of the partial map `L` from node ids to labels and
  values, and the relation `At` between pointers and node ids.
-/
namespace Poplar
open Spec

/-- a label: empty, or terminated by NUL -/
def OkLabel (vs : Nat) (k : List UInt8) : Prop := (k = [] ∨ ∃ s, k = s ++ [0]) ∧ k.length + vs < 2 ^ 64

theorem _root_.Poplar.Spec.Sep.symm {a b : List UInt8} (h : Sep a b) : Sep b a := h.imp Eq.symm And.symm

theorem _root_.Poplar.Spec.Sep.nil_iff {a b : List UInt8} (h : Sep a b) : a = [] ↔ b = [] := by
  rcases h with rfl | ⟨h1, h2⟩
  · rfl
  · exact ⟨fun e => absurd (e ▸ List.nil_prefix) h1, fun e => absurd (e ▸ List.nil_prefix) h2⟩

theorem _root_.Poplar.Spec.Sep.tail {x : UInt8} {a b : List UInt8} (h : Sep (x :: a) (x :: b)) : Sep a b := by
  rcases h with h | ⟨h1, h2⟩
  · injection h with _ h; exact Or.inl h
  · exact Or.inr ⟨fun h => h1 (List.cons_prefix_cons.2 ⟨rfl, h⟩), fun h => h2 (List.cons_prefix_cons.2 ⟨rfl, h⟩)⟩

theorem lcp_comm (a b : List UInt8) : lcp a b = lcp b a := by
  induction a generalizing b with
  | nil => cases b <;> rfl
  | cons x a ih =>
    cases b with
    | nil => rfl
    | cons y b =>
      simp only [lcp]
      by_cases h : x = y
      · rw [if_pos h, if_pos h.symm, ih]
      · rw [if_neg h, if_neg (Ne.symm h)]

/-- separated strings differ at some position -/
theorem _root_.Poplar.Spec.Sep.lcp_lt {k l : List UInt8} (hs : Sep k l) (h : k ≠ l) : lcp k l < k.length := by
  induction k generalizing l with
  | nil => exact absurd (hs.nil_iff.1 rfl).symm h
  | cons a k ih =>
    cases l with
    | nil => exact absurd (hs.nil_iff.2 rfl) h
    | cons b l =>
      simp only [lcp, List.length_cons]
      split
      next hab =>
        subst hab
        exact Nat.add_lt_add_right (ih hs.tail (fun e => h (by rw [e]))) 1
      next => omega

/-- C strings are separated -/
theorem _root_.Poplar.Spec.CString.sep {k l : List UInt8} (hk : CString k) (hl : CString l) : Sep k l := by
  have key : ∀ {k l : List UInt8}, CString k → CString l → k <+: l → k = l := by
    rintro _ _ ⟨s, hs, rfl⟩ ⟨t, ht, rfl⟩ h
    induction s generalizing t with
    | nil =>
      cases t with
      | nil => rfl
      | cons y t =>
        rw [List.nil_append, List.cons_append, List.cons_prefix_cons] at h
        exact absurd h.1.symm (ht y (by simp))
    | cons x s ih =>
      cases t with
      | nil =>
        rw [List.nil_append, List.cons_append, List.cons_prefix_cons] at h
        exact absurd h.1 (hs x (by simp))
      | cons y t =>
        rw [List.cons_append, List.cons_append, List.cons_prefix_cons] at h
        rw [List.cons_append, List.cons_append, h.1,
          ih (fun c hc => hs c (by simp [hc])) t (fun c hc => ht c (by simp [hc])) h.2]
  by_cases e : k = l
  · exact Or.inl e
  · exact Or.inr ⟨fun h => e (key hk hl h), fun h => e (key hl hk h).symm⟩

structure NlmSpec {ν : Type} (ops : NlmOps ν) (kind : Kind) (vs : Nat) where
  /-- smallest supported capacity (bits) -/
  minb : Nat
  /-- invariant; the first argument is the number of node ids (bonsai only) -/
  Inv : Nat → ν → Prop
  /-- label and value of a node; the flag says whether the label is the empty list (which the compact
  classes cannot tell from the label that consists of the terminator only) -/
  L : ν → Nat → Bool → Option (List UInt8 × List UInt8)
  At : ν → Loc → Nat → Prop
  /-- pointers stay valid when labels are added and the table is expanded -/
  stable : Prop
  make : ∀ b, minb ≤ b → b < 64 → ∃ m, ops.make b = .ok m ∧ Inv (2 ^ b) m ∧ ops.size m = 0 ∧ ∀ i e, L m i e = none
  lab : ∀ c m, Inv c m → ∀ i e l v, L m i e = some (l, v) → OkLabel vs l ∧ v.length = vs
  /-- a label is a label under the flag `false` too -/
  flag : ∀ m i e, L m i e ≠ none → L m i false ≠ none
  bound : kind = .bonsai → ∀ c m, Inv c m → ∀ i e, L m i e ≠ none → i < c
  bound_fk : kind = .fkhash → ∀ c m, Inv c m → ∀ i e, L m i e ≠ none → i < ops.size m
  compare : ∀ c m, Inv c m → ∀ i e l v, L m i e = some (l, v) → ∀ key, Sep key l →
    (key = l → ∃ p, ops.compare m i key = .ok (some p, key.length) ∧ At m p i) ∧
    (key ≠ l → ops.compare m i key = .ok (none, lcp key l))
  /-- `compare` at a node without a label (a step node) -/
  compare_none : ∀ c m, Inv c m → ∀ i, L m i false = none → (kind = .bonsai → i < c) → (kind = .fkhash → i < ops.size m) →
    ∀ key, key ≠ [] → ops.compare m i key = .error .assertion
  insert : kind = .bonsai → ∀ c m, Inv c m → ∀ i, i < c → (∀ e, L m i e = none) → ∀ key, OkLabel vs key →
    ∃ m' p, ops.insert m i key = .ok (m', p) ∧ Inv c m' ∧ At m' p i ∧ (stable → ∀ q j, At m q j → At m' q j) ∧
      L m' i key.isEmpty = some (key, List.replicate vs 0) ∧ ∀ j e, j ≠ i → L m' j e = L m j e
  append : kind = .fkhash → ∀ c m, Inv c m → ∀ key, OkLabel vs key →
    ∃ m' p, ops.append m key = .ok (m', p) ∧ Inv c m' ∧ At m' p (ops.size m) ∧ ops.size m' = ops.size m + 1 ∧ (stable → ∀ q j, At m q j → At m' q j) ∧
      L m' (ops.size m) key.isEmpty = some (key, List.replicate vs 0) ∧ ∀ j e, j ≠ ops.size m → L m' j e = L m j e
  appendDummy : kind = .fkhash → ∀ c m, Inv c m →
    ∃ m', ops.appendDummy m = .ok m' ∧ Inv c m' ∧ ops.size m' = ops.size m + 1 ∧
      (stable → ∀ q j, At m q j → At m' q j) ∧ ∀ j e, L m' j e = L m j e
  inv_fk : kind = .fkhash → ∀ c c' m, Inv c m → Inv c' m
  expand : kind = .bonsai → ∀ c m (nm : NodeMap) (D : Nat → Prop) (f : Nat → Nat), Inv c m → 2 * c < 2 ^ 64 →
    nm.size = c → (∀ i < c, D i → nm.get i = .ok (f i)) → (∀ i < c, ¬ D i → nm.get i = .ok u64max) →
    (∀ i, D i → i < c ∧ f i < 2 * c) → (∀ i j, D i → D j → f i = f j → i = j) →
    (∀ i e, L m i e ≠ none → D i) →
    ∃ m', ops.expand m nm = .ok m' ∧ Inv (2 * c) m' ∧ (stable → ∀ q i, At m q i → At m' q (f i)) ∧
      (∀ i e, D i → L m' (f i) e = L m i e) ∧
      (∀ j e, (∀ i, D i → f i ≠ j) → L m' j e = none)
  load : ∀ c m, Inv c m → ∀ p i e l v, At m p i → L m i e = some (l, v) → ops.load m p = .ok v
  store : ∀ c m, Inv c m → ∀ p i e l v w, At m p i → L m i e = some (l, v) → w.length = vs →
    ∃ m', ops.store m p w = .ok m' ∧ Inv c m' ∧ ops.size m' = ops.size m ∧ (∀ q j, At m q j → At m' q j) ∧
      (∀ e, L m' i e = (L m i e).map (fun x => (x.1, w))) ∧ ∀ j e, j ≠ i → L m' j e = L m j e

end Poplar
