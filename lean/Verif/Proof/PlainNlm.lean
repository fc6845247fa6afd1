import Verif.Model.PlainNlm
import Verif.Proof.Heap
import Verif.Proof.NlmSpec
import Verif.Proof.Walk
/-
  The plain node label maps meet the contract `NlmSpec`.
-/
namespace Poplar
open Spec

/-! ### the comparison loop -/

theorem cmpPlain_ok {h : Heap} {a : Nat} {b : List UInt8} (hb : h.B a = some b) :
    ∀ (ks : List UInt8) (i : Nat), (lcp ks (b.drop i) < ks.length ∧ i + lcp ks (b.drop i) < b.length) →
      cmpPlain h a ks i = .ok (some (i + lcp ks (b.drop i))) := by
  intro ks
  induction ks with
  | nil => intro i ⟨h1, _⟩; simp at h1
  | cons k ks ih =>
    intro i ⟨h1, h2⟩
    have hi : i < b.length := by omega
    rw [List.drop_eq_getElem_cons hi] at h1 h2 ⊢
    simp only [cmpPlain, Heap.read_ok hb hi, R.bind_ok]
    simp only [lcp] at h1 h2 ⊢
    by_cases he : k = b[i]
    · rw [if_pos he] at h1 h2 ⊢
      rw [if_neg (by simpa using he)]
      rw [ih (i + 1) ⟨by simp only [List.length_cons] at h1; omega, by omega⟩]
      congr 2; omega
    · rw [if_neg he, if_pos he]; rfl

theorem cmpPlain_eq {h : Heap} {a : Nat} {b : List UInt8} (hb : h.B a = some b) :
    ∀ (ks : List UInt8) (i : Nat) (v : List UInt8), b.drop i = ks ++ v → cmpPlain h a ks i = .ok none := by
  intro ks
  induction ks with
  | nil => intro i _ _; rfl
  | cons k ks ih =>
    intro i v hd
    have hi : i < b.length := by
      by_contra hc
      rw [List.drop_eq_nil_of_le (by omega)] at hd; simp at hd
    rw [List.drop_eq_getElem_cons hi, List.cons_append] at hd
    injection hd with h1 h2
    simp only [cmpPlain, Heap.read_ok hb hi, R.bind_ok, h1, ne_eq, not_true_eq_false, if_false]
    exact ih (i + 1) v h2

theorem lcp_append {k l : List UInt8} (v : List UInt8) (h : lcp k l < k.length) (h2 : lcp k l < l.length) :
    lcp k (l ++ v) = lcp k l := by
  induction k generalizing l with
  | nil => simp at h
  | cons a k ih =>
    cases l with
    | nil => simp at h2
    | cons b l =>
      simp only [List.cons_append, lcp] at *
      split
      next e =>
        rw [if_pos e] at h h2
        rw [ih (by simp only [List.length_cons] at h; omega) (by simp only [List.length_cons] at h2; omega)]
      next => rfl

/-- what a plain label block contains -/
structure PBlk (vs : Nat) (b : List UInt8) : Prop where
  len : vs ≤ b.length
  lab : OkLabel vs (b.take (b.length - vs))

def pLab (vs : Nat) (b : List UInt8) : List UInt8 × List UInt8 := (b.take (b.length - vs), b.drop (b.length - vs))

theorem pLab_app {vs : Nat} {k v : List UInt8} (hv : v.length = vs) : pLab vs (k ++ v) = (k, v) := by
  subst hv; simp [pLab]

/-- `compare` of both plain classes on a live block -/
theorem plainCompare_ok {vs : Nat} {h : Heap} {a : Nat} {b : List UInt8} (hb : h.B a = some b) 
    {key : List UInt8} (he : Sep key (pLab vs b).1) :
    (key = (pLab vs b).1 → (if key.isEmpty then (pure (some ⟨.heap a, 0⟩, 0) : R (Option Loc × Nat)) else do
        match ← cmpPlain h a key 0 with
        | some i => pure (none, i)
        | none => pure (some ⟨.heap a, key.length⟩, key.length)) = .ok (some ⟨.heap a, b.length - vs⟩, key.length)) ∧
    (key ≠ (pLab vs b).1 → (if key.isEmpty then (pure (some ⟨.heap a, 0⟩, 0) : R (Option Loc × Nat)) else do
        match ← cmpPlain h a key 0 with
        | some i => pure (none, i)
        | none => pure (some ⟨.heap a, key.length⟩, key.length)) = .ok (none, lcp key (pLab vs b).1)) := by
  have hsplit : b = (pLab vs b).1 ++ (pLab vs b).2 := by simp [pLab]
  have hlen : (pLab vs b).1.length = b.length - vs := by simp [pLab]
  constructor
  · intro e
    cases hemp : key.isEmpty with
    | true =>
      have h0 : key = [] := List.isEmpty_iff.1 hemp
      rw [← e, h0] at hlen
      simp only [if_true, R.pure_eq, h0]
      rw [← hlen]; rfl
    | false =>
      simp only [Bool.false_eq_true, if_false]
      rw [cmpPlain_eq hb key 0 (pLab vs b).2 (by rw [e]; exact hsplit)]
      simp only [R.bind_ok, R.pure_eq]
      rw [← hlen, e]
  · intro hne
    have hemp : key.isEmpty = false := by
      cases hk' : key with
      | nil => exact absurd (hk'.trans (he.nil_iff.1 hk').symm) hne
      | cons => rfl
    simp only [hemp, Bool.false_eq_true, if_false]
    have l1 := he.lcp_lt hne
    have l2 := he.symm.lcp_lt (Ne.symm hne)
    rw [lcp_comm] at l2
    have hlcp : lcp key (b.drop 0) = lcp key (pLab vs b).1 := by
      rw [List.drop_zero]
      conv_lhs => rw [hsplit]
      exact lcp_append _ l1 l2
    rw [cmpPlain_ok hb key 0 ⟨by rw [hlcp]; exact l1, by rw [hlcp]; omega⟩]
    simp only [R.bind_ok, R.pure_eq, Nat.zero_add, hlcp]

/-! ### pointers to blocks -/

structure PtrsInv (vs : Nat) (ptrs : Array (Option Nat)) (h : Heap) : Prop where
  blk : ∀ (i : Nat) a, ptrs[i]? = some (some a) → ∃ b, h.B a = some b ∧ PBlk vs b
  inj : ∀ (i j : Nat) a, ptrs[i]? = some (some a) → ptrs[j]? = some (some a) → i = j

def pL (vs : Nat) (ptrs : Array (Option Nat)) (h : Heap) (i : Nat) : Option (List UInt8 × List UInt8) :=
  (ptrs[i]?).join.bind (fun a => (h.B a).map (pLab vs))

def pAt (vs : Nat) (ptrs : Array (Option Nat)) (h : Heap) (l : Loc) (i : Nat) : Prop :=
  ∃ a b, ptrs[i]? = some (some a) ∧ h.B a = some b ∧ l = ⟨.heap a, b.length - vs⟩

theorem PtrsInv.isSome {vs : Nat} {ptrs : Array (Option Nat)} {h : Heap} (hI : PtrsInv vs ptrs h) {i : Nat}
    {l v : List UInt8} (hL : pL vs ptrs h i = some (l, v)) :
    ∃ a b, ptrs[i]? = some (some a) ∧ h.B a = some b ∧ PBlk vs b ∧ pLab vs b = (l, v) := by
  unfold pL at hL
  cases hp : ptrs[i]? with
  | none => rw [hp] at hL; cases hL
  | some p =>
    cases p with
    | none => rw [hp] at hL; cases hL
    | some a =>
      obtain ⟨b, b1, b2⟩ := hI.blk i a hp
      rw [hp] at hL
      simp only [Option.join_some, Option.bind_some, b1, Option.map_some, Option.some.injEq] at hL
      exact ⟨a, b, rfl, b1, b2, hL⟩

theorem PtrsInv.isNone {vs : Nat} {ptrs : Array (Option Nat)} {h : Heap} (hI : PtrsInv vs ptrs h) {i : Nat}
    (hi : i < ptrs.size) (hL : pL vs ptrs h i = none) : ptrs[i]? = some none := by
  unfold pL at hL
  rw [Array.getElem?_eq_getElem hi] at hL ⊢
  cases hp : ptrs[i] with
  | none => rfl
  | some a =>
    obtain ⟨b, b1, _⟩ := hI.blk i a (by rw [Array.getElem?_eq_getElem hi, hp])
    rw [hp] at hL
    simp [b1] at hL

theorem PtrsInv.lab {vs : Nat} {ptrs : Array (Option Nat)} {h : Heap} (hI : PtrsInv vs ptrs h) {i : Nat}
    {l v : List UInt8} (hL : pL vs ptrs h i = .some (l, v)) : OkLabel vs l ∧ v.length = vs := by
  obtain ⟨a, b, _, _, h1, h2⟩ := hI.isSome hL
  simp only [pLab, Prod.mk.injEq] at h2
  refine ⟨by rw [← h2.1]; exact h1.lab, ?_⟩
  rw [← h2.2, List.length_drop]
  have := h1.len; omega

/-- allocate a block with a label and a zero value -/
theorem newBlock_ok (vs : Nat) (h : Heap) (key : List UInt8) :
    ∃ h', (do
      let h1 ← (h.alloc (key.length + vs)).1.copyIn (h.alloc (key.length + vs)).2 0 key
      h1.copyIn (h.alloc (key.length + vs)).2 key.length (List.replicate vs 0)) = .ok h' ∧
      ∀ x, h'.B x = if x = h.next then .some (key ++ List.replicate vs 0) else h.B x := by
  obtain ⟨a1, a2, a3⟩ := h.alloc_spec (key.length + vs)
  rw [a1]
  obtain ⟨h1, b1, b2, b3⟩ := Heap.copyIn_ok key (h := (h.alloc (key.length + vs)).1) (a := h.next) (off := 0)
    (by rw [a3, if_pos rfl]) (by simp)
  obtain ⟨h2, c1, c2, c3⟩ := Heap.copyIn_ok (List.replicate vs 0) (h := h1) (a := h.next) (off := key.length)
    (by rw [b3, if_pos rfl]) (by rw [patch_length (by simp)]; simp)
  refine ⟨h2, by rw [b1]; exact c1, ?_⟩
  intro x
  rw [c3, b3, a3]
  by_cases e : x = h.next
  · simp only [e, if_true]
    congr 1
    have h1 : patch (List.replicate (key.length + vs) 0) 0 key = key ++ List.replicate vs 0 := by
      have := patch_app (a := []) (m := List.replicate key.length 0) (c := List.replicate vs 0) (off := 0) (xs := key) rfl (by simp)
      simpa [List.replicate_append_replicate] using this
    rw [h1]
    have := patch_app (a := key) (m := List.replicate vs 0) (c := []) (off := key.length) (xs := List.replicate vs 0) rfl rfl
    simpa using this
  · simp only [e, if_false]

theorem PtrsInv.add {vs : Nat} {ptrs ptrs' : Array (Option Nat)} {h h' : Heap} (hI : PtrsInv vs ptrs h) {i : Nat}
    {key : List UInt8} (hk : OkLabel vs key)
    (hp : ∀ j : Nat, ptrs'[j]? = if j = i then .some (.some h.next) else ptrs[j]?)
    (hB : ∀ x, h'.B x = if x = h.next then .some (key ++ List.replicate vs 0) else h.B x)
    (hnone : pL vs ptrs h i = .none) :
    PtrsInv vs ptrs' h' ∧ pAt vs ptrs' h' ⟨.heap h.next, key.length⟩ i ∧
    (∀ q j, pAt vs ptrs h q j → pAt vs ptrs' h' q j) ∧
    ∀ j, pL vs ptrs' h' j = if j = i then .some (key, List.replicate vs 0) else pL vs ptrs h j := by
  have hold : ∀ (j : Nat) a, ptrs[j]? = .some (.some a) → a ≠ h.next := by
    intro j a hj e
    obtain ⟨b, b1, _⟩ := hI.blk j a hj
    have := Heap.B_lt b1
    omega
  have hne : ∀ (j : Nat) a, ptrs[j]? = .some (.some a) → j ≠ i := by
    rintro j a hj rfl
    obtain ⟨b, b1, _⟩ := hI.blk j a hj
    simp [pL, hj, b1] at hnone
  refine ⟨⟨?_, ?_⟩, ⟨h.next, key ++ List.replicate vs 0, by rw [hp, if_pos rfl], by rw [hB, if_pos rfl], by simp⟩, ?_, ?_⟩
  · intro j a hj
    rw [hp] at hj
    split at hj
    next e =>
      have ha : h.next = a := by simpa using hj
      refine ⟨_, by rw [hB, if_pos ha.symm], ⟨by simp, ?_⟩⟩
      simpa using hk
    next e =>
      obtain ⟨b, b1, b2⟩ := hI.blk j a hj
      exact ⟨b, by rw [hB, if_neg (hold j a hj)]; exact b1, b2⟩
  · intro j k a hj hk
    rw [hp] at hj hk
    by_cases e1 : j = i <;> by_cases e2 : k = i
    · rw [e1, e2]
    · simp only [e1, e2, if_true, if_false] at hj hk
      have ha : h.next = a := by simpa using hj
      exact absurd ha.symm (hold k a hk)
    · simp only [e1, e2, if_true, if_false] at hj hk
      have ha : h.next = a := by simpa using hk
      exact absurd ha.symm (hold j a hj)
    · simp only [e1, e2, if_false] at hj hk
      exact hI.inj j k a hj hk
  · rintro q j ⟨a, b, h1, h2, h3⟩
    exact ⟨a, b, by rw [hp, if_neg (hne j a h1)]; exact h1, by rw [hB, if_neg (hold j a h1)]; exact h2, h3⟩
  · intro j
    unfold pL
    rw [hp]
    by_cases e : j = i
    · simp only [e, if_true, Option.join_some, Option.bind_some, hB, Option.map_some]
      rw [pLab_app (by simp)]
    · simp only [e, if_false]
      cases hj : ptrs[j]? with
      | none => rfl
      | some p =>
        cases p with
        | none => rfl
        | some a =>
          simp only [Option.join_some, Option.bind_some]
          rw [hB, if_neg (hold j a hj)]

theorem PtrsInv.store {vs : Nat} {ptrs : Array (Option Nat)} {h : Heap} (hI : PtrsInv vs ptrs h) {p : Loc} {i : Nat}
    {l v w : List UInt8} (hA : pAt vs ptrs h p i) (hL : pL vs ptrs h i = .some (l, v)) (hw : w.length = vs) :
    ∃ a h', p.blk = .heap a ∧ h.copyIn a p.off w = .ok h' ∧ h.load a p.off vs = .ok v ∧ PtrsInv vs ptrs h' ∧
      (∀ q j, pAt vs ptrs h q j → pAt vs ptrs h' q j) ∧
      ∀ j, pL vs ptrs h' j = if j = i then .some (l, w) else pL vs ptrs h j := by
  obtain ⟨a, b, h1, h2, rfl⟩ := hA
  obtain ⟨a', b', g1, g2, g3, g4⟩ := hI.isSome hL
  rw [h1] at g1; cases g1
  rw [h2] at g2; cases g2
  have hlen := g3.len
  obtain ⟨h', c1, c2, c3⟩ := Heap.copyIn_ok w (off := b.length - vs) h2 (by omega)
  have hpat : patch b (b.length - vs) w = b.take (b.length - vs) ++ w := by
    unfold patch
    rw [List.drop_eq_nil_of_le (by omega), List.append_nil]
  simp only [pLab, Prod.mk.injEq] at g4
  rw [hpat] at c3
  rw [g4.1] at c3
  have hll : l.length = b.length - vs := by rw [← g4.1]; simp
  refine ⟨a, h', rfl, c1, ?_, ⟨?_, hI.inj⟩, ?_, ?_⟩
  · rw [Heap.load_ok h2 (by simp only; omega)]
    simp only [g4.2]
    rw [List.take_of_length_le]
    rw [← g4.2]; simp; omega
  · intro j x hj
    rw [c3]
    by_cases e : x = a
    · rw [if_pos e]
      refine ⟨_, rfl, ⟨by simp; omega, ?_⟩⟩
      have h5 : (l ++ w).length - vs = l.length := by simp; omega
      rw [h5, List.take_left, ← g4.1]; exact g3.lab
    · rw [if_neg e]; exact hI.blk j x hj
  · rintro q j ⟨x, y, q1, q2, q3⟩
    by_cases e : x = a
    · rw [e, h2] at q2; cases q2
      refine ⟨x, l ++ w, q1, by rw [c3, if_pos e], ?_⟩
      rw [q3]; congr 1; simp; omega
    · exact ⟨x, y, q1, by rw [c3, if_neg e]; exact q2, q3⟩
  · intro j
    unfold pL
    cases hj : ptrs[j]? with
    | none => rw [if_neg (by rintro rfl; rw [h1] at hj; cases hj)]; rfl
    | some p =>
      cases p with
      | none => rw [if_neg (by rintro rfl; rw [h1] at hj; cases hj)]; rfl
      | some x =>
        simp only [Option.join_some, Option.bind_some]
        rw [c3]
        by_cases e : x = a
        · have : j = i := hI.inj j i a (by rw [hj, e]) h1
          rw [if_pos e, if_pos this, Option.map_some, pLab_app hw]
        · rw [if_neg e, if_neg]
          rintro rfl; rw [h1] at hj; cases hj; exact e rfl

end Poplar
