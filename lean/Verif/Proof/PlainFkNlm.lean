import Verif.Proof.PlainNlm
/-
  `plain_fkhash_nlm` meets the contract `NlmSpec`.
-/
namespace Poplar
open Spec
namespace PlainFkNlm

theorem compare_ok {vs : Nat} {m : PlainFkNlm} (h : PtrsInv vs m.ptrs m.heap) {i : Nat} {l v : List UInt8}
    (hL : pL vs m.ptrs m.heap i = some (l, v)) {key : List UInt8} (he : Sep key l) :
    (key = l → ∃ p, compare m i key = .ok (some p, key.length) ∧ pAt vs m.ptrs m.heap p i) ∧
    (key ≠ l → compare m i key = .ok (none, lcp key l)) := by
  obtain ⟨a, b, h1, h2, h3, h4⟩ := h.isSome hL
  have hi : i < m.ptrs.size := by
    by_contra hc
    rw [Array.getElem?_eq_none (by omega)] at h1; cases h1
  have hl : (pLab vs b).1 = l := by rw [h4]
  obtain ⟨c1, c2⟩ := plainCompare_ok h2 (by rw [hl]; exact he)
  rw [hl] at c1 c2
  have hrd : rd m.ptrs i = .ok (some a) := by unfold rd; rw [h1]
  constructor
  · intro e
    refine ⟨⟨.heap a, b.length - vs⟩, ?_, a, b, h1, h2, rfl⟩
    unfold compare
    rw [R.assert_dec hi, hrd]
    simp only [R.bind_ok]
    exact c1 e
  · intro e
    unfold compare
    rw [R.assert_dec hi, hrd]
    simp only [R.bind_ok]
    exact c2 e

theorem compare_none {vs : Nat} {m : PlainFkNlm} (h : PtrsInv vs m.ptrs m.heap) {i : Nat} (hi : i < m.ptrs.size)
    (hL : pL vs m.ptrs m.heap i = none) (key : List UInt8) : compare m i key = .error .assertion := by
  have hrd : rd m.ptrs i = .ok none := by unfold rd; rw [h.isNone hi hL]
  unfold compare
  rw [R.assert_dec hi, hrd]; rfl

def spec (vs : Nat) : NlmSpec (ops vs) .fkhash vs where
  minb := 0
  Inv := fun _ m => PtrsInv vs m.ptrs m.heap
  L := fun m i _ => pL vs m.ptrs m.heap i
  At := fun m l i => pAt vs m.ptrs m.heap l i
  stable := True
  make := by
    intro b _ hb
    refine ⟨{}, by simp [ops, make, hb], ⟨?_, ?_⟩, rfl, ?_⟩
    · intro i a h; simp at h
    · intro i j a h; simp at h
    · intro i _; simp [pL]
  lab := fun c m h i _ l v hL => h.lab hL
  flag := fun _ _ _ h => h
  bound := by intro h; cases h
  bound_fk := by
    intro _ c m h i _ hL
    by_contra hc
    apply hL
    show pL _ _ _ _ = none
    unfold pL
    rw [Array.getElem?_eq_none (by simpa [ops] using hc)]; rfl
  compare := fun c m h i _ l v hL key he => compare_ok h hL he
  compare_none := fun c m h i hL _ h2 key _ => compare_none h (h2 rfl) hL key
  insert := by intro h; cases h
  append := by
    intro _ c m h key hk
    obtain ⟨h', b1, b2⟩ := newBlock_ok vs m.heap key
    have hnone : pL vs m.ptrs m.heap m.ptrs.size = none := by simp [pL]
    obtain ⟨a1, a2, a3, a4⟩ := h.add (ptrs' := m.ptrs.push (some m.heap.next)) (h' := h') hk (i := m.ptrs.size)
      (by intro j; rw [Array.getElem?_push]) b2 hnone
    refine ⟨{ ptrs := m.ptrs.push (some m.heap.next), heap := h', labelBytes := m.labelBytes + (key.length + vs),
                maxLength := max m.maxLength key.length, sumLength := m.sumLength + key.length }, ⟨.heap m.heap.next, key.length⟩, ?_, a1, a2, by simp [ops], fun _ => a3, by rw [a4]; exact if_pos rfl, fun j _ hj => by rw [a4]; exact if_neg hj⟩
    simp only [ops, append]
    have e := (m.heap.alloc_spec (key.length + vs)).1
    simp only [e] at b1 ⊢
    cases hc : (m.heap.alloc (key.length + vs)).1.copyIn m.heap.next 0 key with
    | error x => rw [hc] at b1; cases b1
    | ok h1 =>
      rw [hc] at b1
      simp only [R.bind_ok] at b1 ⊢
      rw [b1]; rfl
  appendDummy := by
    intro _ c m h
    have hp : ∀ (i : Nat) a, (m.ptrs.push none)[i]? = some (some a) ↔ m.ptrs[i]? = some (some a) := by
      intro i a; rw [Array.getElem?_push]
      split
      next e => subst e; simp
      next => rfl
    refine ⟨{ m with ptrs := m.ptrs.push none }, rfl, ⟨?_, ?_⟩, by simp [ops], ?_, ?_⟩
    · intro i a hi; exact h.blk i a ((hp i a).1 hi)
    · intro i j a hi hj; exact h.inj i j a ((hp i a).1 hi) ((hp j a).1 hj)
    · rintro _ q j ⟨a, b, h1, h2, h3⟩; exact ⟨a, b, (hp j a).2 h1, h2, h3⟩
    · intro j _
      simp only [pL]
      rw [Array.getElem?_push]
      split
      next e => subst e; simp
      next => rfl
  inv_fk := fun _ _ _ _ h => h
  expand := by intro h; cases h
  load := by
    intro c m h p i _ l v hA hL
    obtain ⟨a, h', h1, _, h2, _⟩ := h.store hA hL (w := v) (h.lab hL).2
    simp only [ops, load, h1]; exact h2
  store := by
    intro c m h p i _ l v w hA hL hw
    obtain ⟨a, h', h1, h2, _, h3, h4, h5⟩ := h.store hA hL hw
    refine ⟨{ m with heap := h' }, ?_, h3, rfl, h4, fun _ => by rw [h5, if_pos rfl, hL]; rfl, fun j _ hj => by rw [h5, if_neg hj]⟩
    simp only [ops, store, h1, h2, R.bind_ok, R.pure_eq]

end PlainFkNlm
end Poplar
