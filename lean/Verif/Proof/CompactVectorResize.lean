import Verif.Proof.CompactVector
namespace Poplar.CompactVector
open Poplar

theorem wordsFor_mono {a b : Nat} (h : a ≤ b) : wordsFor a ≤ wordsFor b := by
  unfold wordsFor; omega

theorem WF.resize_grow {v : CompactVector} (h : v.WF) {n : Nat} (hn : v.size ≤ n) :
    (v.resize n).WF ∧ (v.resize n).size = n ∧ (v.resize n).width = v.width ∧
      ∀ p, (v.resize n).bitAt p = v.bitAt p := by
  have hle : v.chunks.size ≤ wordsFor (n * v.width) := by
    rw [h.chunks_size]; exact wordsFor_mono (Nat.mul_le_mul_right _ hn)
  have hsz : (v.resize n).chunks.size = wordsFor (n * v.width) := by
    simp [resize]; omega
  have hget : ∀ k, (v.resize n).chunks[k]? =
      if k < v.chunks.size then v.chunks[k]? else if k < wordsFor (n * v.width) then some 0 else none := by
    intro k
    simp only [resize, Array.getElem?_append, Array.getElem?_extract, Array.getElem?_replicate]
    simp only [Array.size_extract]
    rw [Nat.min_eq_right hle]
    simp only [Nat.sub_zero, Nat.zero_add]
    split
    · rfl
    · split <;> split <;> first | rfl | omega
  refine ⟨⟨h.width_pos, h.width_lt, h.mask_eq, hsz, ?_⟩, rfl, rfl, ?_⟩
  · intro k w hk
    rw [hget] at hk
    split at hk
    · exact h.chunk_lt k w hk
    · split at hk
      · simp at hk; omega
      · simp at hk
  · intro p
    unfold bitAt
    simp only [Array.getD_eq_getD_getElem?, hget]
    split
    · rfl
    · rename_i hk
      rw [Array.getElem?_eq_none (by omega)]
      split <;> rfl

theorem WF.resize_val {v : CompactVector} (h : v.WF) {n : Nat} (hn : v.size ≤ n) {i : Nat} (hi : i < v.size) :
    (v.resize n).val i = v.val i := by
  obtain ⟨h1, h2, h3, h4⟩ := h.resize_grow hn
  apply Nat.eq_of_testBit_eq
  intro b
  rw [h1.val_testBit (by omega), h.val_testBit hi, h3, h4]

/-- `resize` in both directions: the words of the old vector that are needed are kept, the others are dropped or zero. -/
theorem WF.resize_any {v : CompactVector} (h : v.WF) (n : Nat) :
    (v.resize n).WF ∧ (v.resize n).size = n ∧ (v.resize n).width = v.width ∧
      ∀ p, (v.resize n).bitAt p = (decide (p / 64 < wordsFor (n * v.width)) && v.bitAt p) := by
  have hsz : (v.resize n).chunks.size = wordsFor (n * v.width) := by
    simp [resize]; omega
  have hget : ∀ k, (v.resize n).chunks[k]? =
      if k < wordsFor (n * v.width) then some (v.chunks.getD k 0) else none := by
    intro k
    simp only [resize, Array.getElem?_append, Array.getElem?_extract, Array.getElem?_replicate, Array.size_extract,
      Array.getD_eq_getD_getElem?, Nat.sub_zero, Nat.zero_add]
    by_cases h1 : k < wordsFor (n * v.width)
    · rw [if_pos h1]
      by_cases h2 : k < v.chunks.size
      · rw [if_pos (by omega), if_pos (by omega), Array.getElem?_eq_getElem h2]; rfl
      · rw [if_neg (by omega), if_pos (by omega), Array.getElem?_eq_none (by omega)]; rfl
    · rw [if_neg h1]
      by_cases h2 : k < min (wordsFor (n * v.width)) v.chunks.size
      · omega
      · rw [if_neg h2, if_neg (by omega)]
  refine ⟨⟨h.width_pos, h.width_lt, h.mask_eq, hsz, ?_⟩, rfl, rfl, ?_⟩
  · intro k w hk
    rw [hget] at hk
    split at hk
    · have e := Option.some.inj hk
      by_cases h2 : k < v.chunks.size
      · rw [getD_of_lt h2] at e
        have := h.chunk_lt' h2; omega
      · rw [Array.getD_eq_getD_getElem?, Array.getElem?_eq_none (by omega)] at e
        simp at e; omega
    · simp at hk
  · intro p
    unfold bitAt
    rw [Array.getD_eq_getD_getElem?, hget]
    split
    · rename_i hk; simp [hk]
    · rename_i hk; simp [hk]

end Poplar.CompactVector
