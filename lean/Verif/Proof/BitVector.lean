import Verif.Model.BitVector
import Verif.Proof.CompactVectorResize
/-
  `bit_vector` is a sequence of bits.
-/
namespace Poplar
open BitTools

namespace BitTools

theorem getBit_ok {w x i : Nat} (h : i < w) : getBit w x i = .ok (x.testBit i) := by
  simp only [getBit, R.assert_dec h, R.bind_ok, R.pure_eq]
  congr 1
  rw [Nat.one_shiftLeft]
  cases hb : x.testBit i with
  | true =>
    have : (x &&& 2 ^ i).testBit i = true := by simp [Nat.testBit_and, hb]
    have : x &&& 2 ^ i ≠ 0 := by intro e; rw [e] at this; simp at this
    simpa using this
  | false =>
    have : x &&& 2 ^ i = 0 := by
      apply Nat.eq_of_testBit_eq
      intro j
      rw [Nat.testBit_and, Nat.testBit_two_pow]
      by_cases hj : i = j
      · subst hj; simp [hb]
      · simp [hj]
    simp [this]

theorem one_shl (i j : Nat) : (1 <<< i).testBit j = decide (i = j) := by
  rw [Nat.one_shiftLeft, Nat.testBit_two_pow]

theorem setBit_ok {w x i : Nat} {b : Bool} (hw : w ≤ 64) (hx : x < 2 ^ w) (h : i < w) :
    ∃ y, setBit w x i b = .ok y ∧ y < 2 ^ w ∧ ∀ j, y.testBit j = if j = i then b else x.testBit j := by
  have h1 : 1 <<< i < 2 ^ w := by rw [Nat.one_shiftLeft]; exact Nat.pow_lt_pow_right (by decide) h
  refine ⟨_, by simp only [setBit, R.assert_dec h, R.bind_ok, R.pure_eq]; rfl, ?_, ?_⟩
  · split
    · exact Nat.or_lt_two_pow hx h1
    · exact Nat.lt_of_le_of_lt Nat.and_le_left hx
  · intro j
    cases b
    · simp only [Bool.false_eq_true, if_false, Nat.testBit_and]
      by_cases hj : j < 64
      · rw [testBit_not64 _ _ hj, one_shl]
        by_cases hji : j = i
        · simp [hji]
        · have : ¬ i = j := fun h => hji h.symm
          simp [hji, this]
      · have : x.testBit j = false := by
          apply Nat.testBit_lt_two_pow
          exact Nat.lt_of_lt_of_le hx (Nat.pow_le_pow_right (by decide) (by omega))
        have hji : j ≠ i := by omega
        simp [this, hji]
    · simp only [if_true, Nat.testBit_or, one_shl]
      by_cases hji : j = i
      · simp [hji]
      · have : ¬ i = j := fun h => hji h.symm
        simp [hji, this]

end BitTools

namespace BitVector

/-- bit `p` of the vector -/
def bit (v : BitVector) (p : Nat) : Bool := (v.chunks.getD (p / 64) 0).testBit (p % 64)

structure WF (v : BitVector) : Prop where
  chunks_size : v.chunks.size = wordsFor v.size
  chunk_lt : ∀ (k w : Nat), v.chunks[k]? = some w → w < 2 ^ 64
  tail : ∀ p, v.size ≤ p → v.bit p = false

theorem make_wf (n : Nat) : (make n).WF ∧ (make n).size = n ∧ ∀ p, (make n).bit p = false := by
  have hb : ∀ p, (make n).bit p = false := by
    intro p
    simp only [bit, make, Array.getD_eq_getD_getElem?, Array.getElem?_replicate]
    split <;> simp
  refine ⟨⟨by simp [make], ?_, fun p _ => hb p⟩, rfl, hb⟩
  intro k w hk
  simp [make, Array.getElem?_replicate] at hk
  rw [← hk.2]; decide

variable {v : BitVector}

theorem WF.idx (h : v.WF) {i : Nat} (hi : i < v.size) : i / 64 < v.chunks.size := by
  rw [h.chunks_size, wordsFor]; omega

theorem WF.get_ok (h : v.WF) {i : Nat} (hi : i < v.size) : v.get i = .ok (v.bit i) := by
  have hq := h.idx hi
  simp only [get, R.assert_dec hi, R.bind_ok, rd_of_lt hq]
  rw [getBit_ok (Nat.mod_lt _ (by decide))]
  simp [bit, hq]

theorem getD_set {a : Array Nat} {k x : Nat} (hk : k < a.size) (j : Nat) :
    (a.setIfInBounds k x).getD j 0 = if j = k then x else a.getD j 0 := by
  simp only [Array.getD_eq_getD_getElem?, Array.getElem?_setIfInBounds]
  by_cases h : k = j
  · subst h; simp [hk]
  · have : ¬ j = k := fun e => h e.symm
    simp [h, this]

theorem WF.chunk_getD (h : v.WF) (k : Nat) : v.chunks.getD k 0 < 2 ^ 64 := by
  rw [Array.getD_eq_getD_getElem?]
  cases hk : v.chunks[k]? with
  | none => simp
  | some w => simpa using h.chunk_lt k w hk

theorem set_lt {a : Array Nat} {k x : Nat} (hx : x < 2 ^ 64)
    (h : ∀ (k w : Nat), a[k]? = some w → w < 2 ^ 64) :
    ∀ (j w : Nat), (a.setIfInBounds k x)[j]? = some w → w < 2 ^ 64 := by
  intro j w hj
  rw [Array.getElem?_setIfInBounds] at hj
  split at hj
  · split at hj
    · simp at hj; omega
    · simp at hj
  · exact h j w hj

theorem WF.set_ok (h : v.WF) {i : Nat} {b : Bool} (hi : i < v.size) :
    ∃ v', v.set i b = .ok v' ∧ v'.WF ∧ v'.size = v.size ∧
      ∀ p, v'.bit p = if p = i then b else v.bit p := by
  have hq := h.idx hi
  have hx : v.chunks[i / 64] < 2 ^ 64 := h.chunk_lt _ _ (Array.getElem?_eq_getElem hq)
  obtain ⟨y, hy, hylt, hyb⟩ := setBit_ok (w := 64) (b := b) (Nat.le_refl _) hx (i := i % 64)
    (Nat.mod_lt _ (by decide))
  have hbits : ∀ p, BitVector.bit { v with chunks := v.chunks.setIfInBounds (i / 64) y } p =
      if p = i then b else v.bit p := by
    intro p
    simp only [bit]
    rw [getD_set hq]
    by_cases hp : p / 64 = i / 64
    · rw [if_pos hp, hyb, hp, CompactVector.getD_of_lt hq]
      by_cases hpm : p % 64 = i % 64
      · have : p = i := by omega
        simp [this]
      · have : p ≠ i := by omega
        simp [hpm, this]
    · have : p ≠ i := by intro e; subst e; exact hp rfl
      rw [if_neg hp]; simp [this]
  refine ⟨{ v with chunks := v.chunks.setIfInBounds (i / 64) y },
    by simp only [set, R.assert_dec hi, R.bind_ok, rd_of_lt hq, hy, wr_of_lt hq, R.pure_eq],
    ⟨?_, ?_, ?_⟩, rfl, hbits⟩
  · simpa using h.chunks_size
  · exact set_lt hylt h.chunk_lt
  · intro p hp
    simp only at hp
    rw [hbits, if_neg (by omega), h.tail p hp]

theorem WF.getBits_ok (h : v.WF) {pos len : Nat} (hp : pos + len ≤ v.size) (hl : len < 64) :
    ∃ x, v.getBits pos len = .ok x ∧
      ∀ b, x.testBit b = (decide (b < len) && v.bit (pos + b)) := by
  unfold getBits
  simp only [R.assert_dec hp, R.bind_ok]
  by_cases h0 : len = 0
  · exact ⟨0, by simp [h0], fun b => by simp [h0]⟩
  rw [if_neg h0, if_neg (by omega)]
  have hq : pos / 64 < v.chunks.size := h.idx (by omega)
  have hmask : ∀ b, (2 ^ len - 1).testBit b = decide (b < len) := fun b => Nat.testBit_two_pow_sub_one len b
  by_cases hc : pos % 64 + len ≤ 64
  · rw [if_pos hc]
    refine ⟨_, by simp only [rd_of_lt hq, R.bind_ok, R.pure_eq]; rfl, fun b => ?_⟩
    rw [Nat.testBit_and, Nat.testBit_shiftRight, hmask, Bool.and_comm]
    by_cases hb : b < len
    · simp only [hb, decide_true, Bool.true_and, bit]
      have e1 : (pos + b) / 64 = pos / 64 := by omega
      have e2 : (pos + b) % 64 = pos % 64 + b := by omega
      rw [e1, e2, CompactVector.getD_of_lt hq]
    · simp [hb]
  · rw [if_neg hc]
    have hq1 : pos / 64 + 1 < v.chunks.size := by
      have := h.idx (i := pos + len - 1) (by omega); omega
    refine ⟨_, by simp only [rd_of_lt hq, rd_of_lt hq1, R.bind_ok, R.pure_eq]; rfl, fun b => ?_⟩
    rw [Nat.testBit_or, Nat.testBit_and, Nat.testBit_shiftRight, hmask, testBit_shl64]
    have hlt : v.chunks[pos / 64] < 2 ^ 64 := h.chunk_lt _ _ (Array.getElem?_eq_getElem hq)
    by_cases hb1 : pos % 64 + b < 64
    · have hb : b < len := by omega
      have e1 : (pos + b) / 64 = pos / 64 := by omega
      have e2 : (pos + b) % 64 = pos % 64 + b := by omega
      have e3 : ¬ 64 - pos % 64 ≤ b := by omega
      simp only [hb, e3, decide_true, decide_false, bit, e1, e2, CompactVector.getD_of_lt hq, Bool.and_false, Bool.false_and,
        Bool.or_false, Bool.true_and]
    · have e0 : v.chunks[pos / 64].testBit (pos % 64 + b) = false := by
        apply Nat.testBit_lt_two_pow
        exact Nat.lt_of_lt_of_le hlt (Nat.pow_le_pow_right (by decide) (by omega))
      rw [e0, Bool.false_or]
      by_cases hb : b < len
      · have e1 : (pos + b) / 64 = pos / 64 + 1 := by omega
        have e2 : (pos + b) % 64 = b - (64 - pos % 64) := by omega
        have e3 : b < 64 := by omega
        have e4 : 64 - pos % 64 ≤ b := by omega
        simp [hb, e3, e4, bit, e1, e2, hq1]
      · simp [hb]

theorem getD_push {a : Array Nat} {x : Nat} (j : Nat) :
    (a.push x).getD j 0 = if j = a.size then x else a.getD j 0 := by
  simp only [Array.getD_eq_getD_getElem?, Array.getElem?_push]
  split <;> simp

theorem push_lt {a : Array Nat} {x : Nat} (hx : x < 2 ^ 64)
    (h : ∀ (k w : Nat), a[k]? = some w → w < 2 ^ 64) :
    ∀ (j w : Nat), (a.push x)[j]? = some w → w < 2 ^ 64 := by
  intro j w hj
  rw [Array.getElem?_push] at hj
  split at hj
  · simp at hj; omega
  · exact h j w hj

theorem orBack_ok {a : Array Nat} {x : Nat} (h0 : 0 < a.size) :
    ∃ y, orBack a x = .ok (a.setIfInBounds (a.size - 1) y) ∧ y = a.getD (a.size - 1) 0 ||| x := by
  have h1 : a.size - 1 < a.size := by omega
  refine ⟨_, by simp only [orBack, if_neg (show ¬ a.size = 0 by omega), rd_of_lt h1, R.bind_ok, wr_of_lt h1]; rfl, ?_⟩
  rw [CompactVector.getD_of_lt h1]

theorem WF.appendBits_ok (h : v.WF) {bits len : Nat} (hl : len ≤ 64) (hb : bits < 2 ^ len) :
    ∃ v', v.appendBits bits len = .ok v' ∧ v'.WF ∧ v'.size = v.size + len ∧
      ∀ p, v'.bit p = if v.size ≤ p ∧ p < v.size + len then bits.testBit (p - v.size) else v.bit p := by
  have hbits64 : bits < 2 ^ 64 := Nat.lt_of_lt_of_le hb (Nat.pow_le_pow_right (by decide) hl)
  unfold appendBits
  rw [if_neg (by omega)]
  have ha : (len = 64 ∨ bits >>> len = 0) := by
    right; rw [Nat.shiftRight_eq_div_pow, Nat.div_eq_of_lt hb]
  simp only [R.assert_dec ha, R.bind_ok]
  by_cases h0 : len = 0
  · subst h0
    exact ⟨v, by simp, h, rfl, fun p => by rw [if_neg (by omega)]⟩
  rw [if_neg h0]
  by_cases hp0 : v.size % 64 = 0
  · rw [if_pos hp0]
    have hsz : v.chunks.size = v.size / 64 := by rw [h.chunks_size, wordsFor]; omega
    have hbt : ∀ p, BitVector.bit { chunks := v.chunks.push bits, size := v.size + len } p =
        if v.size ≤ p ∧ p < v.size + len then bits.testBit (p - v.size) else v.bit p := by
      intro p
      simp only [bit, getD_push, hsz]
      by_cases hpq : p / 64 = v.size / 64
      · rw [if_pos hpq]
        have hge : v.size ≤ p := by omega
        have he : p % 64 = p - v.size := by omega
        rw [he]
        by_cases hpl : p < v.size + len
        · rw [if_pos ⟨hge, hpl⟩]
        · rw [if_neg (by omega)]
          have e1 : bits.testBit (p - v.size) = false := by
            apply Nat.testBit_lt_two_pow
            exact Nat.lt_of_lt_of_le hb (Nat.pow_le_pow_right (by decide) (by omega))
          rw [e1]
          have := h.tail p hge
          rw [bit, he] at this
          rw [this]
      · rw [if_neg hpq, if_neg (by omega)]
    refine ⟨_, rfl, ⟨?_, push_lt hbits64 h.chunk_lt, ?_⟩, rfl, hbt⟩
    · simp only [Array.size_push, hsz, wordsFor]; omega
    · intro p hp
      simp only at hp
      rw [hbt, if_neg (by omega), h.tail p (by omega)]
  · rw [if_neg hp0]
    have hsz : v.chunks.size = v.size / 64 + 1 := by rw [h.chunks_size, wordsFor]; omega
    obtain ⟨y, hy, hye⟩ := orBack_ok (a := v.chunks) (x := shl64 bits (v.size % 64)) (by omega)
    simp only [hy, R.bind_ok]
    have hk : v.chunks.size - 1 = v.size / 64 := by omega
    have hkl : v.size / 64 < v.chunks.size := by omega
    rw [hk] at hye ⊢
    have hylt : y < 2 ^ 64 := by rw [hye]; exact Nat.or_lt_two_pow (h.chunk_getD _) (shl64_lt _ _)
    -- bits in the last old word
    have hlast : ∀ p, p / 64 = v.size / 64 → y.testBit (p % 64) =
        if v.size ≤ p ∧ p < v.size + len then bits.testBit (p - v.size) else v.bit p := by
      intro p hpq
      rw [hye, Nat.testBit_or, testBit_shl64]
      have hm : p % 64 < 64 := Nat.mod_lt _ (by decide)
      by_cases hge : v.size ≤ p
      · have e1 : (v.chunks.getD (v.size / 64) 0).testBit (p % 64) = false := by
          have := h.tail p hge; rw [bit, hpq] at this; exact this
        have e2 : p % 64 - v.size % 64 = p - v.size := by omega
        have e3 : v.size % 64 ≤ p % 64 := by omega
        rw [e1, e2]
        by_cases hpl : p < v.size + len
        · simp [hge, hpl, hm, e3]
        · have e4 : bits.testBit (p - v.size) = false := by
            apply Nat.testBit_lt_two_pow
            exact Nat.lt_of_lt_of_le hb (Nat.pow_le_pow_right (by decide) (by omega))
          rw [if_neg (by omega), e4, h.tail p hge]; simp
      · have e3 : ¬ v.size % 64 ≤ p % 64 := by omega
        rw [if_neg (by omega)]
        simp [e3, bit, hpq]
    by_cases hc : 64 - v.size % 64 < len
    · rw [if_pos hc]
      have hbt : ∀ p, BitVector.bit { chunks := (v.chunks.setIfInBounds (v.size / 64) y).push (bits >>> (64 - v.size % 64)), size := v.size + len } p =
          if v.size ≤ p ∧ p < v.size + len then bits.testBit (p - v.size) else v.bit p := by
        intro p
        simp only [bit, getD_push, Array.size_setIfInBounds, hsz]
        by_cases hpq1 : p / 64 = v.size / 64 + 1
        · rw [if_pos hpq1, Nat.testBit_shiftRight]
          have e1 : 64 - v.size % 64 + p % 64 = p - v.size := by omega
          rw [e1]
          by_cases hpl : p < v.size + len
          · rw [if_pos ⟨by omega, hpl⟩]
          · rw [if_neg (by omega)]
            have e4 : bits.testBit (p - v.size) = false := by
              apply Nat.testBit_lt_two_pow
              exact Nat.lt_of_lt_of_le hb (Nat.pow_le_pow_right (by decide) (by omega))
            have := h.tail p (by omega)
            rw [e4]; rw [bit] at this; rw [this]
        · rw [if_neg hpq1, getD_set hkl]
          by_cases hpq : p / 64 = v.size / 64
          · rw [if_pos hpq, hlast p hpq]; rfl
          · rw [if_neg hpq, if_neg (by omega)]
      refine ⟨_, rfl, ⟨?_, push_lt ?_ (set_lt hylt h.chunk_lt), ?_⟩, rfl, hbt⟩
      · simp only [Array.size_push, Array.size_setIfInBounds, hsz, wordsFor]; omega
      · rw [Nat.shiftRight_eq_div_pow]; exact Nat.lt_of_le_of_lt (Nat.div_le_self _ _) hbits64
      · intro p hp
        simp only at hp
        rw [hbt, if_neg (by omega), h.tail p (by omega)]
    · rw [if_neg hc]
      have hbt : ∀ p, BitVector.bit { chunks := v.chunks.setIfInBounds (v.size / 64) y, size := v.size + len } p =
          if v.size ≤ p ∧ p < v.size + len then bits.testBit (p - v.size) else v.bit p := by
        intro p
        simp only [bit, getD_set hkl]
        by_cases hpq : p / 64 = v.size / 64
        · rw [if_pos hpq, hlast p hpq]; rfl
        · rw [if_neg hpq, if_neg (by omega)]
      refine ⟨_, rfl, ⟨?_, set_lt hylt h.chunk_lt, ?_⟩, rfl, hbt⟩
      · simp only [Array.size_setIfInBounds, hsz, wordsFor]; omega
      · intro p hp
        simp only at hp
        rw [hbt, if_neg (by omega), h.tail p (by omega)]

theorem WF.appendBit_ok (h : v.WF) {b : Bool} :
    ∃ v', v.appendBit b = .ok v' ∧ v'.WF ∧ v'.size = v.size + 1 ∧
      ∀ p, v'.bit p = if p = v.size then b else v.bit p := by
  -- `append_bit(b)` computes the same as `append_bits(b, 1)`
  obtain ⟨v', e, w, s, g⟩ := h.appendBits_ok (bits := if b then 1 else 0) (len := 1) (by decide)
    (by split <;> decide)
  refine ⟨v', ?_, w, s, fun p => ?_⟩
  · rw [← e]
    unfold appendBit appendBits
    have ha : ((1 : Nat) = 64 ∨ (if b then 1 else 0) >>> 1 = 0) := by cases b <;> simp
    simp only [show ¬ (64 < 1) by decide, if_false, R.assert_dec ha, R.bind_ok, show ¬ (1 = 0) by decide]
    by_cases hp0 : v.size % 64 = 0
    · rw [if_pos hp0, if_pos hp0, hp0]
      simp [orBack, rd, wr]
      have hpush : ∀ (a : Array Nat) (x y : Nat), (a.push x).setIfInBounds a.size y = a.push y := by
        intro a x y
        apply Array.ext_getElem?
        intro i
        rw [Array.getElem?_setIfInBounds, Array.getElem?_push, Array.getElem?_push, Array.size_push]
        by_cases hi : a.size = i
        · subst hi; simp
        · have : ¬ i = a.size := fun e => hi e.symm
          simp [hi, this]
      rw [hpush]
      cases b <;> simp [shl64]
    · rw [if_neg hp0, if_neg hp0]
      have hm : v.size % 64 < 64 := Nat.mod_lt _ (by decide)
      have hn : ¬ (64 - v.size % 64 < 1) := by omega
      simp only [hn, if_false]
  · rw [g p]
    by_cases hp : p = v.size
    · rw [if_pos (by omega), if_pos hp, hp]; cases b <;> simp
    · rw [if_neg (by omega), if_neg hp]

end BitVector
end Poplar
