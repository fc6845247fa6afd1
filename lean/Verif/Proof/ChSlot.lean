import Verif.Model.CompactHashTable
import Verif.Proof.BijectiveHash
import Verif.Proof.CompactVector
import Verif.Proof.TrieBase
/-
  The fields of a slot of compact_hash_table, and the accessors.
-/
namespace Poplar.Cht
open Poplar

/-- the fields of a slot: virgin bit, change bit, value, quotient -/
structure Slot where
  v : Bool
  c : Bool
  x : Nat
  q : Nat

def dec (vb w : Nat) : Slot := { v := w.testBit 1, c := w.testBit 0, x := (w >>> 2) % 2 ^ vb, q := w >>> (2 + vb) }

theorem and_not64 {w m i : Nat} (hw : w < 2 ^ 64) : (w &&& not64 m).testBit i = (w.testBit i && !m.testBit i) := by
  rw [Nat.testBit_and]
  by_cases hi : i < 64
  · rw [testBit_not64 _ _ hi]
  · have : w.testBit i = false := Nat.testBit_lt_two_pow (Nat.lt_of_lt_of_le hw (Nat.pow_le_pow_right (by decide) (by omega)))
    simp [this]

theorem testBit_two (i : Nat) : (2 : Nat).testBit i = decide (i = 1) := by
  have := Nat.testBit_two_pow (n := 1) (m := i)
  simp only [Nat.pow_one] at this
  rw [this]; congr 1; exact propext eq_comm

theorem testBit_one (i : Nat) : (1 : Nat).testBit i = decide (i = 0) := by
  have := Nat.testBit_two_pow (n := 0) (m := i)
  simp only [Nat.pow_zero] at this
  rw [this]; congr 1; exact propext eq_comm

theorem testBit_b (b : Bool) (i : Nat) : b.toNat.testBit i = (b && decide (i = 0)) := by
  cases b <;> simp [testBit_one]

theorem testBit_b1 (b : Bool) (i : Nat) : (b.toNat <<< 1).testBit i = (b && decide (i = 1)) := by
  rw [Nat.testBit_shiftLeft, testBit_b]
  by_cases h : i = 1
  · subst h; simp
  · by_cases h0 : i = 0
    · subst h0; simp
    · have : i - 1 ≠ 0 := by omega
      simp [h, this]

theorem lt_of_bits {w n : Nat} (h : ∀ i, n ≤ i → w.testBit i = false) : w < 2 ^ n :=
  Nat.lt_pow_two_of_testBit w (fun i hi => h i hi)

theorem bits_of_lt {w n : Nat} (h : w < 2 ^ n) (i : Nat) (hi : n ≤ i) : w.testBit i = false :=
  Nat.testBit_lt_two_pow (Nat.lt_of_lt_of_le h (Nat.pow_le_pow_right (by decide) hi))

theorem Slot.ext {a b : Slot} (h1 : a.v = b.v) (h2 : a.c = b.c) (h3 : a.x = b.x) (h4 : a.q = b.q) : a = b := by
  cases a; cases b; simp_all

theorem x_testBit (vb w i : Nat) : ((w >>> 2) % 2 ^ vb).testBit i = (decide (i < vb) && w.testBit (2 + i)) := by
  rw [Nat.testBit_mod_two_pow, Nat.testBit_shiftRight]

theorem dec_setV {vb w : Nat} (hw : w < 2 ^ 64) (b : Bool) :
    dec vb ((w &&& not64 2) ||| (b.toNat <<< 1)) = { dec vb w with v := b } := by
  refine Slot.ext ?_ ?_ ?_ ?_
  · simp only [dec, Nat.testBit_or, and_not64 hw, testBit_two, testBit_b1]; simp
  · simp only [dec, Nat.testBit_or, and_not64 hw, testBit_two, testBit_b1]; simp
  · apply Nat.eq_of_testBit_eq
    intro i
    have : 2 + i ≠ 1 := by omega
    simp only [dec, x_testBit, Nat.testBit_or, and_not64 hw, testBit_two, testBit_b1]; simp [this]
  · apply Nat.eq_of_testBit_eq
    intro i
    have : 2 + vb + i ≠ 1 := by omega
    simp only [dec, Nat.testBit_shiftRight, Nat.testBit_or, and_not64 hw, testBit_two, testBit_b1]; simp [this]

theorem setV_lt {w n : Nat} (hw : w < 2 ^ 64) (hn : 2 ≤ n) (h : w < 2 ^ n) (b : Bool) :
    ((w &&& not64 2) ||| (b.toNat <<< 1)) < 2 ^ n := by
  apply lt_of_bits
  intro i hi
  have : i ≠ 1 := by omega
  rw [Nat.testBit_or, and_not64 hw, testBit_b1, bits_of_lt h i hi]; simp [this]

theorem dec_setC {vb w : Nat} (hw : w < 2 ^ 64) (b : Bool) :
    dec vb ((w &&& not64 1) ||| b.toNat) = { dec vb w with c := b } := by
  refine Slot.ext ?_ ?_ ?_ ?_
  · simp only [dec, Nat.testBit_or, and_not64 hw, testBit_one, testBit_b]; simp
  · simp only [dec, Nat.testBit_or, and_not64 hw, testBit_one, testBit_b]; simp
  · apply Nat.eq_of_testBit_eq
    intro i
    have : 2 + i ≠ 0 := by omega
    simp only [dec, x_testBit, Nat.testBit_or, and_not64 hw, testBit_one, testBit_b]; simp
  · apply Nat.eq_of_testBit_eq
    intro i
    have : 2 + vb + i ≠ 0 := by omega
    simp only [dec, Nat.testBit_shiftRight, Nat.testBit_or, and_not64 hw, testBit_one, testBit_b]; simp

theorem setC_lt {w n : Nat} (hw : w < 2 ^ 64) (hn : 2 ≤ n) (h : w < 2 ^ n) (b : Bool) :
    ((w &&& not64 1) ||| b.toNat) < 2 ^ n := by
  apply lt_of_bits
  intro i hi
  have : i ≠ 0 := by omega
  rw [Nat.testBit_or, and_not64 hw, testBit_b, bits_of_lt h i hi]; simp [this]

theorem dec_setX {vb w x : Nat} (hw : w < 2 ^ 64) (hvb : vb + 2 ≤ 64) (hx : x < 2 ^ vb) :
    dec vb ((w &&& not64 (shl64 (2 ^ vb - 1) 2)) ||| shl64 x 2) = { dec vb w with x := x } := by
  refine Slot.ext ?_ ?_ ?_ ?_
  · simp only [dec, Nat.testBit_or, and_not64 hw, testBit_shl64]; simp
  · simp only [dec, Nat.testBit_or, and_not64 hw, testBit_shl64]; simp
  · apply Nat.eq_of_testBit_eq
    intro i
    simp only [dec, x_testBit, Nat.testBit_or, and_not64 hw, testBit_shl64, Nat.testBit_two_pow_sub_one]
    by_cases hi : i < vb
    · have : 2 + i < 64 := by omega
      simp [hi, this]
    · simp [hi, bits_of_lt hx i (by omega)]
  · apply Nat.eq_of_testBit_eq
    intro i
    have h1 : ¬ (2 + vb + i - 2 < vb) := by omega
    have h2 : x.testBit (2 + vb + i - 2) = false := bits_of_lt hx _ (by omega)
    simp only [dec, Nat.testBit_shiftRight, Nat.testBit_or, and_not64 hw, testBit_shl64, Nat.testBit_two_pow_sub_one, h2]
    simp [h1]

theorem setX_lt {w n vb x : Nat} (hw : w < 2 ^ 64) (hn : vb + 2 ≤ n) (h : w < 2 ^ n) (hx : x < 2 ^ vb) :
    ((w &&& not64 (shl64 (2 ^ vb - 1) 2)) ||| shl64 x 2) < 2 ^ n := by
  apply lt_of_bits
  intro i hi
  rw [Nat.testBit_or, and_not64 hw, testBit_shl64, testBit_shl64, bits_of_lt h i hi, bits_of_lt hx (i - 2) (by omega)]; simp

theorem dec_setQ {vb qb w q : Nat} (hfit : qb + vb + 2 < 64) (h : w < 2 ^ (qb + vb + 2)) (hq : q < 2 ^ qb) :
    dec vb ((w &&& not64 (shl64 (2 ^ qb - 1) (2 + vb))) ||| shl64 q (2 + vb)) = { dec vb w with q := q } := by
  have hw : w < 2 ^ 64 := Nat.lt_trans h (Nat.pow_lt_pow_right (by decide) hfit)
  have h0 : ¬ (2 + vb ≤ 0) := by omega
  have h1 : ¬ (2 + vb ≤ 1) := by omega
  refine Slot.ext ?_ ?_ ?_ ?_
  · simp only [dec, Nat.testBit_or, and_not64 hw, testBit_shl64]; simp [h1]
  · simp only [dec, Nat.testBit_or, and_not64 hw, testBit_shl64]; simp [h0]
  · apply Nat.eq_of_testBit_eq
    intro i
    simp only [dec, x_testBit, Nat.testBit_or, and_not64 hw, testBit_shl64, Nat.testBit_two_pow_sub_one]
    by_cases hi : i < vb
    · have : ¬ (2 + vb ≤ 2 + i) := by omega
      simp [this]
    · simp [hi]
  · apply Nat.eq_of_testBit_eq
    intro i
    have h3 : 2 + vb + i - (2 + vb) = i := by omega
    simp only [dec, Nat.testBit_shiftRight, Nat.testBit_or, and_not64 hw, testBit_shl64, Nat.testBit_two_pow_sub_one, h3]
    by_cases hi : i < qb
    · have : 2 + vb + i < 64 := by omega
      simp [hi, this]
    · have h4 : w.testBit (2 + vb + i) = false := bits_of_lt h _ (by omega)
      have h5 : q.testBit i = false := bits_of_lt hq _ (by omega)
      simp [h4, h5]

theorem setQ_lt {vb qb w q : Nat} (hfit : qb + vb + 2 < 64) (h : w < 2 ^ (qb + vb + 2)) (hq : q < 2 ^ qb) :
    ((w &&& not64 (shl64 (2 ^ qb - 1) (2 + vb))) ||| shl64 q (2 + vb)) < 2 ^ (qb + vb + 2) := by
  have hw : w < 2 ^ 64 := Nat.lt_trans h (Nat.pow_lt_pow_right (by decide) hfit)
  apply lt_of_bits
  intro i hi
  rw [Nat.testBit_or, and_not64 hw, testBit_shl64, testBit_shl64, bits_of_lt h i hi, bits_of_lt hq (i - (2 + vb)) (by omega)]; simp

theorem dec_new {vb qb q x : Nat} (hfit : qb + vb + 2 < 64) (hq : q < 2 ^ qb) (hx : x < 2 ^ vb) (v c : Bool) :
    dec vb (shl64 q (2 + vb) ||| shl64 x 2 ||| (v.toNat <<< 1) ||| c.toNat) = { v := v, c := c, x := x, q := q } := by
  have h0 : ¬ (2 + vb ≤ 0) := by omega
  have h1 : ¬ (2 + vb ≤ 1) := by omega
  refine Slot.ext ?_ ?_ ?_ ?_
  · simp only [dec, Nat.testBit_or, testBit_shl64, testBit_b, testBit_b1]; simp [h1]
  · simp only [dec, Nat.testBit_or, testBit_shl64, testBit_b, testBit_b1]; simp [h0]
  · apply Nat.eq_of_testBit_eq
    intro i
    have e0 : 2 + i ≠ 0 := by omega
    have e1 : 2 + i ≠ 1 := by omega
    simp only [dec, x_testBit, Nat.testBit_or, testBit_shl64, testBit_b, testBit_b1]
    by_cases hi : i < vb
    · have : ¬ (2 + vb ≤ 2 + i) := by omega
      have h3 : 2 + i < 64 := by omega
      simp [hi, h3, e1]; omega
    · simp [hi, bits_of_lt hx i (by omega)]
  · apply Nat.eq_of_testBit_eq
    intro i
    have h3 : 2 + vb + i - (2 + vb) = i := by omega
    have e0 : 2 + vb + i ≠ 0 := by omega
    have e1 : 2 + vb + i ≠ 1 := by omega
    have h2 : x.testBit (2 + vb + i - 2) = false := bits_of_lt hx _ (by omega)
    simp only [dec, Nat.testBit_shiftRight, Nat.testBit_or, testBit_shl64, testBit_b, testBit_b1, h2, h3]
    by_cases hi : i < qb
    · have : 2 + vb + i < 64 := by omega
      simp [this, e1]
    · have h5 : q.testBit i = false := bits_of_lt hq _ (by omega)
      simp [h5, e1]

theorem new_lt {vb qb q x : Nat} (hq : q < 2 ^ qb) (hx : x < 2 ^ vb) (v c : Bool) :
    (shl64 q (2 + vb) ||| shl64 x 2 ||| (v.toNat <<< 1) ||| c.toNat) < 2 ^ (qb + vb + 2) := by
  apply lt_of_bits
  intro i hi
  have e0 : i ≠ 0 := by omega
  have e1 : i ≠ 1 := by omega
  simp only [Nat.testBit_or, testBit_shl64, testBit_b, testBit_b1, bits_of_lt hq (i - (2 + vb)) (by omega), bits_of_lt hx (i - 2) (by omega)]
  simp [e0, e1]

theorem dec_init {vb : Nat} (hfit : vb + 2 < 64) :
    dec vb (shl64 (2 ^ vb - 1) 2 ||| 1) = { v := false, c := true, x := 2 ^ vb - 1, q := 0 } := by
  have hp := Nat.two_pow_pos vb
  have := dec_new (vb := vb) (qb := 0) (q := 0) (x := 2 ^ vb - 1) (by omega) (by simp) (by omega) false true
  have e : shl64 0 (2 + vb) = 0 := by simp [shl64]
  simpa [e] using this

theorem init_lt {vb qb : Nat} : (shl64 (2 ^ vb - 1) 2 ||| 1) < 2 ^ (qb + vb + 2) := by
  have hp := Nat.two_pow_pos vb
  have := new_lt (vb := vb) (qb := qb) (q := 0) (x := 2 ^ vb - 1) (Nat.two_pow_pos _) (by omega) false true
  have e : shl64 0 (2 + vb) = 0 := by simp [shl64]
  simpa [e] using this

end Poplar.Cht
