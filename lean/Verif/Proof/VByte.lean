import Verif.Model.VByte
import Verif.Proof.Basic
namespace Poplar.VByte
open Poplar

theorem sizeGo_eq : ∀ k n val, sizeGo k n val + 1 = n + (bytesGo k val).length := by
  intro k
  induction k with
  | zero => intro n val; simp [sizeGo, bytesGo]
  | succ k ih =>
    intro n val
    simp only [sizeGo, bytesGo]
    split
    · rw [ih]; simp; omega
    · simp

theorem size_eq (val : Nat) : size val = (bytesGo fuel val).length := by
  have := sizeGo_eq fuel 1 val
  unfold size; omega

theorem bytesGo_pos : ∀ k val, 0 < (bytesGo k val).length := by
  intro k val
  cases k <;> simp [bytesGo]; split <;> simp

theorem bytesGo_le : ∀ k val, (bytesGo k val).length ≤ k + 1 := by
  intro k
  induction k with
  | zero => intro val; simp [bytesGo]
  | succ k ih =>
    intro val; simp only [bytesGo]; split
    · simp [ih]
    · simp

theorem and127 (v : Nat) : v &&& 127 = v % 128 := and_mask v 7

theorem toNat_hi (v : Nat) : (UInt8.ofNat ((v &&& 127) ||| 0x80)).toNat = (v &&& 127) ||| 0x80 := by
  rw [UInt8.toNat_ofNat']
  apply Nat.mod_eq_of_lt
  apply Nat.or_lt_two_pow (n := 8)
  · rw [and127]; omega
  · decide

theorem toNat_lo (v : Nat) : (UInt8.ofNat (v &&& 127)).toNat = v &&& 127 := by
  rw [UInt8.toNat_ofNat']
  apply Nat.mod_eq_of_lt
  rw [and127]; omega

theorem tb127 (i : Nat) : Nat.testBit 127 i = decide (i < 7) := Nat.testBit_two_pow_sub_one 7 i
theorem tb128 (i : Nat) : Nat.testBit 128 i = decide (7 = i) := by
  have := Nat.testBit_two_pow (n := 7) (m := i); simpa using this

theorem hi_flag (v : Nat) : ((v &&& 127) ||| 0x80) &&& 0x80 ≠ 0 := by
  intro h
  have : (((v &&& 127) ||| 0x80) &&& 0x80).testBit 7 = false := by rw [h]; rfl
  simp [Nat.testBit_and, Nat.testBit_or, tb128] at this

theorem hi_val (v : Nat) : ((v &&& 127) ||| 0x80) &&& 127 = v &&& 127 := by
  apply Nat.eq_of_testBit_eq
  intro i
  simp only [Nat.testBit_and, Nat.testBit_or, tb127, tb128]
  by_cases h : i < 7
  · have : ¬ 7 = i := by omega
    simp [h, this]
  · simp [h]

theorem lo_flag (v : Nat) : (v &&& 127) &&& 0x80 = 0 := by
  apply Nat.eq_of_testBit_eq
  intro i
  simp only [Nat.testBit_and, tb127, tb128, Nat.zero_testBit]
  by_cases h : i < 7
  · have : ¬ 7 = i := by omega
    simp [this]
  · simp [h]

theorem lo_val (v : Nat) : (v &&& 127) &&& 127 = v &&& 127 := by
  apply Nat.eq_of_testBit_eq
  intro i
  simp [Nat.testBit_and]

theorem decodeGo_bytesGo : ∀ (k v : Nat) (rest : List UInt8) (i s acc : Nat),
    v < 2 ^ (7 * (k + 1)) → v * 2 ^ s < 2 ^ 64 → s < 64 → s + 7 * k ≤ 63 →
    decodeGo (bytesGo k v ++ rest) i s acc = .ok (i + (bytesGo k v).length, acc ||| (v <<< s)) := by
  intro k
  induction k with
  | zero =>
    intro v rest i s acc hv hs hs64 _
    have hv' : v &&& 127 = v := by rw [and127]; exact Nat.mod_eq_of_lt (by simpa using hv)
    simp only [bytesGo, List.singleton_append, decodeGo]
    rw [if_neg (by omega), toNat_lo, if_neg (by simp [lo_flag]), lo_val, hv', shl64_eq hs,
      Nat.shiftLeft_eq]
    rfl
  | succ k ih =>
    intro v rest i s acc hv hs hs64 hk
    simp only [bytesGo]
    split
    · rename_i hgt
      simp only [List.cons_append, decodeGo, List.length_cons]
      rw [if_neg (by omega), toNat_hi, if_pos (hi_flag v), hi_val]
      have hsh : v >>> 7 * 2 ^ (s + 7) ≤ v * 2 ^ s := by
        rw [Nat.shiftRight_eq_div_pow, Nat.pow_add, Nat.mul_comm (2 ^ s), ← Nat.mul_assoc]
        exact Nat.mul_le_mul_right _ (Nat.div_mul_le_self _ _)
      rw [ih (v >>> 7) rest (i + 1) (s + 7) _ ?_ (Nat.lt_of_le_of_lt hsh hs) (by omega) (by omega)]
      · congr 1
        refine Prod.ext (by simp; omega) ?_
        apply Nat.eq_of_testBit_eq
        intro b
        simp only [Nat.testBit_or, testBit_shl64, Nat.testBit_shiftLeft, Nat.testBit_shiftRight,
          Nat.testBit_and, tb127]
        by_cases h1 : s ≤ b
        · by_cases h2 : s + 7 ≤ b
          · have e1 : ¬ (b - s < 7) := by omega
            have e2 : 7 + (b - (s + 7)) = b - s := by omega
            simp [h1, h2, e1, e2]
          · have e1 : b - s < 7 := by omega
            have e3 : b < 64 := by omega
            simp [h1, h2, e1, e3]
        · have h2 : ¬ s + 7 ≤ b := by omega
          simp [h1, h2]
      · rw [Nat.shiftRight_eq_div_pow]
        apply Nat.div_lt_of_lt_mul
        rw [← Nat.pow_add]
        refine Nat.lt_of_lt_of_le hv (Nat.pow_le_pow_right (by decide) (by omega))
    · rename_i hle
      have hv' : v &&& 127 = v := by rw [and127]; exact Nat.mod_eq_of_lt (by omega)
      simp only [List.singleton_append, decodeGo]
      rw [if_neg (by omega), toNat_lo, if_neg (by simp [lo_flag]), lo_val, hv', shl64_eq hs,
        Nat.shiftLeft_eq]
      rfl

theorem decode_bytes (v : Nat) (hv : v < 2 ^ 64) (rest : List UInt8) :
    decode (bytesGo fuel v ++ rest) = .ok ((bytesGo fuel v).length, v) := by
  have := decodeGo_bytesGo fuel v rest 0 0 0
    (Nat.lt_of_lt_of_le hv (Nat.pow_le_pow_right (by decide) (by decide))) (by simpa using hv)
    (by decide) (by decide)
  simpa [decode] using this

end Poplar.VByte
