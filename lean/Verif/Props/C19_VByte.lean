import Verif.Proof.VByte
/-
  C19: vbyte round trip.
-/
namespace Poplar.Props
open Poplar

/-- **C19.** For every 64-bit value `v`:
`size(v)` is between 1 and 10; `append` extends any vector by exactly `size(v)` bytes and reports
that number; `encode` into any block with room writes the very same bytes at the given offset,
changes nothing else and reports `size(v)`; and `decode` at a place where these bytes are stored
returns `v` and consumes exactly `size(v)` bytes, whatever follows in memory. -/
theorem C19_vbyte (v : Nat) (hv : v < 2 ^ 64) :
    ∃ bs : List UInt8, bs.length = VByte.size v ∧ 1 ≤ VByte.size v ∧ VByte.size v ≤ 10 ∧
      (∀ vec, VByte.append vec v = (vec ++ bs, VByte.size v)) ∧
      (∀ pre old post : List UInt8, old.length = bs.length →
        VByte.encode (pre ++ old ++ post) pre.length v = .ok (pre ++ bs ++ post, VByte.size v)) ∧
      (∀ rest, VByte.decode (bs ++ rest) = .ok (VByte.size v, v)) := by
  refine ⟨VByte.bytesGo VByte.fuel v, (VByte.size_eq v).symm, ?_, ?_, ?_, ?_, ?_⟩
  · rw [VByte.size_eq]; exact VByte.bytesGo_pos _ _
  · rw [VByte.size_eq]; exact VByte.bytesGo_le _ _
  · intro vec; simp [VByte.append, VByte.size_eq]
  · intro pre old post ho
    simp only [VByte.encode]
    rw [if_pos (by simp; omega)]
    simp [VByte.size_eq, List.drop_append, ho]
  · intro rest; rw [VByte.decode_bytes v hv, VByte.size_eq]

/-- the encoding is minimal: `size(v)` is the number of base-128 digits of `v` -/
theorem C19_vbyte_size_minimal (v : Nat) (hv : v < 2 ^ 64) :
    v < 128 ^ VByte.size v ∧ (VByte.size v = 1 ∨ 128 ^ (VByte.size v - 1) ≤ v) := by
  have key : ∀ k n val, val < 128 ^ (k + 1) →
      val < 128 ^ (VByte.sizeGo k n val + 1 - n) ∧ n ≤ VByte.sizeGo k n val ∧
        (VByte.sizeGo k n val = n ∨ 128 ^ (VByte.sizeGo k n val - n) ≤ val) := by
    intro k
    induction k with
    | zero => intro n val h; simpa [VByte.sizeGo] using h
    | succ k ih =>
      intro n val h
      rw [VByte.sizeGo]
      split
      · rename_i hc
        have hs : val >>> 7 = val / 128 := by rw [Nat.shiftRight_eq_div_pow]
        have hd : val / 128 < 128 ^ (k + 1) := by
          rw [Nat.div_lt_iff_lt_mul (by decide)]; rw [Nat.pow_succ] at h; exact h
        rw [hs]
        obtain ⟨h1, h2, h3⟩ := ih (n + 1) (val / 128) hd
        refine ⟨?_, by omega, Or.inr ?_⟩
        · rw [Nat.div_lt_iff_lt_mul (by decide), ← Nat.pow_succ] at h1
          have : VByte.sizeGo k (n + 1) (val / 128) + 1 - (n + 1) + 1 =
            VByte.sizeGo k (n + 1) (val / 128) + 1 - n := by omega
          rw [Nat.succ_eq_add_one, this] at h1; exact h1
        · rcases h3 with h3 | h3
          · rw [h3, Nat.add_sub_cancel_left]; omega
          · rw [Nat.le_div_iff_mul_le (by decide), ← Nat.pow_succ] at h3
            have : VByte.sizeGo k (n + 1) (val / 128) - (n + 1) + 1 =
              VByte.sizeGo k (n + 1) (val / 128) - n := by omega
            rw [Nat.succ_eq_add_one, this] at h3; exact h3
      · rw [Nat.add_sub_cancel_left]; exact ⟨by omega, Nat.le_refl _, Or.inl rfl⟩
  have h := key VByte.fuel 1 v (Nat.lt_of_lt_of_le hv (by decide))
  exact ⟨h.1, h.2.2⟩

/-- non-vacuity: a three-byte encoding read back from the middle of a block -/
example : (VByte.encode [9, 9, 9, 9, 9] 1 1000000).bind (fun p => VByte.decode (p.1.drop 1)) =
    .ok (3, 1000000) := by decide +kernel

end Poplar.Props
