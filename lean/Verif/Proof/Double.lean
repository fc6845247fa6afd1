import Verif.Model.Double
/-
  The floating-point computation of the maximal table size agrees with exact floor division.
-/
namespace Poplar

theorem roundDiv_ge (a b : Nat) : a / b ≤ roundDiv a b := by
  unfold roundDiv; split <;> omega

theorem roundDiv_le (a b : Nat) (hb : 0 < b) : 2 * (roundDiv a b * b) ≤ 2 * a + b := by
  have h1 := Nat.div_add_mod a b
  have h2 := Nat.mod_lt a hb
  rw [Nat.mul_comm] at h1
  unfold roundDiv
  split
  · omega
  · rw [Nat.add_mul]; omega

theorem truncDivDouble_eq {n : Nat} (hn : n < 2 ^ 52) : truncDivDouble n 100 = n / 100 := by
  unfold truncDivDouble
  split
  next h => rw [h]
  next h0 =>
    dsimp only
    have hlog : Nat.log2 (n * 2 ^ 128 / 100) ≤ 173 := by
      have h1 : n * 2 ^ 128 / 100 < 2 ^ 174 := by omega
      have h2 : n * 2 ^ 128 / 100 ≠ 0 := by omega
      have := (Nat.log2_lt h2).2 h1
      omega
    obtain ⟨k, hk, hk2⟩ : ∃ k, Nat.log2 (n * 2 ^ 128 / 100) - 52 = k ∧ k ≤ 121 := ⟨_, rfl, by omega⟩
    rw [hk]
    have hu : 0 < 2 ^ k := Nat.two_pow_pos k
    obtain ⟨w, hw⟩ : ∃ w, 2 ^ 128 = w * 2 ^ k := ⟨2 ^ (128 - k), by rw [← Nat.pow_add]; congr 1; omega⟩
    have hle : 2 ^ k ≤ 2 ^ 121 := Nat.pow_le_pow_right (by decide) hk2
    have h1 := roundDiv_ge (n * 2 ^ 128) (100 * 2 ^ k)
    have h2 := roundDiv_le (n * 2 ^ 128) (100 * 2 ^ k) (by omega)
    generalize roundDiv (n * 2 ^ 128) (100 * 2 ^ k) = r at h1 h2 ⊢
    have h3 : r * (100 * 2 ^ k) = 100 * (r * 2 ^ k) := by rw [Nat.mul_left_comm]
    rw [h3] at h2
    have hq : n / 100 * w ≤ r := by
      refine Nat.le_trans ?_ h1
      rw [Nat.le_div_iff_mul_le (by omega), hw]
      have : n / 100 * w * (100 * 2 ^ k) = (n / 100 * 100) * (w * 2 ^ k) := by
        rw [Nat.mul_mul_mul_comm]
      rw [this]
      exact Nat.mul_le_mul_right _ (Nat.div_mul_le_self n 100)
    have h4 : n / 100 * 2 ^ 128 ≤ r * 2 ^ k := by
      rw [hw, ← Nat.mul_assoc]; exact Nat.mul_le_mul_right _ hq
    generalize r * 2 ^ k = V at *
    generalize 2 ^ k = u at *
    omega

/-- For tables of up to `2^45` slots the floating-point computation gives the exact floor. -/
theorem maxSizeDouble_eq {capa mf : Nat} (hc : capa ≤ 2 ^ 45) (hm : mf < 100) : maxSizeDouble capa mf = maxSize capa mf := by
  have h : capa * mf ≤ 2 ^ 45 * 99 := Nat.mul_le_mul hc (by omega)
  unfold maxSizeDouble maxSize
  rw [Nat.mod_eq_of_lt (by omega), truncDivDouble_eq (by omega)]

end Poplar
