import Verif.Model.BitToolsSse
import Verif.Proof.Select
/-
  The `__SSE4_2__` branches of `bit_tools.hpp` compute the same as the portable ones.
-/
namespace Poplar.BitTools
open Poplar

theorem builtinPopcount_eq (w x : Nat) : builtinPopcount w x = ones w x := by
  unfold builtinPopcount
  induction w with
  | zero => rfl
  | succ w ih =>
    simp only [ones] at ih ⊢
    rw [List.range_succ, List.countP_append, ih, cnt_succ]
    congr 1
    cases h : x.testBit w <;> simp [h]

theorem popcntSse_eq {w x : Nat} (hw : w = 8 ∨ w = 16 ∨ w = 32 ∨ w = 64) (hx : x < 2 ^ w) : popcntSse w x = popcnt w x := by
  rw [popcnt_ok hw hx]
  unfold popcntSse
  rcases hw with rfl | rfl | rfl | rfl
  · rw [if_pos rfl, popcnt8_ok hx]
  · rw [if_neg (by decide), if_pos rfl, popcnt16_ok hx]
  · rw [if_neg (by decide), if_neg (by decide), if_pos rfl, builtinPopcount_eq]
  · rw [if_neg (by decide), if_neg (by decide), if_neg (by decide), builtinPopcount_eq]

theorem find_range {p : Nat → Bool} {n m : Nat} (hn : n < m) (hp : p n = true) (h : ∀ j < n, p j = false) :
    (List.range m).find? p = some n := by
  rw [List.find?_eq_some_iff_getElem]
  refine ⟨hp, n, by simpa using hn, by simp, fun j hj => ?_⟩
  simp [h j hj]

theorem ctzll_ok {x n : Nat} (hn : n < 64) (hp : x.testBit n = true) (h : ∀ j < n, x.testBit j = false) :
    builtinCtzll x = .ok n := by
  unfold builtinCtzll
  rw [find_range hn hp h]

theorem msbSse_ok {x : Nat} (hx : x < 2 ^ 64) : msbSse x = .ok (Nat.log2 x) := by
  unfold msbSse
  split
  · next h => subst h; rfl
  · next h =>
    have hl : Nat.log2 x < 64 := (Nat.log2_lt h).2 hx
    have h1 : x.testBit (Nat.log2 x) = true := by
      rw [Nat.testBit_eq_decide_div_mod_eq]
      have h1 := Nat.log2_self_le h
      have h2 := Nat.lt_log2_self (n := x)
      have : x / 2 ^ x.log2 = 1 := by
        apply Nat.div_eq_of_lt_le
        · omega
        · rw [show (1 + 1) * 2 ^ x.log2 = 2 ^ (x.log2 + 1) by rw [pow_succ]; omega]; exact h2
      rw [this]; rfl
    have hf : (List.range 64).find? (fun n => x.testBit (63 - n)) = some (63 - Nat.log2 x) := by
      apply find_range (by omega)
      · rw [show 63 - (63 - x.log2) = x.log2 by omega]; exact h1
      · intro j hj
        apply Nat.testBit_lt_two_pow
        exact Nat.lt_of_lt_of_le Nat.lt_log2_self (Nat.pow_le_pow_right (by decide) (by omega))
    unfold builtinClzll
    rw [hf]
    simp only [R.bind_ok, R.pure_eq]
    congr 1
    omega

theorem sums_ones {x : Nat} (hx : x < 2 ^ 64) : bytePrefixSums x =
    val [ones 8 x, ones 16 x, ones 24 x, ones 32 x, ones 40 x, ones 48 x, ones 56 x, ones 64 x] := by
  have hv : val [byteAt x 0, byteAt x 1, byteAt x 2, byteAt x 3, byteAt x 4, byteAt x 5, byteAt x 6, byteAt x 7] = x := by
    simp only [val, byteAt]; omega
  have hs := sums_ok (b0 := byteAt x 0) (b1 := byteAt x 1) (b2 := byteAt x 2) (b3 := byteAt x 3) (b4 := byteAt x 4)
    (b5 := byteAt x 5) (b6 := byteAt x 6) (b7 := byteAt x 7) (by
      intro b hb; simp only [List.mem_cons, List.not_mem_nil, or_false] at hb
      rcases hb with rfl | rfl | rfl | rfl | rfl | rfl | rfl | rfl <;> exact Nat.mod_lt _ (by decide))
  rw [hv] at hs
  have P1 := ones_byte x 0 (Nat.le_refl 8)
  have P2 := ones_byte x 1 (Nat.le_refl 8)
  have P3 := ones_byte x 2 (Nat.le_refl 8)
  have P4 := ones_byte x 3 (Nat.le_refl 8)
  have P5 := ones_byte x 4 (Nat.le_refl 8)
  have P6 := ones_byte x 5 (Nat.le_refl 8)
  have P7 := ones_byte x 6 (Nat.le_refl 8)
  have P8 := ones_byte x 7 (Nat.le_refl 8)
  simp only [Nat.mul_zero, ones_zero, Nat.zero_add, Nat.reduceMul, Nat.reduceAdd] at P1 P2 P3 P4 P5 P6 P7 P8
  rwa [← P1, ← P2, ← P3, ← P4, ← P5, ← P6, ← P7, ← P8] at hs

theorem highMask : ∀ m < 64, Nat.testBit 0x8080808080808080 m = decide (m % 8 = 7) := by decide +kernel

/-- **`select`** with `__SSE4_2__` -/
theorem selectSse_ok {x i : Nat} (hx : x < 2 ^ 64) (h0 : 0 < i) (hi : i ≤ ones 64 x) :
    ∃ q, selectSse x i = .ok q ∧ IsSelect x i q := by
  have hi64 : i ≤ 64 := Nat.le_trans hi (ones_le _ _)
  have hs := sums_ones hx
  have q1 := ones_le 8 x
  have q2 := ones_le 16 x
  have q3 := ones_le 24 x
  have q4 := ones_le 32 x
  have q5 := ones_le 40 x
  have q6 := ones_le 48 x
  have q7 := ones_le 56 x
  have q8 := ones_le 64 x
  have hb : (bytePrefixSums x + val (List.replicate 8 (128 - i))) % 2 ^ 64 =
      val [ones 8 x + (128 - i), ones 16 x + (128 - i), ones 24 x + (128 - i), ones 32 x + (128 - i),
        ones 40 x + (128 - i), ones 48 x + (128 - i), ones 56 x + (128 - i), ones 64 x + (128 - i)] := by
    rw [hs]
    simp only [List.replicate, val]
    omega
  have hsh : shl64 (bytePrefixSums x) 8 = val [0, ones 8 x, ones 16 x, ones 24 x, ones 32 x, ones 40 x, ones 48 x, ones 56 x] := by
    rw [hs, shl64, Nat.shiftLeft_eq]
    simp only [val]
    omega
  have hq256 : ∀ q ∈ [ones 8 x + (128 - i), ones 16 x + (128 - i), ones 24 x + (128 - i), ones 32 x + (128 - i),
        ones 40 x + (128 - i), ones 48 x + (128 - i), ones 56 x + (128 - i), ones 64 x + (128 - i)], q < 256 := by
    intro b hb; simp only [List.mem_cons, List.not_mem_nil, or_false] at hb
    rcases hb with rfl | rfl | rfl | rfl | rfl | rfl | rfl | rfl <;> omega
  have hp256 : ∀ q ∈ [0, ones 8 x, ones 16 x, ones 24 x, ones 32 x, ones 40 x, ones 48 x, ones 56 x], q < 256 := by
    intro b hb; simp only [List.mem_cons, List.not_mem_nil, or_false] at hb
    rcases hb with rfl | rfl | rfl | rfl | rfl | rfl | rfl | rfl <;> omega
  have hg : ∀ k < 8, [ones 8 x + (128 - i), ones 16 x + (128 - i), ones 24 x + (128 - i), ones 32 x + (128 - i),
        ones 40 x + (128 - i), ones 48 x + (128 - i), ones 56 x + (128 - i), ones 64 x + (128 - i)][k]? = some (ones (8 * (k + 1)) x + (128 - i)) := by
    intro k hk
    have : k = 0 ∨ k = 1 ∨ k = 2 ∨ k = 3 ∨ k = 4 ∨ k = 5 ∨ k = 6 ∨ k = 7 := by omega
    rcases this with rfl | rfl | rfl | rfl | rfl | rfl | rfl | rfl <;> rfl
  have hg2 : ∀ k < 8, [0, ones 8 x, ones 16 x, ones 24 x, ones 32 x, ones 40 x, ones 48 x, ones 56 x][k]? = some (ones (8 * k) x) := by
    intro k hk
    have : k = 0 ∨ k = 1 ∨ k = 2 ∨ k = 3 ∨ k = 4 ∨ k = 5 ∨ k = 6 ∨ k = 7 := by omega
    rcases this with rfl | rfl | rfl | rfl | rfl | rfl | rfl | rfl <;> rfl
  generalize hQ : [ones 8 x + (128 - i), ones 16 x + (128 - i), ones 24 x + (128 - i), ones 32 x + (128 - i),
        ones 40 x + (128 - i), ones 48 x + (128 - i), ones 56 x + (128 - i), ones 64 x + (128 - i)] = Q at *
  generalize hP : [0, ones 8 x, ones 16 x, ones 24 x, ones 32 x, ones 40 x, ones 48 x, ones 56 x] = P at *
  have hbit : ∀ k < 8, (val Q).testBit (8 * k + 7) = decide (i ≤ ones (8 * (k + 1)) x) := by
    intro k hk
    rw [Nat.testBit_eq_decide_div_mod_eq]
    apply decide_eq_decide.2
    rw [val_bit hq256 (hg k hk) (by rw [show (256 : Nat) = 2 ^ 8 from rfl, ← pow_mul, show (128 : Nat) = 2 ^ 7 from rfl, ← pow_add])]
    omega
  -- the first byte whose prefix sum reaches `i`
  have hex : ∃ k, k < 8 ∧ i ≤ ones (8 * (k + 1)) x := ⟨7, by decide, hi⟩
  obtain ⟨k, ⟨hk, hik⟩, hmin⟩ : ∃ k, (k < 8 ∧ i ≤ ones (8 * (k + 1)) x) ∧ ∀ j < k, ones (8 * (j + 1)) x < i := by
    classical
    refine ⟨Nat.find hex, Nat.find_spec hex, fun j hj => ?_⟩
    have := Nat.find_min hex hj
    have hlt := (Nat.find_spec hex).1
    by_contra hc
    exact this ⟨by omega, by omega⟩
  have hlow : ones (8 * k) x < i := by
    cases k with
    | zero => simpa [ones_zero] using h0
    | succ j => exact hmin j (by omega)
  have hctz : builtinCtzll (val Q &&& 0x8080808080808080) = .ok (8 * k + 7) := by
    apply ctzll_ok (by omega)
    · rw [Nat.testBit_and, hbit k hk, highMask _ (by omega)]
      have : (8 * k + 7) % 8 = 7 := by omega
      simp [hik, this]
    · intro j hj
      rw [Nat.testBit_and, highMask _ (by omega)]
      by_cases h7 : j % 8 = 7
      · have := hmin (j / 8) (by omega)
        have e : j = 8 * (j / 8) + 7 := by omega
        rw [e, hbit _ (by omega)]
        simp; omega
      · simp [h7]
  obtain ⟨q, e, hq⟩ := lookup_ok hk hlow hik
  refine ⟨8 * k + q, ?_, hq⟩
  unfold selectSse
  rw [R.assert_dec (by omega), R.bind_ok, psOverflow_ok i (by omega), R.bind_ok]
  dsimp only
  rw [hb, hctz, R.bind_ok]
  have e1 : (8 * k + 7) >>> 3 = k := by rw [Nat.shiftRight_eq_div_pow]; omega
  have e2 : k <<< 3 = 8 * k := by rw [Nat.shiftLeft_eq]; omega
  rw [e1, e2, hsh]
  have e3 : (val P >>> (8 * k)) &&& 0xFF = ones (8 * k) x := by
    rw [and_ff, Nat.shiftRight_eq_div_pow]
    exact val_byte hp256 (hg2 k hk) (by rw [show (256 : Nat) = 2 ^ 8 from rfl, ← pow_mul])
  have e4 : (x >>> (8 * k)) &&& 0xFF = byteAt x k := by rw [and_ff, Nat.shiftRight_eq_div_pow]; rfl
  have hB : byteAt x k < 256 := Nat.mod_lt _ (by decide)
  rw [e3, e4]
  have e5 : shl64 (sub64 (sub64 i (ones (8 * k) x)) 1) 8 + byteAt x k = (i - 1 - ones (8 * k) x) * 256 + byteAt x k := by
    rw [shl64, Nat.shiftLeft_eq]
    unfold sub64
    omega
  rw [e5, e, R.bind_ok]
  rfl

end Poplar.BitTools
