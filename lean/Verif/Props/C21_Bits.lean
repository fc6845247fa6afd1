import Verif.Proof.Select
import Verif.Proof.SelectSse
import Verif.Proof.BitVector
import Verif.Spec.Bits
/-
  C21: `bit_vector` is a bit sequence.
  C29: `bit_tools`.
-/
namespace Poplar.Props
open Poplar Poplar.Spec Poplar.BitTools

/-! ### C21 -/

/-- one call of the public interface -/
def bvStep (v : BitVector) : BitOp → R BitVector
  | .set i b => v.set i b
  | .appendBit b => v.appendBit b
  | .appendBits bits len => v.appendBits bits len

/-- a history -/
def bvRun (v : BitVector) : List BitOp → R BitVector
  | [] => .ok v
  | o :: os => do bvRun (← bvStep v o) os

/-- simulation relation (proof-internal) -/
private def Sim (v : BitVector) (l : List Bool) : Prop :=
  v.WF ∧ v.size = l.length ∧ ∀ p (h : p < l.length), v.bit p = l[p]

private theorem bitsOf_length (x len : Nat) : (bitsOf x len).length = len := by simp [bitsOf]

private theorem sim_step {v : BitVector} {l : List Bool} {o : BitOp} (h : Sim v l) (hl : o.Legal l) :
    ∃ v', bvStep v o = .ok v' ∧ Sim v' (o.apply l) := by
  obtain ⟨hw, hs, hb⟩ := h
  cases o with
  | set i b =>
    obtain ⟨v', e, w', s', g⟩ := hw.set_ok (i := i) (b := b) (by rw [hs]; exact hl)
    refine ⟨v', e, w', by simp [BitOp.apply, s', hs], fun p hp => ?_⟩
    simp only [BitOp.apply, List.length_set] at hp
    simp only [BitOp.apply, g, List.getElem_set]
    by_cases h1 : p = i
    · subst h1; simp
    · have : ¬ i = p := fun h => h1 h.symm
      simp [h1, this, hb p hp]
  | appendBit b =>
    obtain ⟨v', e, w', s', g⟩ := hw.appendBit_ok (b := b)
    refine ⟨v', e, w', by simp [BitOp.apply, s', hs], fun p hp => ?_⟩
    simp only [BitOp.apply, List.length_append, List.length_cons, List.length_nil] at hp
    simp only [BitOp.apply, g, hs]
    by_cases h1 : p = l.length
    · subst h1; simp
    · rw [if_neg h1, List.getElem_append_left (by omega), hb p (by omega)]
  | appendBits bits len =>
    obtain ⟨v', e, w', s', g⟩ := hw.appendBits_ok (bits := bits) (len := len) hl.1 hl.2
    refine ⟨v', e, w', by simp [BitOp.apply, s', hs, bitsOf_length], fun p hp => ?_⟩
    simp only [BitOp.apply, List.length_append, bitsOf_length] at hp
    simp only [BitOp.apply, g, hs]
    by_cases h1 : l.length ≤ p
    · rw [if_pos ⟨h1, hp⟩, List.getElem_append_right h1]
      simp [bitsOf]
    · rw [if_neg (by omega), List.getElem_append_left (by omega), hb p (by omega)]

private theorem sim_run (os : List BitOp) : ∀ {v : BitVector} {l : List Bool}, Sim v l → BitOp.LegalAll l os →
    ∃ v', bvRun v os = .ok v' ∧ Sim v' (os.foldl BitOp.apply l) := by
  induction os with
  | nil => intro v l h _; exact ⟨v, rfl, h⟩
  | cons o os ih =>
    intro v l h hl
    obtain ⟨v1, e1, h1⟩ := sim_step h hl.1
    obtain ⟨v2, e2, h2⟩ := ih h1 hl.2
    exact ⟨v2, by simp [bvRun, e1, e2], h2⟩

private theorem ofBits_testBit (l : List Bool) (j : Nat) : (ofBits l).testBit j = l.getD j false := by
  induction l generalizing j with
  | nil => simp [ofBits]
  | cons b l ih =>
    cases j with
    | zero => cases b <;> simp [ofBits, Nat.testBit_zero]
    | succ j =>
      rw [Nat.testBit_add_one, List.getD_cons_succ, ← ih]
      congr 1
      simp only [ofBits]
      split <;> omega

/-- **C21** After any legal history of `set`, `append_bit` and `append_bits` calls, starting from `n` zero bits, no call
has failed, `size()` is the length of the bit sequence, `get(i)` is its `i`-th bit, and `get_bits(pos, len)` (`len < 64`) the
number made of its bits `pos .. pos+len-1`. -/
theorem C21_bit_vector (n : Nat) (os : List BitOp) (hl : BitOp.LegalAll (List.replicate n false) os) :
    ∃ v, bvRun (BitVector.make n) os = .ok v ∧
      v.size = (os.foldl BitOp.apply (List.replicate n false)).length ∧
      (∀ i b, (os.foldl BitOp.apply (List.replicate n false))[i]? = some b → v.get i = .ok b) ∧
      ∀ pos len, pos + len ≤ v.size → len < 64 →
        v.getBits pos len = .ok (ofBits (((os.foldl BitOp.apply (List.replicate n false)).drop pos).take len)) := by
  obtain ⟨w0, s0, z0⟩ := BitVector.make_wf n
  obtain ⟨v, e, hw, hs, hb⟩ := sim_run os (v := BitVector.make n) (l := List.replicate n false)
    ⟨w0, by simp [s0], fun p hp => by rw [z0]; simp⟩ hl
  refine ⟨v, e, hs, ?_, ?_⟩
  · intro i b hi
    obtain ⟨h1, h2⟩ := List.getElem?_eq_some_iff.1 hi
    rw [hw.get_ok (by omega), hb i h1, h2]
  · intro pos len h1 h2
    obtain ⟨x, e, hx⟩ := hw.getBits_ok h1 h2
    rw [e]
    congr 1
    apply Nat.eq_of_testBit_eq
    intro j
    rw [hx, ofBits_testBit]
    by_cases hj : j < len
    · simp only [hj, decide_true, Bool.true_and]
      rw [hb (pos + j) (by omega)]
      rw [List.getD_eq_getElem?_getD, List.getElem?_take_of_lt hj, List.getElem?_drop, List.getElem?_eq_getElem (by omega)]
      rfl
    · simp only [hj, decide_false, Bool.false_and]
      rw [List.getD_eq_getElem?_getD, List.getElem?_eq_none (by simp; omega)]
      rfl

/-- the hypothesis is met by a history whose appends straddle a word boundary -/
example : ∃ v, bvRun (BitVector.make 60) [.set 59 true, .appendBits 0x2B 6, .appendBit true] = .ok v ∧ v.size = 67 ∧
    v.get 59 = .ok true ∧ v.getBits 58 9 = .ok 0b110101110 := by
  obtain ⟨v, h1, h2, h3, h4⟩ := C21_bit_vector 60 [.set 59 true, .appendBits 0x2B 6, .appendBit true]
    ⟨show 59 < _ by decide, ⟨by decide, by decide⟩, trivial, trivial⟩
  have hs : v.size = 67 := by rw [h2]; decide
  exact ⟨v, h1, hs, h3 59 true (by decide), (h4 58 9 (by omega) (by decide)).trans (by decide)⟩

/-- `get_bits` of all 64 bits is undefined: `1ULL << 64` (bit_vector.hpp:67). -/
theorem C21_get_bits_64 (v : BitVector) (pos : Nat) (h : pos + 64 ≤ v.size) : v.getBits pos 64 = .error .limit := by
  unfold BitVector.getBits
  rw [R.assert_dec h, R.bind_ok]
  rfl

/-! ### C29 -/

private theorem ones_spec (x w : Nat) : ones w x = onesBelow x w := by
  induction w with
  | zero => rfl
  | succ w ih =>
    simp only [ones, onesBelow] at ih ⊢
    rw [cnt_succ, ih, List.range_succ, List.filter_append, List.length_append]
    congr 1
    cases h : x.testBit w <;> simp [h]

/-- **C29** `popcnt` counts the ones of a word, for every width. -/
theorem C29_popcnt {w x : Nat} (hw : w = 8 ∨ w = 16 ∨ w = 32 ∨ w = 64) (hx : x < 2 ^ w) :
    popcnt w x = .ok (onesBelow x w) := by
  rw [popcnt_ok hw hx, ones_spec]

example : popcnt 64 0xF0F0000000000001 = .ok 9 := (C29_popcnt (by decide) (by decide)).trans (by decide)

/-- **C29** `popcnt(x, i)` counts the ones below position `i`. -/
theorem C29_popcnt_masked {w x i : Nat} (hw : w = 8 ∨ w = 16 ∨ w = 32 ∨ w = 64) (hx : x < 2 ^ w) (hi : i < w) :
    popcntMask w x i = .ok (onesBelow x i) := by
  rw [popcntMask_ok hw hx hi, ones_spec]

example : popcntMask 32 0xF0F00001 21 = .ok 2 := (C29_popcnt_masked (by decide) (by decide) (by decide)).trans (by decide)

/-- **C29** `msb` is the position of the highest one; 0 for 0. -/
theorem C29_msb {x : Nat} (hx : x < 2 ^ 64) :
    ∃ m, msb x = .ok m ∧ (0 < x → x.testBit m = true ∧ ∀ j > m, x.testBit j = false) ∧ (x = 0 → m = 0) := by
  refine ⟨Nat.log2 x, msb_ok hx, fun h => ⟨?_, fun j hj => ?_⟩, fun h => by subst h; rfl⟩
  · have h0 : x ≠ 0 := by omega
    have h1 := Nat.log2_self_le h0
    have h2 := Nat.lt_log2_self (n := x)
    rw [Nat.testBit_eq_decide_div_mod_eq]
    have : x / 2 ^ x.log2 = 1 := by
      apply Nat.div_eq_of_lt_le
      · omega
      · rw [show (1 + 1) * 2 ^ x.log2 = 2 ^ (x.log2 + 1) by rw [pow_succ]; omega]; exact h2
    rw [this]; rfl
  · apply Nat.testBit_lt_two_pow
    exact Nat.lt_of_lt_of_le Nat.lt_log2_self (Nat.pow_le_pow_right (by decide) hj)

example : msb 0x123456789A = .ok 36 := by rw [msb_ok (by decide)]; decide

/-- **C29** `ceil_log2(x)` is the least `k` with `x <= 2^k`. -/
theorem C29_ceil_log2 {x : Nat} (hx : x < 2 ^ 64) :
    ∃ k, ceilLog2 x = .ok k ∧ x ≤ 2 ^ k ∧ ∀ j, x ≤ 2 ^ j → k ≤ j :=
  ⟨_, ceilLog2_ok hx, Nat.le_pow_clog (by decide) x, fun _ hj => Nat.clog_le_of_le_pow hj⟩

/-- **C29** `bits_to_bytes(bits)` is the least number of bytes that hold `bits` bits. -/
theorem C29_bits_to_bytes (bits : Nat) : bits ≤ 8 * bitsToBytes bits ∧ ∀ n, bits ≤ 8 * n → bitsToBytes bits ≤ n := by
  unfold bitsToBytes
  split
  · exact ⟨by omega, fun n _ => Nat.zero_le n⟩
  · split <;> exact ⟨by omega, fun n hn => by omega⟩

/-- **C29** `words_for<uint64_t>(bits)` is the least number of words that hold `bits` bits. -/
theorem C29_words_for (bits : Nat) : bits ≤ 64 * wordsFor bits ∧ ∀ n, bits ≤ 64 * n → wordsFor bits ≤ n := by
  unfold wordsFor
  exact ⟨by omega, fun n hn => by omega⟩

/-- **C29** `select(x, i)` is the position of the `i`-th one, for `1 <= i <= popcnt(x)`. -/
theorem C29_select {x i : Nat} (hx : x < 2 ^ 64) (h0 : 1 ≤ i) (hi : i ≤ onesBelow x 64) :
    ∃ q, select x i = .ok q ∧ q < 64 ∧ x.testBit q = true ∧ onesBelow x q = i - 1 := by
  rw [← ones_spec] at hi
  obtain ⟨q, e, h1, h2, h3⟩ := select_ok hx h0 hi
  exact ⟨q, e, h1, h2, by rw [← ones_spec, h3]⟩

example := C29_select (x := 0x8000000000010010) (i := 3) (by decide) (by decide) (by decide)

/-- The `i`-th one has one position only. -/
private theorem select_unique {x i q q' : Nat} (h : IsSelect x i q) (h' : IsSelect x i q') : q = q' := by
  obtain ⟨_, hb, ho⟩ := h
  obtain ⟨_, hb', ho'⟩ := h'
  have step : ∀ {a b : Nat}, a < b → x.testBit a = true → ones a x < ones b x := by
    intro a b hab ha
    have h1 : ones (a + 1) x = ones a x + 1 := by simp only [ones]; rw [cnt_succ, ha]; rfl
    obtain ⟨d, rfl⟩ : ∃ d, b = a + 1 + d := ⟨b - (a + 1), by omega⟩
    rw [ones_add]; omega
  rcases Nat.lt_trichotomy q q' with h | h | h
  · have := step h hb; omega
  · exact h
  · have := step h hb'; omega

/-- **C29** The code compiled with `__SSE4_2__`, which uses functions of the compiler, computes the same as the portable code:
`popcnt`, `msb` and `ceil_log2` on every word, `select(x, i)` for `1 <= i <= popcnt(x)`. -/
theorem C29_sse :
    (∀ w x, w = 8 ∨ w = 16 ∨ w = 32 ∨ w = 64 → x < 2 ^ w → popcntSse w x = popcnt w x) ∧
    (∀ x < 2 ^ 64, msbSse x = msb x) ∧ (∀ x < 2 ^ 64, ceilLog2Sse x = ceilLog2 x) ∧
    ∀ x < 2 ^ 64, ∀ i, 1 ≤ i → i ≤ onesBelow x 64 → selectSse x i = select x i := by
  refine ⟨fun w x hw hx => ?_, fun x hx => ?_, fun x hx => ?_, fun x hx i h0 hi => ?_⟩
  · exact popcntSse_eq hw hx
  · rw [msbSse_ok hx, msb_ok hx]
  · unfold ceilLog2Sse ceilLog2
    split
    · rw [msbSse_ok (by omega), msb_ok (by omega)]
    · rfl
  · rw [← ones_spec] at hi
    obtain ⟨q, e, h⟩ := selectSse_ok hx h0 hi
    obtain ⟨q', e', h'⟩ := select_ok hx h0 hi
    rw [e, e', select_unique h h']

/-- `select` for the highest one of a word, in the eighth byte -/
example : selectSse 0x8000000000010010 3 = .ok 63 ∧ select 0x8000000000010010 3 = .ok 63 := by decide +kernel

/-- **C29** `get_bit` and `set_bit`, for every width. -/
theorem C29_get_set_bit {w x i : Nat} {b : Bool} (hw : w = 8 ∨ w = 16 ∨ w = 32 ∨ w = 64) (hx : x < 2 ^ w) (hi : i < w) :
    getBit w x i = .ok (x.testBit i) ∧
    ∃ y, setBit w x i b = .ok y ∧ y < 2 ^ w ∧ ∀ j, y.testBit j = if j = i then b else x.testBit j := by
  refine ⟨getBit_ok hi, ?_⟩
  obtain ⟨y, h1, h2, h3⟩ := setBit_ok (b := b) (by omega) hx hi
  exact ⟨y, h1, h2, h3⟩

example := C29_get_set_bit (w := 16) (x := 0xBEEF) (i := 4) (b := false) (by decide) (by decide) (by decide)

end Poplar.Props
