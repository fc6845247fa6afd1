import Verif.Model.BitTools
import Verif.Proof.Count
import Mathlib.Data.Nat.Bitwise
import Mathlib.Data.Nat.Log
import Mathlib.Tactic.Ring
/-
  `bit_tools.hpp`: `msb` and `ceil_log2` are logarithms, the three `popcnt`s count ones.
-/
namespace Poplar.BitTools
open Poplar

theorem msbTable_ok : ∀ x < 256, rd msbTable x = .ok (Nat.log2 x) := by decide +kernel

theorem log2_shift {x k : Nat} (h : 0 < x >>> k) : Nat.log2 (x >>> k) + k = Nat.log2 x := by
  rw [Nat.shiftRight_eq_div_pow] at *
  rw [Nat.log2_eq_log_two, Nat.log2_eq_log_two, Nat.log_div_base_pow]
  have h1 : 2 ^ k ≤ x := by
    by_contra hc
    rw [Nat.div_eq_of_lt (by omega)] at h; omega
  have h2 : k ≤ Nat.log 2 x := (Nat.le_log_iff_pow_le (by decide) (by have := Nat.two_pow_pos k; omega)).2 h1
  omega

theorem shift_lt {x a b c : Nat} (h : x < 2 ^ a) (hc : a = b + c) : x >>> b < 2 ^ c := by
  rw [Nat.shiftRight_eq_div_pow]
  exact Nat.div_lt_of_lt_mul (by rw [← Nat.pow_add, ← hc]; exact h)

theorem shift_zero_lt {x k : Nat} (h : ¬ 0 < x >>> k) : x < 2 ^ k := by
  rw [Nat.shiftRight_eq_div_pow] at h
  have := Nat.two_pow_pos k
  by_contra hc
  exact h (Nat.div_pos (by omega) this)

theorem msb_ok {x : Nat} (h : x < 2 ^ 64) : msb x = .ok (Nat.log2 x) := by
  have hs : ∀ a b, (x >>> a) >>> b = x >>> (a + b) := fun a b => (Nat.shiftRight_add x a b).symm
  simp only [msb, hs, Nat.reduceAdd]
  have hb : ∀ {k j : Nat}, x >>> k < 2 ^ j → j = 8 → rd msbTable (x >>> k) = .ok (Nat.log2 (x >>> k)) := by
    intro k j hk hj; exact msbTable_ok _ (by rw [hj] at hk; exact hk)
  have hcut : ∀ {a b c : Nat}, ¬ 0 < x >>> a → a = b + c → x >>> b < 2 ^ c := fun h1 h2 => shift_lt (shift_zero_lt h1) h2
  split
  · next h32 =>
    split
    · next h48 =>
      split
      · next h56 => rw [hb (shift_lt h (b := 56) (c := 8) rfl) rfl]; simp [log2_shift h56]
      · next h56 => rw [hb (hcut h56 (b := 48) (c := 8) rfl) rfl]; simp [log2_shift h48]
    · next h48 =>
      split
      · next h40 => rw [hb (hcut h48 (b := 40) (c := 8) rfl) rfl]; simp [log2_shift h40]
      · next h40 => rw [hb (hcut h40 (b := 32) (c := 8) rfl) rfl]; simp [log2_shift h32]
  · next h32 =>
    split
    · next h16 =>
      split
      · next h24 => rw [hb (hcut h32 (b := 24) (c := 8) rfl) rfl]; simp [log2_shift h24]
      · next h24 => rw [hb (hcut h24 (b := 16) (c := 8) rfl) rfl]; simp [log2_shift h16]
    · next h16 =>
      split
      · next h8 => rw [hb (hcut h16 (b := 8) (c := 8) rfl) rfl]; simp [log2_shift h8]
      · next h8 => exact msbTable_ok _ (shift_zero_lt h8)

/-- `ceil_log2` is the rounded-up logarithm -/
theorem ceilLog2_ok {x : Nat} (h : x < 2 ^ 64) : ceilLog2 x = .ok (Nat.clog 2 x) := by
  unfold ceilLog2
  split
  next h1 =>
    rw [msb_ok (by omega)]
    simp only [R.bind_ok, R.pure_eq]
    rw [Nat.log2_eq_log_two]
    congr 1
    have hx : x - 1 ≠ 0 := by omega
    have a1 : Nat.clog 2 x ≤ Nat.log 2 (x - 1) + 1 := by
      rw [Nat.clog_le_iff_le_pow (by decide)]
      have := Nat.lt_pow_succ_log_self (b := 2) (by decide) (x - 1)
      rw [Nat.succ_eq_add_one] at this; omega
    have a2 : Nat.log 2 (x - 1) < Nat.clog 2 x := by
      rw [Nat.lt_clog_iff_pow_lt (by decide)]
      have := Nat.pow_log_le_self 2 hx; omega
    omega
  next h1 => rw [Nat.clog_of_right_le_one (by omega)]

theorem ceilLog2_pow {l : Nat} (h : l < 64) : ceilLog2 (2 ^ l) = .ok l := by
  rw [ceilLog2_ok (Nat.pow_lt_pow_right (by decide) h), Nat.clog_pow _ _ (by decide)]

/-! ### popcount -/

/-- number of ones among the low `w` bits -/
def ones (w x : Nat) : Nat := cnt (fun i => x.testBit i) w

/-- value of a little-endian list of bytes -/
def val : List Nat → Nat
  | [] => 0
  | b :: bs => b + 256 * val bs

theorem and_cons {b c : Nat} (hb : b < 256) (hc : c < 256) (y d : Nat) :
    (b + 256 * y) &&& (c + 256 * d) = (b &&& c) + 256 * (y &&& d) := by
  have e1 : b + 256 * y = 2 ^ 8 * y + b := by omega
  have e2 : c + 256 * d = 2 ^ 8 * d + c := by omega
  have hbc : b &&& c < 2 ^ 8 := Nat.lt_of_le_of_lt Nat.and_le_left hb
  have e3 : (b &&& c) + 256 * (y &&& d) = 2 ^ 8 * (y &&& d) + (b &&& c) := by omega
  rw [e1, e2, e3]
  apply Nat.eq_of_testBit_eq
  intro i
  rw [Nat.testBit_and, Nat.testBit_two_pow_mul_add _ hb, Nat.testBit_two_pow_mul_add _ hc, Nat.testBit_two_pow_mul_add _ hbc]
  split <;> rw [Nat.testBit_and]

theorem val_and {bs : List Nat} {m : Nat} (hm : m < 256) (hb : ∀ b ∈ bs, b < 256) :
    val bs &&& val (List.replicate bs.length m) = val (bs.map (· &&& m)) := by
  induction bs with
  | nil => simp [val]
  | cons b bs ih =>
    simp only [List.length_cons, List.replicate_succ, val, List.map_cons]
    rw [and_cons (hb b (by simp)) hm, ih (fun x hx => hb x (by simp [hx]))]

theorem val_shift {bs : List Nat} {k : Nat} (h : ∀ b ∈ bs, b % 2 ^ k = 0) :
    val bs >>> k = val (bs.map (· >>> k)) ∧ val bs % 2 ^ k = 0 := by
  induction bs with
  | nil => simp [val]
  | cons b bs ih =>
    obtain ⟨h1, h2⟩ := ih (fun x hx => h x (by simp [hx]))
    have h3 := h b (by simp)
    simp only [List.map_cons, val, Nat.shiftRight_eq_div_pow] at h1 ⊢
    obtain ⟨c, hc⟩ := Nat.dvd_of_mod_eq_zero h3
    obtain ⟨d, hd⟩ := Nat.dvd_of_mod_eq_zero h2
    have hp := Nat.two_pow_pos k
    rw [← h1, hd, hc]
    rw [show 2 ^ k * c + 256 * (2 ^ k * d) = 2 ^ k * (c + 256 * d) by ring]
    rw [Nat.mul_div_cancel_left _ hp, Nat.mul_div_cancel_left _ hp, Nat.mul_div_cancel_left _ hp]
    exact ⟨rfl, Nat.mul_mod_right _ _⟩

theorem val_add (f g : Nat → Nat) (bs : List Nat) :
    val (bs.map f) + val (bs.map g) = val (bs.map (fun b => f b + g b)) := by
  induction bs with
  | nil => rfl
  | cons b bs ih => simp only [List.map_cons, val, ← ih]; ring

/-- one line of the bit-parallel popcount, on a byte -/
def swarByte (m m' k b : Nat) : Nat := (b &&& m) + ((b &&& m') >>> k)

/-- a line of the bit-parallel popcount works byte by byte -/
theorem swar {bs : List Nat} {m m' k : Nat} (hm : m < 256) (hm' : m' < 256) (hb : ∀ b ∈ bs, b < 256)
    (hk : ∀ b < 256, (b &&& m') % 2 ^ k = 0) :
    (val bs &&& val (List.replicate bs.length m)) + ((val bs &&& val (List.replicate bs.length m')) >>> k) =
      val (bs.map (swarByte m m' k)) := by
  rw [val_and hm hb, val_and hm' hb, (val_shift (k := k) (by
    intro b hb'
    obtain ⟨a, ha, rfl⟩ := List.mem_map.1 hb'
    exact hk a (hb a ha))).1, List.map_map, val_add]
  rfl

theorem byte1 : ∀ b < 256, (b &&& 0xAA) % 2 ^ 1 = 0 := by decide +kernel
theorem byte2 : ∀ b < 256, (b &&& 0xCC) % 2 ^ 2 = 0 := by decide +kernel
theorem byte3 : ∀ b < 256, (b &&& 0xF0) % 2 ^ 4 = 0 := by decide +kernel
theorem byteLt1 : ∀ b < 256, swarByte 0x55 0xAA 1 b < 256 := by decide +kernel
theorem byteLt2 : ∀ b < 256, swarByte 0x33 0xCC 2 b < 256 := by decide +kernel
theorem byteAll : ∀ b < 256, swarByte 0x0F 0xF0 4 (swarByte 0x33 0xCC 2 (swarByte 0x55 0xAA 1 b)) = ones 8 b := by
  decide +kernel

theorem ones_le (w x : Nat) : ones w x ≤ w := cnt_le _ _

/-- the three lines of the bit-parallel popcount -/
theorem swar3 {bs : List Nat} {n : Nat} (hn : bs.length = n) (hb : ∀ b ∈ bs, b < 256) :
    let x := (val bs &&& val (List.replicate n 0x55)) + ((val bs &&& val (List.replicate n 0xAA)) >>> 1)
    let x := (x &&& val (List.replicate n 0x33)) + ((x &&& val (List.replicate n 0xCC)) >>> 2)
    (x &&& val (List.replicate n 0x0F)) + ((x &&& val (List.replicate n 0xF0)) >>> 4) = val (bs.map (ones 8)) := by
  subst hn
  intro x x'
  have hx : x = val (bs.map (swarByte 0x55 0xAA 1)) := swar (by decide) (by decide) hb byte1
  have hb1 : ∀ b ∈ bs.map (swarByte 0x55 0xAA 1), b < 256 := by
    intro b h; obtain ⟨a, ha, rfl⟩ := List.mem_map.1 h; exact byteLt1 a (hb a ha)
  have hx' : x' = val ((bs.map (swarByte 0x55 0xAA 1)).map (swarByte 0x33 0xCC 2)) := by
    have := swar (m := 0x33) (m' := 0xCC) (k := 2) (by decide) (by decide) hb1 byte2
    rw [List.length_map] at this
    rw [← this, ← hx]
  have hb2 : ∀ b ∈ (bs.map (swarByte 0x55 0xAA 1)).map (swarByte 0x33 0xCC 2), b < 256 := by
    intro b h; obtain ⟨a, ha, rfl⟩ := List.mem_map.1 h; exact byteLt2 a (hb1 a ha)
  have := swar (m := 0x0F) (m' := 0xF0) (k := 4) (by decide) (by decide) hb2 byte3
  rw [List.length_map, List.length_map, ← hx'] at this
  rw [this]
  congr 1
  simp only [List.map_map]
  apply List.map_congr_left
  intro b h
  exact byteAll b (hb b h)

theorem cnt_succ (p : Nat → Bool) (n : Nat) : cnt p (n + 1) = cnt p n + (if p n then 1 else 0) := rfl

theorem ones_split {w x : Nat} : ones (8 + w) x = ones 8 (x % 256) + ones w (x / 256) := by
  have h : ∀ w, cnt (fun i => x.testBit i) (8 + w) = cnt (fun i => (x % 256).testBit i) 8 + cnt (fun i => (x / 256).testBit i) w := by
    intro w
    induction w with
    | zero =>
      simp only [cnt, Nat.add_zero]
      have := cnt_congr (p := fun i => x.testBit i) (q := fun i => (x % 256).testBit i) (n := 8) (by
        intro i hi
        rw [show 256 = 2 ^ 8 from rfl, Nat.testBit_mod_two_pow]; simp [hi])
      simpa [cnt] using this
    | succ w ih =>
      rw [← Nat.add_assoc, cnt, ih, cnt_succ (fun i => (x / 256).testBit i) w]
      have : (x / 256).testBit w = x.testBit (8 + w) := by
        rw [show 256 = 2 ^ 8 from rfl, Nat.testBit_div_two_pow, Nat.add_comm]
      rw [this]; omega
  exact h w

theorem popcnt8_ok {x : Nat} (h : x < 2 ^ 8) : popcnt8 x = .ok (ones 8 x) := by
  have : ∀ x < 256, popcnt8 x = .ok (ones 8 x) := by decide +kernel
  exact this x h

theorem ones_zero (x : Nat) : ones 0 x = 0 := rfl

theorem popcnt16_ok {x : Nat} (h : x < 2 ^ 16) : popcnt16 x = .ok (ones 16 x) := by
  have t : ∀ x < 256, rd popcntTable x = .ok (ones 8 x) := fun x hx => popcnt8_ok hx
  have e1 : x &&& 255 = x % 256 := by rw [show 255 = 2 ^ 8 - 1 from rfl, and_mask]
  have e2 : x >>> 8 = x / 256 := by rw [Nat.shiftRight_eq_div_pow]
  simp only [popcnt16, e1, e2]
  rw [t _ (Nat.mod_lt _ (by decide)), t _ (by omega)]
  simp only [R.bind_ok, R.pure_eq]
  rw [show 16 = 8 + 8 from rfl, ones_split]

theorem popcnt32_ok {x : Nat} (h : x < 2 ^ 32) : popcnt32 x = ones 32 x := by
  let bs := [x % 256, x / 256 % 256, x / 256 / 256 % 256, x / 256 / 256 / 256]
  have hbs : ∀ b ∈ bs, b < 256 := by
    intro b hb; simp only [bs, List.mem_cons, List.not_mem_nil, or_false] at hb
    rcases hb with rfl | rfl | rfl | rfl <;> omega
  have hv : val bs = x := by simp only [bs, val]; omega
  have h3 := swar3 (n := 4) rfl hbs
  rw [hv] at h3
  simp only [popcnt32]
  have c1 : val (List.replicate 4 0x55) = 0x55555555 := by decide
  have c2 : val (List.replicate 4 0xAA) = 0xAAAAAAAA := by decide
  have c3 : val (List.replicate 4 0x33) = 0x33333333 := by decide
  have c4 : val (List.replicate 4 0xCC) = 0xCCCCCCCC := by decide
  have c5 : val (List.replicate 4 0x0F) = 0x0F0F0F0F := by decide
  have c6 : val (List.replicate 4 0xF0) = 0xF0F0F0F0 := by decide
  rw [c1, c2, c3, c4, c5, c6] at h3
  simp only at h3
  rw [h3]
  have hsum : ones 32 x = ones 8 (x % 256) + (ones 8 (x / 256 % 256) + (ones 8 (x / 256 / 256 % 256) + ones 8 (x / 256 / 256 / 256))) := by
    rw [show 32 = 8 + (8 + (8 + 8)) from rfl, ones_split, ones_split, ones_split]
  rw [hsum]
  simp only [bs, List.map_cons, List.map_nil, val]
  have l1 := ones_le 8 (x % 256)
  have l2 := ones_le 8 (x / 256 % 256)
  have l3 := ones_le 8 (x / 256 / 256 % 256)
  have l4 := ones_le 8 (x / 256 / 256 / 256)
  generalize ones 8 (x % 256) = p1 at *
  generalize ones 8 (x / 256 % 256) = p2 at *
  generalize ones 8 (x / 256 / 256 % 256) = p3 at *
  generalize ones 8 (x / 256 / 256 / 256) = p4 at *
  rw [Nat.shiftRight_eq_div_pow]
  clear h3 hv hbs h hsum
  have : (p1 + 256 * (p2 + 256 * (p3 + 256 * (p4 + 256 * 0)))) * 0x01010101 =
    2 ^ 32 * (p2 + p3 + p4 + 256 * (p3 + p4) + 65536 * p4) + ((p1 + p2 + p3 + p4) * 2 ^ 24 + (p1 + p2 + p3) * 65536 + (p1 + p2) * 256 + p1) := by ring
  rw [this, Nat.mul_add_mod, Nat.mod_eq_of_lt (by omega)]
  apply Nat.div_eq_of_lt_le <;> omega

theorem popcnt64_ok {x : Nat} (h : x < 2 ^ 64) : popcnt64 x = ones 64 x := by
  let bs := [x % 256, x / 256 % 256, x / 256 / 256 % 256, x / 256 / 256 / 256 % 256,
    x / 256 / 256 / 256 / 256 % 256, x / 256 / 256 / 256 / 256 / 256 % 256, x / 256 / 256 / 256 / 256 / 256 / 256 % 256,
    x / 256 / 256 / 256 / 256 / 256 / 256 / 256]
  have hbs : ∀ b ∈ bs, b < 256 := by
    intro b hb; simp only [bs, List.mem_cons, List.not_mem_nil, or_false] at hb
    rcases hb with rfl | rfl | rfl | rfl | rfl | rfl | rfl | rfl <;> omega
  have hv : val bs = x := by simp only [bs, val]; omega
  have h3 := swar3 (n := 8) rfl hbs
  rw [hv] at h3
  simp only [popcnt64]
  have c1 : val (List.replicate 8 0x55) = 0x5555555555555555 := by decide
  have c2 : val (List.replicate 8 0xAA) = 0xAAAAAAAAAAAAAAAA := by decide
  have c3 : val (List.replicate 8 0x33) = 0x3333333333333333 := by decide
  have c4 : val (List.replicate 8 0xCC) = 0xCCCCCCCCCCCCCCCC := by decide
  have c5 : val (List.replicate 8 0x0F) = 0x0F0F0F0F0F0F0F0F := by decide
  have c6 : val (List.replicate 8 0xF0) = 0xF0F0F0F0F0F0F0F0 := by decide
  rw [c1, c2, c3, c4, c5, c6] at h3
  simp only at h3
  rw [h3]
  have hsum : ones 64 x = ones 8 (x % 256) + (ones 8 (x / 256 % 256) + (ones 8 (x / 256 / 256 % 256) + (ones 8 (x / 256 / 256 / 256 % 256)
      + (ones 8 (x / 256 / 256 / 256 / 256 % 256) + (ones 8 (x / 256 / 256 / 256 / 256 / 256 % 256) +
        (ones 8 (x / 256 / 256 / 256 / 256 / 256 / 256 % 256) + ones 8 (x / 256 / 256 / 256 / 256 / 256 / 256 / 256))))))) := by
    rw [show 64 = 8 + (8 + (8 + (8 + (8 + (8 + (8 + 8)))))) from rfl, ones_split, ones_split, ones_split, ones_split, ones_split, ones_split, ones_split]
  rw [hsum]
  simp only [bs, List.map_cons, List.map_nil, val]
  have l1 := ones_le 8 (x % 256)
  have l2 := ones_le 8 (x / 256 % 256)
  have l3 := ones_le 8 (x / 256 / 256 % 256)
  have l4 := ones_le 8 (x / 256 / 256 / 256 % 256)
  have l5 := ones_le 8 (x / 256 / 256 / 256 / 256 % 256)
  have l6 := ones_le 8 (x / 256 / 256 / 256 / 256 / 256 % 256)
  have l7 := ones_le 8 (x / 256 / 256 / 256 / 256 / 256 / 256 % 256)
  have l8 := ones_le 8 (x / 256 / 256 / 256 / 256 / 256 / 256 / 256)
  clear h3 hv hbs h hsum
  generalize ones 8 (x % 256) = p1 at *
  generalize ones 8 (x / 256 % 256) = p2 at *
  generalize ones 8 (x / 256 / 256 % 256) = p3 at *
  generalize ones 8 (x / 256 / 256 / 256 % 256) = p4 at *
  generalize ones 8 (x / 256 / 256 / 256 / 256 % 256) = p5 at *
  generalize ones 8 (x / 256 / 256 / 256 / 256 / 256 % 256) = p6 at *
  generalize ones 8 (x / 256 / 256 / 256 / 256 / 256 / 256 % 256) = p7 at *
  generalize ones 8 (x / 256 / 256 / 256 / 256 / 256 / 256 / 256) = p8 at *
  rw [Nat.shiftRight_eq_div_pow, mul64]
  have : (p1 + 256 * (p2 + 256 * (p3 + 256 * (p4 + 256 * (p5 + 256 * (p6 + 256 * (p7 + 256 * (p8 + 256 * 0)))))))) * 0x0101010101010101 =
    2 ^ 64 * ((p2 + p3 + p4 + p5 + p6 + p7 + p8) + 2 ^ 8 * (p3 + p4 + p5 + p6 + p7 + p8) + 2 ^ 16 * (p4 + p5 + p6 + p7 + p8)
      + 2 ^ 24 * (p5 + p6 + p7 + p8) + 2 ^ 32 * (p6 + p7 + p8) + 2 ^ 40 * (p7 + p8) + 2 ^ 48 * p8) +
    ((p1 + p2 + p3 + p4 + p5 + p6 + p7 + p8) * 2 ^ 56 + ((p1 + p2 + p3 + p4 + p5 + p6 + p7) * 2 ^ 48 +
      (p1 + p2 + p3 + p4 + p5 + p6) * 2 ^ 40 + (p1 + p2 + p3 + p4 + p5) * 2 ^ 32 + (p1 + p2 + p3 + p4) * 2 ^ 24 +
      (p1 + p2 + p3) * 2 ^ 16 + (p1 + p2) * 2 ^ 8 + p1)) := by ring
  rw [this, Nat.mul_add_mod, Nat.mod_eq_of_lt (by omega)]
  apply Nat.div_eq_of_lt_le <;> omega

theorem popcnt_ok {w x : Nat} (hw : w = 8 ∨ w = 16 ∨ w = 32 ∨ w = 64) (h : x < 2 ^ w) : popcnt w x = .ok (ones w x) := by
  unfold popcnt
  rcases hw with rfl | rfl | rfl | rfl
  · simp [popcnt8_ok h]
  · simp [popcnt16_ok h]
  · simp [popcnt32_ok h]
  · simp [popcnt64_ok h]

/-- masked popcount: the ones strictly below position `i` -/
theorem popcntMask_ok {w x i : Nat} (hw : w = 8 ∨ w = 16 ∨ w = 32 ∨ w = 64) (h : x < 2 ^ w) (hi : i < w) :
    popcntMask w x i = .ok (ones i x) := by
  simp only [popcntMask, R.assert_dec hi, R.bind_ok]
  rw [Nat.one_shiftLeft, and_mask]
  rw [popcnt_ok hw (Nat.lt_of_le_of_lt (Nat.mod_le _ _) h)]
  congr 1
  have : ∀ n, cnt (fun j => (x % 2 ^ i).testBit j) (i + n) = cnt (fun j => x.testBit j) i := by
    intro n
    induction n with
    | zero => apply cnt_congr; intro j hj; rw [Nat.testBit_mod_two_pow]; simp [show j < i from hj]
    | succ n ih => rw [← Nat.add_assoc, cnt, ih, Nat.testBit_mod_two_pow]; simp
  have h2 := this (w - i)
  rw [show i + (w - i) = w by omega] at h2
  exact h2

end Poplar.BitTools
