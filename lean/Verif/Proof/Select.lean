import Verif.Model.Select
import Verif.Proof.BitTools
import Verif.Proof.BitVector
/-
  `bit_tools.hpp`: `select` returns the position of the i-th one.
-/
namespace Poplar.BitTools
open Poplar

theorem val_lt : ∀ {bs : List Nat}, (∀ b ∈ bs, b < 256) → val bs < 256 ^ bs.length
  | [], _ => by simp [val]
  | b :: bs, h => by
    have h1 := val_lt (bs := bs) (fun x hx => h x (by simp [hx]))
    have h2 := h b (by simp)
    simp only [val, List.length_cons, pow_succ]
    omega

theorem val_id (f : Nat → Nat) {bs : List Nat} (h : ∀ b ∈ bs, f b = b) : val (bs.map f) = val bs := by
  rw [List.map_congr_left h, List.map_id']

/-- the first two lines of `select`'s popcount are those of `popcnt` -/
theorem half_and (x m : Nat) (k : Nat) : (x >>> k) &&& (m >>> k) = (x &&& m) >>> k := by
  rw [Nat.shiftRight_and_distrib]

theorem byteSplit1 : ∀ b < 256, (b &&& 0x55) + (b &&& 0xAA) = b := by decide +kernel
theorem byteDbl1 : ∀ b < 256, 2 * ((b &&& 0xAA) >>> 1) = b &&& 0xAA := by decide +kernel
theorem byteSplit4 : ∀ b < 256, (b &&& 0x0F) + 16 * (b >>> 4) = b := by decide +kernel
theorem byteNib : ∀ b < 256, (swarByte 0x33 0xCC 2 (swarByte 0x55 0xAA 1 b)) % 16 ≤ 4 ∧
    (swarByte 0x33 0xCC 2 (swarByte 0x55 0xAA 1 b)) / 16 ≤ 4 := by decide +kernel

/-- adding a word to itself shifted by a nibble -/
theorem nibbles : ∀ {bs : List Nat}, (∀ b ∈ bs, b % 16 ≤ 4 ∧ b / 16 ≤ 4) →
    ∃ cs : List Nat, cs.length = bs.length ∧ (∀ c ∈ cs, c < 256) ∧ val bs + val bs >>> 4 = val cs ∧
      cs.map (· &&& 0x0F) = bs.map (fun b => b % 16 + b / 16)
  | [], _ => ⟨[], rfl, by simp, by simp [val], rfl⟩
  | b :: bs, h => by
    obtain ⟨cs, h1, h2, h3, h4⟩ := nibbles (bs := bs) (fun x hx => h x (by simp [hx]))
    have hb := h b (by simp)
    have hlow : val bs % 16 ≤ 4 := by
      cases bs with
      | nil => simp [val]
      | cons c bs => have := (h c (by simp)).1; simp only [val]; omega
    refine ⟨(b + b / 16 + 16 * (val bs % 16)) :: cs, by simp [h1], ?_, ?_, ?_⟩
    · intro c hc
      rcases List.mem_cons.1 hc with rfl | hc
      · omega
      · exact h2 c hc
    · simp only [val, ← h3, Nat.shiftRight_eq_div_pow]
      omega
    · simp only [List.map_cons, h4]
      congr 1
      rw [show (0x0F : Nat) = 2 ^ 4 - 1 from rfl, Nat.and_two_pow_sub_one_eq_mod]
      omega

theorem swarByte4 : ∀ b < 256, b % 16 + b / 16 = swarByte 0x0F 0xF0 4 b := by decide +kernel

theorem sums_ok {b0 b1 b2 b3 b4 b5 b6 b7 : Nat} (h : ∀ b ∈ [b0, b1, b2, b3, b4, b5, b6, b7], b < 256) :
    bytePrefixSums (val [b0, b1, b2, b3, b4, b5, b6, b7]) =
      val [ones 8 b0, ones 8 b0 + ones 8 b1, ones 8 b0 + ones 8 b1 + ones 8 b2,
        ones 8 b0 + ones 8 b1 + ones 8 b2 + ones 8 b3,
        ones 8 b0 + ones 8 b1 + ones 8 b2 + ones 8 b3 + ones 8 b4,
        ones 8 b0 + ones 8 b1 + ones 8 b2 + ones 8 b3 + ones 8 b4 + ones 8 b5,
        ones 8 b0 + ones 8 b1 + ones 8 b2 + ones 8 b3 + ones 8 b4 + ones 8 b5 + ones 8 b6,
        ones 8 b0 + ones 8 b1 + ones 8 b2 + ones 8 b3 + ones 8 b4 + ones 8 b5 + ones 8 b6 + ones 8 b7] := by
  have hbs := h
  generalize hB : [b0, b1, b2, b3, b4, b5, b6, b7] = bs at hbs
  have hlen : bs.length = 8 := by rw [← hB]; rfl
  have c1 : val (List.replicate 8 0x55) = 0x5555555555555555 := by decide
  have c2 : val (List.replicate 8 0xAA) = 0xAAAAAAAAAAAAAAAA := by decide
  have c3 : val (List.replicate 8 0x33) = 0x3333333333333333 := by decide
  have c4 : val (List.replicate 8 0xCC) = 0xCCCCCCCCCCCCCCCC := by decide
  have c5 : val (List.replicate 8 0x0F) = 0x0F0F0F0F0F0F0F0F := by decide
  have hlt := val_lt hbs
  rw [hlen, show (256 : Nat) ^ 8 = 2 ^ 64 by decide] at hlt
  -- line 1
  have e1 : sub64 (val bs) ((val bs >>> 1) &&& 0x5555555555555555) = val (bs.map (swarByte 0x55 0xAA 1)) := by
    rw [show (0x5555555555555555 : Nat) = 0xAAAAAAAAAAAAAAAA >>> 1 by decide, half_and]
    have s1 := swar (m := 0x55) (m' := 0xAA) (k := 1) (by decide) (by decide) hbs byte1
    rw [hlen, c1, c2] at s1
    rw [← s1]
    have a1 : val bs &&& 0x5555555555555555 = val (bs.map (· &&& 0x55)) := by
      rw [← c1, ← hlen]; exact val_and (by decide) hbs
    have a2 : val bs &&& 0xAAAAAAAAAAAAAAAA = val (bs.map (· &&& 0xAA)) := by
      rw [← c2, ← hlen]; exact val_and (by decide) hbs
    have a3 : val (bs.map (· &&& 0x55)) + val (bs.map (· &&& 0xAA)) = val bs := by
      rw [val_add]; exact val_id _ (fun b hb => byteSplit1 b (hbs b hb))
    have a4 := (val_shift (bs := bs.map (· &&& 0xAA)) (k := 1) (by
      intro b hb; obtain ⟨a, ha, rfl⟩ := List.mem_map.1 hb; exact byte1 a (hbs a ha))).2
    rw [a1, a2]
    rw [Nat.shiftRight_eq_div_pow] at *
    generalize val (bs.map (· &&& 0x55)) = A at *
    generalize val (bs.map (· &&& 0xAA)) = C at *
    unfold sub64
    omega
  have hb1 : ∀ b ∈ bs.map (swarByte 0x55 0xAA 1), b < 256 := by
    intro b h; obtain ⟨a, ha, rfl⟩ := List.mem_map.1 h; exact byteLt1 a (hbs a ha)
  have e2 : ((val (bs.map (swarByte 0x55 0xAA 1)) &&& 0x3333333333333333) +
      ((val (bs.map (swarByte 0x55 0xAA 1)) >>> 2) &&& 0x3333333333333333)) % 2 ^ 64 =
      val ((bs.map (swarByte 0x55 0xAA 1)).map (swarByte 0x33 0xCC 2)) := by
    have s2 := swar (m := 0x33) (m' := 0xCC) (k := 2) (by decide) (by decide) hb1 byte2
    rw [List.length_map, hlen, c3, c4] at s2
    have : ((val (bs.map (swarByte 0x55 0xAA 1)) >>> 2) &&& 0x3333333333333333) =
        (val (bs.map (swarByte 0x55 0xAA 1)) &&& 0xCCCCCCCCCCCCCCCC) >>> 2 := by
      rw [← half_and]; rfl
    rw [this, s2]
    apply Nat.mod_eq_of_lt
    have := val_lt (bs := (bs.map (swarByte 0x55 0xAA 1)).map (swarByte 0x33 0xCC 2)) (by
      intro b h; obtain ⟨a, ha, rfl⟩ := List.mem_map.1 h; exact byteLt2 a (hb1 a ha))
    rw [List.length_map, List.length_map, hlen] at this
    exact this
  have hb2 : ∀ b ∈ (bs.map (swarByte 0x55 0xAA 1)).map (swarByte 0x33 0xCC 2), b < 256 := by
    intro b h; obtain ⟨a, ha, rfl⟩ := List.mem_map.1 h; exact byteLt2 a (hb1 a ha)
  have hn : ∀ b ∈ (bs.map (swarByte 0x55 0xAA 1)).map (swarByte 0x33 0xCC 2), b % 16 ≤ 4 ∧ b / 16 ≤ 4 := by
    intro b h
    rw [List.map_map] at h
    obtain ⟨a, ha, rfl⟩ := List.mem_map.1 h
    exact byteNib a (hbs a ha)
  obtain ⟨cs, k1, k2, k3, k4⟩ := nibbles hn
  rw [List.length_map, List.length_map, hlen] at k1
  have e3 : ((val ((bs.map (swarByte 0x55 0xAA 1)).map (swarByte 0x33 0xCC 2)) +
      val ((bs.map (swarByte 0x55 0xAA 1)).map (swarByte 0x33 0xCC 2)) >>> 4) % 2 ^ 64) &&& 0x0F0F0F0F0F0F0F0F =
      val (bs.map (ones 8)) := by
    have hv := val_and (m := 0x0F) (by decide) k2
    rw [k1, c5] at hv
    rw [k3, Nat.mod_eq_of_lt (by have := val_lt k2; rw [k1] at this; exact this), hv, k4, List.map_map, List.map_map]
    congr 1
    apply List.map_congr_left
    intro b hb
    simp only [Function.comp]
    rw [swarByte4 _ (byteLt2 _ (byteLt1 _ (hbs b hb))), byteAll b (hbs b hb)]
  simp only [bytePrefixSums]
  rw [e1, e2, e3, ← hB]
  simp only [List.map_cons, List.map_nil, val]
  have l0 := ones_le 8 b0
  have l1 := ones_le 8 b1
  have l2 := ones_le 8 b2
  have l3 := ones_le 8 b3
  have l4 := ones_le 8 b4
  have l5 := ones_le 8 b5
  have l6 := ones_le 8 b6
  have l7 := ones_le 8 b7
  clear * - l0 l1 l2 l3 l4 l5 l6 l7
  generalize ones 8 b0 = p1 at *
  generalize ones 8 b1 = p2 at *
  generalize ones 8 b2 = p3 at *
  generalize ones 8 b3 = p4 at *
  generalize ones 8 b4 = p5 at *
  generalize ones 8 b5 = p6 at *
  generalize ones 8 b6 = p7 at *
  generalize ones 8 b7 = p8 at *
  rw [mul64]
  have : 0x0101010101010101 * (p1 + 256 * (p2 + 256 * (p3 + 256 * (p4 + 256 * (p5 + 256 * (p6 + 256 * (p7 + 256 * (p8 + 256 * 0)))))))) =
    2 ^ 64 * ((p2 + p3 + p4 + p5 + p6 + p7 + p8) + 2 ^ 8 * (p3 + p4 + p5 + p6 + p7 + p8) + 2 ^ 16 * (p4 + p5 + p6 + p7 + p8)
      + 2 ^ 24 * (p5 + p6 + p7 + p8) + 2 ^ 32 * (p6 + p7 + p8) + 2 ^ 40 * (p7 + p8) + 2 ^ 48 * p8) +
    ((p1 + p2 + p3 + p4 + p5 + p6 + p7 + p8) * 2 ^ 56 + ((p1 + p2 + p3 + p4 + p5 + p6 + p7) * 2 ^ 48 +
      (p1 + p2 + p3 + p4 + p5 + p6) * 2 ^ 40 + (p1 + p2 + p3 + p4 + p5) * 2 ^ 32 + (p1 + p2 + p3 + p4) * 2 ^ 24 +
      (p1 + p2 + p3) * 2 ^ 16 + (p1 + p2) * 2 ^ 8 + p1)) := by ring
  rw [this, Nat.mul_add_mod, Nat.mod_eq_of_lt (by omega)]
  ring

/-- the number of ones of a byte, by arithmetic the kernel evaluates directly -/
def pcByte (x : Nat) : Nat :=
  Nat.add (Nat.add (Nat.add (Nat.mod x 2) (Nat.mod (Nat.div x 2) 2)) (Nat.add (Nat.mod (Nat.div x 4) 2) (Nat.mod (Nat.div x 8) 2)))
    (Nat.add (Nat.add (Nat.mod (Nat.div x 16) 2) (Nat.mod (Nat.div x 32) 2)) (Nat.add (Nat.mod (Nat.div x 64) 2) (Nat.mod (Nat.div x 128) 2)))

theorem pcByte_ones : ∀ b < 256, pcByte b = ones 8 b := by decide +kernel

/-- entry `n` of the table may be `q` -/
def entryOk (n q : Nat) : Bool :=
  bif Nat.ble (pcByte (Nat.mod n 256)) (Nat.div n 256) then true
  else Nat.ble q 7 && (Nat.beq (Nat.mod (Nat.div (Nat.mod n 256) (Nat.pow 2 q)) 2) 1 &&
    Nat.beq (pcByte (Nat.mod (Nat.mod n 256) (Nat.pow 2 q))) (Nat.div n 256))

/-- the table `l`, whose first entry is number `n` -/
def tableOk (n : Nat) (l : List Nat) : Bool :=
  List.rec (motive := fun _ => Nat → Bool) (fun _ => true) (fun q _ ih n => bif entryOk n q then ih (Nat.succ n) else false) l n

theorem tableOk_get : ∀ {l : List Nat} {n i : Nat}, tableOk n l = true → (h : i < l.length) → entryOk (n + i) l[i] = true
  | [], _, _, _, h => absurd h (Nat.not_lt_zero _)
  | q :: l, n, i, h, hi => by
    have h' : (bif entryOk n q then tableOk (Nat.succ n) l else false) = true := h
    cases he : entryOk n q with
    | false => rw [he] at h'; cases h'
    | true =>
      rw [he] at h'
      cases i with
      | zero => exact he
      | succ i =>
        have := tableOk_get (l := l) (n := n + 1) (i := i) h' (by simpa using hi)
        rw [show n + 1 + i = n + (i + 1) by omega] at this
        exact this

theorem ltSel_size : ltSel.size = 2048 := by decide +kernel

theorem ltSel_tableOk : tableOk 0 ltSel.toList = true := by decide +kernel

theorem entryOk_spec {b j q : Nat} (hb : b < 256) (hj : j < ones 8 b) (h : entryOk (j * 256 + b) q = true) :
    q < 8 ∧ b.testBit q = true ∧ ones q b = j := by
  have e1 : (j * 256 + b) % 256 = b := by omega
  have e2 : (j * 256 + b) / 256 = j := by omega
  have h' : (bif Nat.ble (pcByte ((j * 256 + b) % 256)) ((j * 256 + b) / 256) then true
    else Nat.ble q 7 && (Nat.beq (((j * 256 + b) % 256) / 2 ^ q % 2) 1 &&
      Nat.beq (pcByte (((j * 256 + b) % 256) % 2 ^ q)) ((j * 256 + b) / 256))) = true := h
  rw [e1, e2, pcByte_ones b hb, show Nat.ble (ones 8 b) j = false by
    rw [← Bool.not_eq_true, Nat.ble_eq]; omega] at h'
  simp only [cond_false, Bool.and_eq_true, Nat.ble_eq, Nat.beq_eq] at h'
  obtain ⟨h1, h2, h3⟩ := h'
  refine ⟨by omega, ?_, ?_⟩
  · rw [Nat.testBit_eq_decide_div_mod_eq, h2]; rfl
  · have hlt : b % 2 ^ q < 256 := Nat.lt_of_le_of_lt (Nat.mod_le _ _) hb
    rw [pcByte_ones _ hlt] at h3
    rw [← h3]
    simp only [ones]
    have hz : ∀ r, cnt (fun i => (b % 2 ^ q).testBit i) (q + r) = cnt (fun i => (b % 2 ^ q).testBit i) q := by
      intro r
      induction r with
      | zero => rfl
      | succ r ih => rw [← Nat.add_assoc, cnt_succ, ih, Nat.testBit_mod_two_pow]; simp
    rw [show 8 = q + (8 - q) by omega, hz]
    apply cnt_congr
    intro i hi
    rw [Nat.testBit_mod_two_pow]
    simp [hi]

/-- the table gives the position of the `j+1`-st one of a byte -/
theorem ltSel_ok {b j : Nat} (hb : b < 256) (hj : j < ones 8 b) :
    ∃ q, rd ltSel (j * 256 + b) = .ok q ∧ q < 8 ∧ b.testBit q = true ∧ ones q b = j := by
  have hj8 : j < 8 := Nat.lt_of_lt_of_le hj (ones_le _ _)
  have hlt : j * 256 + b < ltSel.size := by rw [ltSel_size]; omega
  refine ⟨_, rd_of_lt hlt, ?_⟩
  have := tableOk_get (i := j * 256 + b) ltSel_tableOk (by simpa using hlt)
  rw [Nat.zero_add] at this
  exact entryOk_spec hb hj this

theorem psOverflow_ok : ∀ i < 65, rd psOverflow i = .ok (val (List.replicate 8 (128 - i))) := by decide +kernel

theorem and_bit {b n m : Nat} (hm : m = 2 ^ n) : b &&& m ≠ 0 ↔ b / m % 2 = 1 := by
  subst hm
  rw [Nat.and_two_pow]
  have := Nat.testBit_eq_decide_div_mod_eq (x := b) (i := n)
  rw [this]
  have hp := Nat.two_pow_pos n
  by_cases h : b / 2 ^ n % 2 = 1 <;> simp [h]

theorem and_ff (y : Nat) : y &&& 0xFF = y % 256 := by
  rw [show (0xFF : Nat) = 2 ^ 8 - 1 from rfl, Nat.and_two_pow_sub_one_eq_mod]

theorem and_ff00 (y : Nat) : y &&& 0xFF00 = y / 256 % 256 * 256 := by
  have h1 : y = y % 256 + 256 * (y / 256) := by omega
  conv_lhs => rw [h1, show (0xFF00 : Nat) = 0 + 256 * 0xFF from rfl, and_cons (by omega) (by decide), and_ff]
  simp; omega

theorem and_7ff (y : Nat) : y &&& 0x7FF = y % 2048 := by
  rw [show (0x7FF : Nat) = 2 ^ 11 - 1 from rfl, Nat.and_two_pow_sub_one_eq_mod]

theorem val_div : ∀ {qs : List Nat} (k : Nat), (∀ q ∈ qs, q < 256) → val qs / 256 ^ k = val (qs.drop k)
  | qs, 0, _ => by simp
  | [], k + 1, _ => by simp [val]
  | q :: qs, k + 1, h => by
    have h1 := h q (by simp)
    rw [List.drop_succ_cons, ← val_div k (fun x hx => h x (by simp [hx])), pow_succ', ← Nat.div_div_eq_div_mul, val]
    congr 1
    omega

theorem val_bit {qs : List Nat} {m k q : Nat} (h : ∀ q ∈ qs, q < 256) (hk : qs[k]? = some q) (hm : m = 256 ^ k * 128) :
    val qs / m % 2 = 1 ↔ 128 ≤ q := by
  rw [hm, ← Nat.div_div_eq_div_mul, val_div k h]
  obtain ⟨hlt, hq⟩ := List.getElem?_eq_some_iff.1 hk
  rw [List.drop_eq_getElem_cons hlt, hq, val]
  have := h q (List.mem_of_getElem? hk)
  omega

theorem val_byte {qs : List Nat} {m k q : Nat} (h : ∀ q ∈ qs, q < 256) (hk : qs[k]? = some q) (hm : m = 256 ^ k) :
    val qs / m % 256 = q := by
  rw [hm, val_div k h]
  obtain ⟨hlt, hq⟩ := List.getElem?_eq_some_iff.1 hk
  rw [List.drop_eq_getElem_cons hlt, hq, val]
  have := h q (List.mem_of_getElem? hk)
  omega

/-- byte `k` of a word -/
def byteAt (x k : Nat) : Nat := x / 2 ^ (8 * k) % 256

theorem ones_add (x m : Nat) : ∀ q, ones (m + q) x = ones m x + ones q (x / 2 ^ m)
  | 0 => by simp [ones_zero]
  | q + 1 => by
    have ih := ones_add x m q
    simp only [ones] at ih ⊢
    rw [← Nat.add_assoc, cnt_succ, cnt_succ, ih, Nat.testBit_div_two_pow, Nat.add_comm q m]
    omega

theorem ones_mod (y : Nat) {q : Nat} (h : q ≤ 8) : ones q (y % 256) = ones q y := by
  simp only [ones]
  apply cnt_congr
  intro j hj
  rw [show 256 = 2 ^ 8 from rfl, Nat.testBit_mod_two_pow]
  simp [show j < 8 by omega]

theorem ones_byte (x k : Nat) {q : Nat} (h : q ≤ 8) : ones (8 * k + q) x = ones (8 * k) x + ones q (byteAt x k) := by
  rw [ones_add, byteAt, ones_mod _ h]

theorem testBit_byte (x k : Nat) {q : Nat} (h : q < 8) : x.testBit (8 * k + q) = (byteAt x k).testBit q := by
  rw [byteAt, show 256 = 2 ^ 8 from rfl, Nat.testBit_mod_two_pow, Nat.testBit_div_two_pow, Nat.add_comm]
  simp [h]

/-- what `select x i` must return -/
def IsSelect (x i q : Nat) : Prop := q < 64 ∧ x.testBit q = true ∧ ones q x = i - 1

theorem lookup_ok {x i k : Nat} (hk : k < 8) (h1 : ones (8 * k) x < i) (h2 : i ≤ ones (8 * (k + 1)) x) :
    ∃ q, rd ltSel ((i - 1 - ones (8 * k) x) * 256 + byteAt x k) = .ok q ∧ IsSelect x i (8 * k + q) := by
  rw [show 8 * (k + 1) = 8 * k + 8 by omega, ones_byte x k (Nat.le_refl _)] at h2
  obtain ⟨q, e, hq, hb, ho⟩ := ltSel_ok (b := byteAt x k) (j := i - 1 - ones (8 * k) x) (Nat.mod_lt _ (by decide)) (by omega)
  refine ⟨q, e, by omega, ?_, ?_⟩
  · rw [testBit_byte x k hq, hb]
  · rw [ones_byte x k (by omega), ho]; omega

theorem selLookup_ok {x i k d : Nat} (hk : k < 8) (hi : i ≤ 64) (hd : d = ones (8 * k) x * 256)
    (h1 : ones (8 * k) x < i) (h2 : i ≤ ones (8 * (k + 1)) x) :
    ∃ q, selLookup x (8 * k) ((i - 1) * 256) d = .ok q ∧ IsSelect x i (8 * k + q) := by
  obtain ⟨q, e, h⟩ := lookup_ok hk h1 h2
  refine ⟨q, ?_, h⟩
  suffices hidx : sub64 (((x >>> (8 * k)) &&& 0xFF) + (i - 1) * 256) d &&& 0x7FF =
      (i - 1 - ones (8 * k) x) * 256 + byteAt x k by rw [← e, selLookup, hidx]
  have hbyte : (x >>> (8 * k)) &&& 0xFF = byteAt x k := by rw [and_ff, Nat.shiftRight_eq_div_pow]; rfl
  rw [and_7ff, hbyte, hd]
  have h3 := h2
  rw [show 8 * (k + 1) = 8 * k + 8 by omega, ones_byte x k (Nat.le_refl _)] at h3
  have h4 := ones_le 8 (byteAt x k)
  have h5 : byteAt x k < 256 := Nat.mod_lt _ (by decide)
  generalize byteAt x k = B at *
  generalize ones (8 * k) x = P at *
  unfold sub64
  omega

/-- **`select`** -/
theorem select_ok {x i : Nat} (hx : x < 2 ^ 64) (h0 : 0 < i) (hi : i ≤ ones 64 x) :
    ∃ q, select x i = .ok q ∧ IsSelect x i q := by
  have hi64 : i ≤ 64 := Nat.le_trans hi (ones_le _ _)
  have hv : val [byteAt x 0, byteAt x 1, byteAt x 2, byteAt x 3, byteAt x 4, byteAt x 5, byteAt x 6, byteAt x 7] = x := by
    simp only [val, byteAt]; omega
  have hs := sums_ok (b0 := byteAt x 0) (b1 := byteAt x 1) (b2 := byteAt x 2) (b3 := byteAt x 3) (b4 := byteAt x 4)
    (b5 := byteAt x 5) (b6 := byteAt x 6) (b7 := byteAt x 7) (by
      intro b hb; simp only [List.mem_cons, List.not_mem_nil, or_false] at hb
      rcases hb with rfl | rfl | rfl | rfl | rfl | rfl | rfl | rfl <;> exact Nat.mod_lt _ (by decide))
  rw [hv] at hs
  have P1 := ones_byte x 0 (Nat.le_refl 8)
  have P2 := ones_byte x 1 (Nat.le_refl 8)
  have P3 := ones_byte x 2 (Nat.le_refl 8)
  have P4 := ones_byte x 3 (Nat.le_refl 8)
  have P5 := ones_byte x 4 (Nat.le_refl 8)
  have P6 := ones_byte x 5 (Nat.le_refl 8)
  have P7 := ones_byte x 6 (Nat.le_refl 8)
  have P8 := ones_byte x 7 (Nat.le_refl 8)
  simp only [Nat.mul_zero, ones_zero, Nat.zero_add, Nat.reduceMul, Nat.reduceAdd] at P1 P2 P3 P4 P5 P6 P7 P8
  rw [← P1, ← P2, ← P3, ← P4, ← P5, ← P6, ← P7, ← P8] at hs
  have q1 := ones_le 8 x
  have q2 := ones_le 16 x
  have q3 := ones_le 24 x
  have q4 := ones_le 32 x
  have q5 := ones_le 40 x
  have q6 := ones_le 48 x
  have q7 := ones_le 56 x
  have q8 := ones_le 64 x
  unfold select
  rw [R.assert_dec (by omega), R.bind_ok, psOverflow_ok i (by omega)]
  simp only [R.bind_ok]
  have hsh : shl64 (i - 1) 8 = (i - 1) * 256 := by
    rw [shl64, Nat.shiftLeft_eq]; omega
  rw [hsh]
  have hb : (bytePrefixSums x + val (List.replicate 8 (128 - i))) % 2 ^ 64 =
      val [ones 8 x + (128 - i), ones 16 x + (128 - i), ones 24 x + (128 - i), ones 32 x + (128 - i),
        ones 40 x + (128 - i), ones 48 x + (128 - i), ones 56 x + (128 - i), ones 64 x + (128 - i)] := by
    rw [hs]
    simp only [List.replicate, val]
    omega
  rw [hb]
  have hq256 : ∀ q ∈ [ones 8 x + (128 - i), ones 16 x + (128 - i), ones 24 x + (128 - i), ones 32 x + (128 - i),
        ones 40 x + (128 - i), ones 48 x + (128 - i), ones 56 x + (128 - i), ones 64 x + (128 - i)], q < 256 := by
    intro b hb; simp only [List.mem_cons, List.not_mem_nil, or_false] at hb
    rcases hb with rfl | rfl | rfl | rfl | rfl | rfl | rfl | rfl <;> omega
  have hp256 : ∀ q ∈ [ones 8 x, ones 16 x, ones 24 x, ones 32 x, ones 40 x, ones 48 x, ones 56 x, ones 64 x], q < 256 := by
    intro b hb; simp only [List.mem_cons, List.not_mem_nil, or_false] at hb
    rcases hb with rfl | rfl | rfl | rfl | rfl | rfl | rfl | rfl <;> omega
  have b7 : val [ones 8 x + (128 - i), ones 16 x + (128 - i), ones 24 x + (128 - i), ones 32 x + (128 - i),
        ones 40 x + (128 - i), ones 48 x + (128 - i), ones 56 x + (128 - i), ones 64 x + (128 - i)] / 0x80 % 2 = 1 ↔ i ≤ ones 8 x := by
    rw [val_bit (k := 0) hq256 rfl (by decide)]; omega
  have b15 : val [ones 8 x + (128 - i), ones 16 x + (128 - i), ones 24 x + (128 - i), ones 32 x + (128 - i),
        ones 40 x + (128 - i), ones 48 x + (128 - i), ones 56 x + (128 - i), ones 64 x + (128 - i)] / 0x8000 % 2 = 1 ↔ i ≤ ones 16 x := by
    rw [val_bit (k := 1) hq256 rfl (by decide)]; omega
  have b23 : val [ones 8 x + (128 - i), ones 16 x + (128 - i), ones 24 x + (128 - i), ones 32 x + (128 - i),
        ones 40 x + (128 - i), ones 48 x + (128 - i), ones 56 x + (128 - i), ones 64 x + (128 - i)] / 0x800000 % 2 = 1 ↔ i ≤ ones 24 x := by
    rw [val_bit (k := 2) hq256 rfl (by decide)]; omega
  have b31 : val [ones 8 x + (128 - i), ones 16 x + (128 - i), ones 24 x + (128 - i), ones 32 x + (128 - i),
        ones 40 x + (128 - i), ones 48 x + (128 - i), ones 56 x + (128 - i), ones 64 x + (128 - i)] / 0x80000000 % 2 = 1 ↔ i ≤ ones 32 x := by
    rw [val_bit (k := 3) hq256 rfl (by decide)]; omega
  have b39 : val [ones 8 x + (128 - i), ones 16 x + (128 - i), ones 24 x + (128 - i), ones 32 x + (128 - i),
        ones 40 x + (128 - i), ones 48 x + (128 - i), ones 56 x + (128 - i), ones 64 x + (128 - i)] / 0x8000000000 % 2 = 1 ↔ i ≤ ones 40 x := by
    rw [val_bit (k := 4) hq256 rfl (by decide)]; omega
  have b47 : val [ones 8 x + (128 - i), ones 16 x + (128 - i), ones 24 x + (128 - i), ones 32 x + (128 - i),
        ones 40 x + (128 - i), ones 48 x + (128 - i), ones 56 x + (128 - i), ones 64 x + (128 - i)] / 0x800000000000 % 2 = 1 ↔ i ≤ ones 48 x := by
    rw [val_bit (k := 5) hq256 rfl (by decide)]; omega
  have b55 : val [ones 8 x + (128 - i), ones 16 x + (128 - i), ones 24 x + (128 - i), ones 32 x + (128 - i),
        ones 40 x + (128 - i), ones 48 x + (128 - i), ones 56 x + (128 - i), ones 64 x + (128 - i)] / 0x80000000000000 % 2 = 1 ↔ i ≤ ones 56 x := by
    rw [val_bit (k := 6) hq256 rfl (by decide)]; omega
  have b7 := (and_bit (n := 7) (by decide)).trans b7
  have b15 := (and_bit (n := 15) (by decide)).trans b15
  have b23 := (and_bit (n := 23) (by decide)).trans b23
  have b31 := (and_bit (n := 31) (by decide)).trans b31
  have b39 := (and_bit (n := 39) (by decide)).trans b39
  have b47 := (and_bit (n := 47) (by decide)).trans b47
  have b55 := (and_bit (n := 55) (by decide)).trans b55
  simp only [b7, b15, b23, b31, b39, b47, b55]
  have d1 : shl64 (bytePrefixSums x &&& 0xFF) 8 = ones 8 x * 256 := by
    have := val_byte (k := 0) (m := 1) hp256 rfl (by decide)
    rw [Nat.div_one] at this
    rw [and_ff, shl64, Nat.shiftLeft_eq, hs, this]; omega
  have d2 : bytePrefixSums x &&& 0xFF00 = ones 16 x * 256 := by
    rw [and_ff00, hs, val_byte (k := 1) hp256 rfl (by decide)]
  have d3 : (bytePrefixSums x >>> 8) &&& 0xFF00 = ones 24 x * 256 := by
    rw [and_ff00, Nat.shiftRight_eq_div_pow, hs, Nat.div_div_eq_div_mul, val_byte (k := 2) hp256 rfl (by decide)]
  have d4 : (bytePrefixSums x >>> 16) &&& 0xFF00 = ones 32 x * 256 := by
    rw [and_ff00, Nat.shiftRight_eq_div_pow, hs, Nat.div_div_eq_div_mul, val_byte (k := 3) hp256 rfl (by decide)]
  have d5 : (bytePrefixSums x >>> 24) &&& 0xFF00 = ones 40 x * 256 := by
    rw [and_ff00, Nat.shiftRight_eq_div_pow, hs, Nat.div_div_eq_div_mul, val_byte (k := 4) hp256 rfl (by decide)]
  have d6 : (bytePrefixSums x >>> 32) &&& 0xFF00 = ones 48 x * 256 := by
    rw [and_ff00, Nat.shiftRight_eq_div_pow, hs, Nat.div_div_eq_div_mul, val_byte (k := 5) hp256 rfl (by decide)]
  have d7 : (bytePrefixSums x >>> 40) &&& 0xFF00 = ones 56 x * 256 := by
    rw [and_ff00, Nat.shiftRight_eq_div_pow, hs, Nat.div_div_eq_div_mul, val_byte (k := 6) hp256 rfl (by decide)]
  clear b7 b15 b23 b31 b39 b47 b55 hq256 hp256 hb hsh hs hv
  split
  · split
    · split
      · obtain ⟨q, e, h⟩ := lookup_ok (x := x) (i := i) (k := 0) (by omega) (by simp [ones_zero]; omega) (by simpa using ‹_›)
        refine ⟨q, ?_, by simpa using h⟩
        rw [← e, and_ff, byteAt, Nat.mul_zero, ones_zero, Nat.pow_zero, Nat.div_one, Nat.sub_zero, Nat.add_comm]
      · obtain ⟨q, e, h⟩ := selLookup_ok (x := x) (i := i) (k := 1) (by omega) hi64 d1 (by simp; omega) (by simp; omega)
        exact ⟨_, by rw [e]; rfl, h⟩
    · split
      · obtain ⟨q, e, h⟩ := selLookup_ok (x := x) (i := i) (k := 2) (by omega) hi64 d2 (by simp; omega) (by simp; omega)
        exact ⟨_, by rw [e]; rfl, h⟩
      · obtain ⟨q, e, h⟩ := selLookup_ok (x := x) (i := i) (k := 3) (by omega) hi64 d3 (by simp; omega) (by simp; omega)
        exact ⟨_, by rw [e]; rfl, h⟩
  · split
    · split
      · obtain ⟨q, e, h⟩ := selLookup_ok (x := x) (i := i) (k := 4) (by omega) hi64 d4 (by simp; omega) (by simp; omega)
        exact ⟨_, by rw [e]; rfl, h⟩
      · obtain ⟨q, e, h⟩ := selLookup_ok (x := x) (i := i) (k := 5) (by omega) hi64 d5 (by simp; omega) (by simp; omega)
        exact ⟨_, by rw [e]; rfl, h⟩
    · split
      · obtain ⟨q, e, h⟩ := selLookup_ok (x := x) (i := i) (k := 6) (by omega) hi64 d6 (by simp; omega) (by simp; omega)
        exact ⟨_, by rw [e]; rfl, h⟩
      · obtain ⟨q, e, h⟩ := selLookup_ok (x := x) (i := i) (k := 7) (by omega) hi64 d7 (by simp; omega) (by simp; omega)
        exact ⟨_, by rw [e]; rfl, h⟩

end Poplar.BitTools
