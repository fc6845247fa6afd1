import Verif.Proof.CrashNlm
/-
  A failed `insert` of `compact_bonsai_nlm`: the bit of the node is set, but there is no entry.
-/
namespace Poplar
open Spec
open BitTools (ones getBit_ok setBit_ok popcnt_ok popcntMask_ok)
namespace CompactBonsaiNlm
variable {W vs : Nat}

theorem ones_between {w a b : Nat} (hab : a ≤ b) (h : ∀ q, a ≤ q → q < b → w.testBit q = false) : ones b w = ones a w := by
  induction b with
  | zero => have : a = 0 := by omega
            rw [this]
  | succ b ih =>
    by_cases e : a = b + 1
    · rw [e]
    · have : ones (b + 1) w = ones b w + (if w.testBit b then 1 else 0) := rfl
      rw [this, h b (by omega) (by omega), ih (by omega) (fun q h1 h2 => h q h1 (by omega))]
      rfl

/-- the remains: one bit set -/
theorem crash_eq {g : Nat → List (List UInt8)} {n : CompactBonsaiNlm} (hw : W = 8 ∨ W = 16 ∨ W = 32 ∨ W = 64) (ho : Ob W vs n.ptrs n.chunks n.heap g) {j : Nat}
    (hj : j < n.ptrs.size * W) (hL : ∀ e, cL W vs n.ptrs n.chunks n.heap j e = none) {key : List UInt8} {nf : CompactBonsaiNlm}
    (hf : nf ∈ (crash W vs).label n j key) :
    ∃ w w', n.chunks[j / W]? = some w ∧ w.testBit (j % W) = false ∧ w' < 2 ^ W ∧ (∀ q, w'.testBit q = if q = j % W then true else w.testBit q) ∧
      nf.ptrs = n.ptrs ∧ nf.heap = n.heap ∧ nf.chunks = n.chunks.setIfInBounds (j / W) w' := by
  have hW : 0 < W := by omega
  obtain ⟨ptr, w, hc, h1, h2, hck, hLi⟩ := ho.at hW hj
  have hb := ho.bit_none hW hj hL h2
  obtain ⟨w', s1, s2, s3⟩ := setBit_ok (b := true) (show W ≤ 64 by omega) hck.wlt (Nat.mod_lt j hW)
  have hcc : j / W < n.chunks.size := by rw [ho.sz]; exact hc
  simp only [crash, rd_of_some h2, R.bind_ok, s1, wr_of_lt hcc, List.mem_singleton] at hf
  subst hf
  exact ⟨w, w', h2, hb, s2, s3, rfl, rfl, rfl⟩

theorem compare_eq (hw : W = 8 ∨ W = 16 ∨ W = 32 ∨ W = 64) {n : CompactBonsaiNlm} {i a w : Nat} {ps : List (List UInt8)} (h1 : n.ptrs[i / W]? = some (some a))
    (h2 : n.chunks[i / W]? = some w) (hb : n.heap.B a = some (enc ps)) (hwlt : w < 2 ^ W) (hbit : w.testBit (i % W) = true) (key : List UInt8) :
    compare W vs n i key = (compareMem false vs (enc ps) (ones (i % W) w) key).map (fun y => (y.1.map (fun o => ⟨.heap a, o⟩), y.2)) := by
  have hm := Nat.mod_lt i (show 0 < W by omega)
  unfold compare
  simp only [rd_of_some h1, rd_of_some h2, R.bind_ok, getBit_ok hm, hbit, R.assert_true, popcntMask_ok hw hwlt hm, Heap.block_ok hb, R.pure_eq]
  cases compareMem false vs (enc ps) (ones (i % W) w) key with
  | error e => rfl
  | ok y => obtain ⟨r, k⟩ := y; rfl

/-- nodes below the failed one, and those of other chunks, are not affected -/
theorem crash_below {g : Nat → List (List UInt8)} {n : CompactBonsaiNlm} (hw : W = 8 ∨ W = 16 ∨ W = 32 ∨ W = 64) (ho : Ob W vs n.ptrs n.chunks n.heap g) {j : Nat}
    (hj : j < n.ptrs.size * W) (hL : ∀ e, cL W vs n.ptrs n.chunks n.heap j e = none) {key : List UInt8} {nf : CompactBonsaiNlm}
    (hf : nf ∈ (crash W vs).label n j key) {i : Nat} {e : Bool} (hi : cL W vs n.ptrs n.chunks n.heap i e ≠ none) (hij : i / W ≠ j / W ∨ i < j)
    (key' : List UInt8) : compare W vs nf i key' = compare W vs n i key' := by
  have hW : 0 < W := by omega
  obtain ⟨w, w', f1, f2, f3, f4, f5, f6, f7⟩ := crash_eq hw ho hj hL hf
  obtain ⟨⟨l, v⟩, hlv⟩ := Option.ne_none_iff_exists'.1 hi
  obtain ⟨_, a, u, p, h1, h2, h3, h4, h5, h6, h7, h8⟩ := ho.isSome hW hlv
  by_cases hc : i / W = j / W
  · have hlt : i % W < j % W := by
      have h9 := hij.resolve_left (fun h => h hc)
      have h10 := Nat.div_add_mod i W; have := Nat.div_add_mod j W
      rw [hc] at h10; omega
    rw [hc, f1] at h2
    injection h2 with h2; subst h2
    have hcc : j / W < n.chunks.size := (Array.getElem?_eq_some_iff.1 f1).1
    rw [compare_eq hw (w := w') (by rw [f5]; exact h1) (by rw [f7, hc, Array.getElem?_setIfInBounds_self_of_lt hcc]) (by rw [f6]; exact h4) f3 (by rw [f4, if_neg (by omega)]; exact h5),
      compare_eq hw h1 (by rw [hc]; exact f1) h4 h3.wlt h5, ones_setBit f2 f4, if_neg (by omega), Nat.add_zero]
  · rw [compare_eq hw (w := u) (by rw [f5]; exact h1) (by rw [f7, Array.getElem?_setIfInBounds_ne (Ne.symm hc)]; exact h2) (by rw [f6]; exact h4) h3.wlt h5,
      compare_eq hw h1 h2 h4 h3.wlt h5]

/-- the failed node, and those above it in its chunk, answer with the label of the next labelled node of the chunk -/
theorem crash_above {g : Nat → List (List UInt8)} {n : CompactBonsaiNlm} (hw : W = 8 ∨ W = 16 ∨ W = 32 ∨ W = 64) (ho : Ob W vs n.ptrs n.chunks n.heap g) {j : Nat}
    (hj : j < n.ptrs.size * W) (hL : ∀ e, cL W vs n.ptrs n.chunks n.heap j e = none) {key : List UInt8} {nf : CompactBonsaiNlm}
    (hf : nf ∈ (crash W vs).label n j key) {i i' : Nat} {e : Bool} (hi : i = j ∨ (j < i ∧ ∃ e, cL W vs n.ptrs n.chunks n.heap i e ≠ none))
    (hi' : cL W vs n.ptrs n.chunks n.heap i' e ≠ none) (hii : i < i') (hc' : i' / W = j / W)
    (hno : ∀ q, i < q → q < i' → ∀ e, cL W vs n.ptrs n.chunks n.heap q e = none)
    (key' : List UInt8) : compare W vs nf i key' = compare W vs n i' key' := by
  have hW : 0 < W := by omega
  obtain ⟨w, w', f1, f2, f3, f4, f5, f6, f7⟩ := crash_eq hw ho hj hL hf
  obtain ⟨⟨l, v⟩, hlv⟩ := Option.ne_none_iff_exists'.1 hi'
  obtain ⟨hi'2, a, u, p, h1, h2, h3, h4, h5, h6, h7, h8⟩ := ho.isSome hW hlv
  rw [hc', f1] at h2
  injection h2 with h2; subst h2
  have hle : j ≤ i := by rcases hi with h | h <;> omega
  have hc : i / W = j / W := by
    have := Nat.div_le_div_right (c := W) hle
    have := Nat.div_le_div_right (c := W) (Nat.le_of_lt hii)
    omega
  have hmi := Nat.div_add_mod i W
  have hmi' := Nat.div_add_mod i' W
  have hmj := Nat.div_add_mod j W
  rw [hc] at hmi
  rw [hc'] at hmi'
  have hcc : j / W < n.chunks.size := (Array.getElem?_eq_some_iff.1 f1).1
  -- bits between are unset
  have hz : ∀ q, i % W + 1 ≤ q → q < i' % W → w.testBit q = false := by
    intro q q1 q2
    have hq := hno (W * (j / W) + q) (by omega) (by omega)
    have hqW : q < W := by have := Nat.mod_lt i' hW; omega
    have e1 : (W * (j / W) + q) / W = j / W := by
      rw [Nat.mul_add_div hW, Nat.div_eq_of_lt hqW, Nat.add_zero]
    have e2 : (W * (j / W) + q) % W = q := by
      rw [Nat.mul_add_mod, Nat.mod_eq_of_lt hqW]
    have := ho.bit_none hW (i := W * (j / W) + q) (by omega) hq (w := w) (by rw [e1]; exact f1)
    rwa [e2] at this
  have hrank := ones_between (w := w) (a := i % W + 1) (b := i' % W) (by omega) hz
  have hstep : ones (i % W + 1) w = ones (i % W) w + (if w.testBit (i % W) then 1 else 0) := rfl
  have hbit : w'.testBit (i % W) = true := by
    rw [f4]
    rcases hi with rfl | ⟨hi, e0, hi2⟩
    · rw [if_pos rfl]
    · rw [if_neg (by omega)]
      obtain ⟨⟨l0, v0⟩, hlv0⟩ := Option.ne_none_iff_exists'.1 hi2
      obtain ⟨_, _, u0, _, _, k2, _, _, k5, _⟩ := ho.isSome hW hlv0
      rw [hc, f1] at k2; injection k2 with k2; subst k2; exact k5
  rw [compare_eq hw (a := a) (w := w') (by rw [f5, hc, ← hc']; exact h1) (by rw [f7, hc, Array.getElem?_setIfInBounds_self_of_lt hcc]) (by rw [f6]; exact h4) f3 hbit,
      compare_eq hw h1 (by rw [hc']; exact f1) h4 h3.wlt h5, ones_setBit f2 f4]
  congr 2
  rw [hrank, hstep]
  rw [f4] at hbit
  rcases hi with rfl | ⟨hi, _⟩
  · rw [f2, if_neg (by omega), if_neg (by simp)]
  · rw [if_neg (by omega)] at hbit
    rw [hbit, if_pos (by omega), if_pos rfl]

theorem decode_nil : VByte.decode [] = .error .oob := rfl

/-- if there is no such node, `compare` fails -/
theorem crash_last {g : Nat → List (List UInt8)} {n : CompactBonsaiNlm} (hw : W = 8 ∨ W = 16 ∨ W = 32 ∨ W = 64) (ho : Ob W vs n.ptrs n.chunks n.heap g) {j : Nat}
    (hj : j < n.ptrs.size * W) (hL : ∀ e, cL W vs n.ptrs n.chunks n.heap j e = none) {key : List UInt8} {nf : CompactBonsaiNlm}
    (hf : nf ∈ (crash W vs).label n j key) {i : Nat} (hi : i = j ∨ (i / W = j / W ∧ j < i ∧ ∃ e, cL W vs n.ptrs n.chunks n.heap i e ≠ none))
    (hno : ∀ q, i < q → q / W = j / W → ∀ e, cL W vs n.ptrs n.chunks n.heap q e = none)
    (key' : List UInt8) : ∃ f, compare W vs nf i key' = .error f ∧ (f = .oob ∨ f = .assertion) := by
  have hW : 0 < W := by omega
  obtain ⟨w, w', f1, f2, f3, f4, f5, f6, f7⟩ := crash_eq hw ho hj hL hf
  obtain ⟨ptr, u, hjc, h1, h2, hck, _⟩ := ho.at hW hj
  rw [f1] at h2; injection h2 with h2; subst h2
  have hc : i / W = j / W := by rcases hi with h | h; rw [h]; exact h.1
  have hle : j ≤ i := by rcases hi with h | h <;> omega
  have hmi := Nat.div_add_mod i W
  have hmj := Nat.div_add_mod j W
  rw [hc] at hmi
  have hm := Nat.mod_lt i hW
  have hbW : W * (j / W) + W ≤ n.ptrs.size * W := by
    rw [Nat.mul_comm n.ptrs.size W, ← Nat.mul_succ]; exact Nat.mul_le_mul_left _ hjc
  have hz : ∀ q, i % W + 1 ≤ q → q < W → w.testBit q = false := by
    intro q q1 q2
    have e1 : (W * (j / W) + q) / W = j / W := by
      rw [Nat.mul_add_div hW, Nat.div_eq_of_lt q2, Nat.add_zero]
    have e2 : (W * (j / W) + q) % W = q := by
      rw [Nat.mul_add_mod, Nat.mod_eq_of_lt q2]
    have hq := hno (W * (j / W) + q) (by omega) e1
    have := ho.bit_none hW (i := W * (j / W) + q) (by omega) hq (w := w) (by rw [e1]; exact f1)
    rwa [e2] at this
  have hrank := ones_between (w := w) (a := i % W + 1) (b := W) (by omega) hz
  have hstep : ones (i % W + 1) w = ones (i % W) w + (if w.testBit (i % W) then 1 else 0) := rfl
  cases ptr with
  | none =>
    refine ⟨.assertion, ?_, Or.inr rfl⟩
    unfold compare
    dsimp only
    rw [f5, hc, rd_of_some h1]
    rfl
  | some a =>
    have hcc : j / W < n.chunks.size := (Array.getElem?_eq_some_iff.1 f1).1
    have hbit : w'.testBit (i % W) = true := by
      rw [f4]
      rcases hi with rfl | ⟨_, hi, e0, hi2⟩
      · rw [if_pos rfl]
      · rw [if_neg (by omega)]
        obtain ⟨⟨l0, v0⟩, hlv0⟩ := Option.ne_none_iff_exists'.1 hi2
        obtain ⟨_, _, u0, _, _, k2, _, _, k5, _⟩ := ho.isSome hW hlv0
        rw [hc, f1] at k2; injection k2 with k2; subst k2; exact k5
    refine ⟨.oob, ?_, Or.inl rfl⟩
    rw [compare_eq hw (a := a) (w := w') (ps := g (j / W)) (by rw [f5, hc]; exact h1) (by rw [f7, hc, Array.getElem?_setIfInBounds_self_of_lt hcc])
      (by rw [f6]; exact hck.mem a rfl) f3 hbit, ones_setBit f2 f4]
    have hall : ones (i % W) w + (if j % W < i % W then 1 else 0) = (g (j / W)).length := by
      rw [← hck.len, hrank, hstep]
      rw [f4] at hbit
      rcases hi with rfl | ⟨_, hi, _⟩
      · rw [f2, if_neg (by omega), if_neg (by simp)]
      · rw [if_neg (by omega)] at hbit
        rw [hbit, if_pos (by omega), if_pos rfl]
    rw [hall]
    unfold compareMem
    rw [skip_enc hck.small (Nat.le_refl _), List.take_length]
    simp only [R.bind_ok, List.drop_length, decode_nil]
    rfl

end CompactBonsaiNlm
end Poplar
