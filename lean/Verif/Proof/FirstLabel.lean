import Verif.Proof.FirstKey
/-
  The first label of a label map, whatever its bytes are.
-/
namespace Poplar
open Spec

/-! ### plain classes -/

theorem cmpPlain_oob {h : Heap} {a : Nat} {b : List UInt8} (hb : h.B a = some b) :
    ∀ (ks : List UInt8) (i : Nat) (t : List UInt8), ks = b.drop i ++ t → i ≤ b.length → t ≠ [] → cmpPlain h a ks i = .error .oob := by
  intro ks
  induction ks with
  | nil => intro i t h1 _ h2; simp at h1; exact absurd h1.2 h2
  | cons k ks ih =>
    intro i t h1 hi h2
    by_cases hl : i < b.length
    · rw [List.drop_eq_getElem_cons hl, List.cons_append] at h1
      injection h1 with e1 e2
      simp only [cmpPlain, Heap.read_ok hb hl, R.bind_ok, e1, ne_eq, not_true_eq_false, if_false]
      exact ih (i + 1) t e2 hl h2
    · simp only [cmpPlain, Heap.read, Heap.block_ok hb, R.bind_ok, List.getElem?_eq_none (show b.length ≤ i by omega), R.bind_error]

theorem Heap.load_oob {h : Heap} {a off vs : Nat} {b : List UInt8} (hb : h.B a = some b) (hl : b.length < off + vs) :
    h.load a off vs = .error .oob := by
  unfold load; rw [block_ok hb]; simp only [R.bind_ok, if_neg (show ¬ off + vs ≤ b.length by omega)]

/-- a label map with one block at node `r` -/
structure PlainOne (vs : Nat) (ptrs : Array (Option Nat)) (h : Heap) (r : Nat) (k : List UInt8) : Prop where
  ptr : ptrs[r]? = some (some 0)
  blk : h.B 0 = some (k ++ List.replicate vs 0)

theorem PlainOne.cmp {vs : Nat} {ptrs : Array (Option Nat)} {h : Heap} {r : Nat} {k : List UInt8} (o : PlainOne vs ptrs h r k) :
    (∀ key t, k = key ++ t → cmpPlain h 0 key 0 = .ok none ∧ h.load 0 key.length vs = .ok ((t ++ List.replicate vs 0).take vs)) ∧
    (∀ j, 0 < j → cmpPlain h 0 (k ++ List.replicate j 0) 0 = .error .oob ∨
      (cmpPlain h 0 (k ++ List.replicate j 0) 0 = .ok none ∧ h.load 0 (k ++ List.replicate j 0).length vs = .error .oob)) := by
  constructor
  · rintro key t rfl
    refine ⟨cmpPlain_eq o.blk key 0 (t ++ List.replicate vs 0) (by simp), ?_⟩
    rw [Heap.load_ok o.blk (by simp), List.append_assoc, List.drop_left]
  · intro j hj
    by_cases hv : j ≤ vs
    · right
      refine ⟨cmpPlain_eq o.blk _ 0 (List.replicate (vs - j) 0) ?_, Heap.load_oob o.blk (by simp; omega)⟩
      rw [List.drop_zero, List.append_assoc, List.replicate_append_replicate, show j + (vs - j) = vs by omega]
    · left
      refine cmpPlain_oob o.blk _ 0 (List.replicate (j - vs) 0) ?_ (Nat.zero_le _) ?_
      · rw [List.drop_zero, List.append_assoc, List.replicate_append_replicate, show vs + (j - vs) = j by omega]
      · intro h; have := congrArg List.length h; simp at this; omega

theorem PlainBonsaiNlm.first {vs b r : Nat} {n0 : PlainBonsaiNlm} (hm : PlainBonsaiNlm.make b = .ok n0) (hr : r < 2 ^ b) (k : List UInt8) :
    ∃ n, PlainBonsaiNlm.insert vs n0 r k = .ok (n, ⟨.heap 0, k.length⟩) ∧ PlainOne vs n.ptrs n.heap r k := by
  unfold PlainBonsaiNlm.make at hm
  split at hm
  · cases hm
    obtain ⟨h', h1, h2⟩ := newBlock_ok vs {} k
    have hnx : ({} : Heap).next = 0 := rfl
    have hal : (({} : Heap).alloc (k.length + vs)).2 = 0 := rfl
    rw [hal] at h1
    refine ⟨{ ptrs := (Array.replicate (2 ^ b) none).setIfInBounds r (some 0), heap := h', size := 1, labelBytes := 0 + (k.length + vs), maxLength := max 0 k.length, sumLength := 0 + k.length }, ?_, ?_, ?_⟩
    · obtain ⟨h3, h4, h5⟩ := R.bind_eq_ok h1
      unfold PlainBonsaiNlm.insert
      have e0 : rd (Array.replicate (2 ^ b) (none : Option Nat)) r = .ok none := rd_of_some (by simp [hr])
      dsimp only
      rw [e0, R.bind_ok, Option.isNone_none, R.assert_true, R.bind_ok, hal, wr_of_lt (by simpa using hr), R.bind_ok, h4, R.bind_ok, h5, R.bind_ok]
      rfl
    · exact Array.getElem?_setIfInBounds_self_of_lt (by simpa using hr)
    · rw [h2, hnx, if_pos rfl]
  · cases hm

theorem PlainFkNlm.first {vs b : Nat} {n0 : PlainFkNlm} (hm : PlainFkNlm.make b = .ok n0) (k : List UInt8) :
    ∃ n, PlainFkNlm.append vs n0 k = .ok (n, ⟨.heap 0, k.length⟩) ∧ PlainOne vs n.ptrs n.heap 0 k := by
  unfold PlainFkNlm.make at hm
  split at hm
  · cases hm
    obtain ⟨h', h1, h2⟩ := newBlock_ok vs {} k
    have hnx : ({} : Heap).next = 0 := rfl
    have hal : (({} : Heap).alloc (k.length + vs)).2 = 0 := rfl
    rw [hal] at h1
    refine ⟨{ ptrs := #[some 0], heap := h', labelBytes := 0 + (k.length + vs), maxLength := max 0 k.length, sumLength := 0 + k.length }, ?_, rfl, ?_⟩
    · obtain ⟨h3, h4, h5⟩ := R.bind_eq_ok h1
      unfold PlainFkNlm.append
      dsimp only
      rw [hal, h4, R.bind_ok, h5, R.bind_ok]
      rfl
    · rw [h2, hnx, if_pos rfl]
  · cases hm

theorem PlainOne.compareB {vs : Nat} {n : PlainBonsaiNlm} {r : Nat} {k : List UInt8} (o : PlainOne vs n.ptrs n.heap r k) {key : List UInt8} (hk : key ≠ []) :
    (cmpPlain n.heap 0 key 0 = .ok none → PlainBonsaiNlm.compare n r key = .ok (some ⟨.heap 0, key.length⟩, key.length)) ∧
    (cmpPlain n.heap 0 key 0 = .error .oob → PlainBonsaiNlm.compare n r key = .error .oob) := by
  have he : key.isEmpty = false := by cases key with | nil => exact absurd rfl hk | cons => rfl
  have hr : r < n.ptrs.size := by
    have := o.ptr; rw [Array.getElem?_eq_some_iff] at this; exact this.1
  constructor <;>
  · intro h
    unfold PlainBonsaiNlm.compare
    simp only [R.assert_dec hr, R.bind_ok, rd_of_some o.ptr, he, Bool.false_eq_true, if_false, h, R.bind_error, R.pure_eq]

theorem PlainOne.compareF {vs : Nat} {n : PlainFkNlm} {r : Nat} {k : List UInt8} (o : PlainOne vs n.ptrs n.heap r k) {key : List UInt8} (hk : key ≠ []) :
    (cmpPlain n.heap 0 key 0 = .ok none → PlainFkNlm.compare n r key = .ok (some ⟨.heap 0, key.length⟩, key.length)) ∧
    (cmpPlain n.heap 0 key 0 = .error .oob → PlainFkNlm.compare n r key = .error .oob) := by
  have he : key.isEmpty = false := by cases key with | nil => exact absurd rfl hk | cons => rfl
  have hr : r < n.ptrs.size := by
    have := o.ptr; rw [Array.getElem?_eq_some_iff] at this; exact this.1
  constructor <;>
  · intro h
    unfold PlainFkNlm.compare
    simp only [R.assert_dec hr, R.bind_ok, rd_of_some o.ptr, he, Bool.false_eq_true, if_false, h, R.bind_error, R.pure_eq]

/-! ### compact classes -/

theorem cmpCompact_eq {mem key : List UInt8} {off : Nat} : ∀ (n i : Nat),
    (∀ j < n, ∃ x, key[i + j]? = some x ∧ mem[off + i + j]? = some x) → cmpCompact mem off key n i = .ok none := by
  intro n
  induction n with
  | zero => intro i _; rfl
  | succ n ih =>
    intro i h
    obtain ⟨x, h1, h2⟩ := h 0 (by omega)
    rw [Nat.add_zero] at h1 h2
    simp only [cmpCompact, keyAt, h1, h2, R.bind_ok, ne_eq, not_true_eq_false, if_false]
    exact ih (i + 1) (fun j hj => by
      obtain ⟨y, y1, y2⟩ := h (j + 1) (by omega)
      exact ⟨y, by rw [← y1]; congr 1; omega, by rw [← y2]; congr 1; omega⟩)

/-- the key ends before the label -/
theorem cmpCompact_oob {mem key : List UInt8} {off : Nat} : ∀ (n i : Nat), i ≤ key.length → key.length < i + n →
    (∀ j, i + j < key.length → mem[off + i + j]? = key[i + j]?) → cmpCompact mem off key n i = .error .oob := by
  intro n
  induction n with
  | zero => intro i h1 h2 _; omega
  | succ n ih =>
    intro i h1 h2 h
    by_cases hl : i < key.length
    · have h0 := h 0 (by omega)
      rw [Nat.add_zero, Nat.add_zero, List.getElem?_eq_getElem hl] at h0
      simp only [cmpCompact, keyAt, List.getElem?_eq_getElem hl, h0, R.bind_ok, ne_eq, not_true_eq_false, if_false]
      exact ih (i + 1) hl (by omega) (fun j hj => by
        have := h (j + 1) (by omega)
        rw [show off + (i + 1) + j = off + i + (j + 1) by omega, show i + 1 + j = i + (j + 1) by omega]; exact this)
    · simp only [cmpCompact, keyAt, List.getElem?_eq_none (show key.length ≤ i by omega), R.bind_error]

/-- `compare` with the only entry of a block, whatever its bytes are -/
theorem compareMem_one {chk : Bool} {vs : Nat} {body : List UInt8} (hs : body.length + vs < 2 ^ 64) {key : List UInt8} (hk : key ≠ []) :
    (key.length ≤ body.length → key <+: body → compareMem chk vs (ent (body ++ List.replicate vs 0)) 0 key = .error .oob) ∧
    (∀ t, key = body ++ 0 :: t → compareMem chk vs (ent (body ++ List.replicate vs 0)) 0 key =
      .ok (some ((ent (body ++ List.replicate vs 0)).length - vs), body.length + 1)) := by
  have he : key.isEmpty = false := by cases key with | nil => exact absurd rfl hk | cons => rfl
  generalize hp : body ++ List.replicate vs (0 : UInt8) = p
  have hpl : p.length = body.length + vs := by rw [← hp]; simp
  have hsm : Small [p] := by intro q hq; simp at hq; subst hq; omega
  have henc : enc [p] = ent p := by simp [enc]
  have hdec := decode_at hsm (i := 0) (p := p) rfl
  simp only [List.take_zero, enc_nil, List.length_nil, List.drop_zero] at hdec
  have hsk := skip_enc hsm (n := 0) (by simp)
  simp only [List.take_zero, enc_nil, List.length_nil] at hsk
  rw [henc] at hdec hsk
  have hchk : R.assert (!chk || decide (vs ≤ p.length)) = .ok () := by
    simp [R.assert, show vs ≤ p.length by omega]
  have hsub : sub64 p.length vs = body.length := by unfold sub64; omega
  have hget : ∀ j, j < body.length → (ent p)[(vb p.length).length + 0 + j]? = body[j]? := by
    intro j hj
    rw [ent, List.getElem?_append_right (by omega), ← hp, List.getElem?_append_left (by omega)]
    congr 1; omega
  have hun : compareMem chk vs (ent p) 0 key = (do
      match ← cmpCompact (ent p) (vb p.length).length key body.length 0 with
      | some i => pure (none, i)
      | none => if (← keyAt key body.length) ≠ 0 then pure (none, body.length) else pure (some ((vb p.length).length + body.length), body.length + 1)) := by
    unfold compareMem
    rw [hsk, R.bind_ok, List.drop_zero, hdec, R.bind_ok]
    dsimp only
    rw [he, Nat.zero_add, hchk, hsub]
    rfl
  constructor
  · rintro hl ⟨t, ht⟩
    rw [hun]
    have hkey : ∀ j, j < key.length → body[j]? = key[j]? := by
      intro j hj; rw [← ht, List.getElem?_append_left hj]
    by_cases hlt : key.length < body.length
    · rw [cmpCompact_oob _ _ (Nat.zero_le _) (by omega) (fun j hj => by rw [hget j (by omega), Nat.zero_add]; exact hkey j (by omega))]
      rfl
    · rw [cmpCompact_eq _ _ (fun j hj => ⟨body[j], by rw [Nat.zero_add, ← hkey j (by omega)]; exact List.getElem?_eq_getElem hj,
        by rw [hget j hj]; exact List.getElem?_eq_getElem hj⟩)]
      simp only [R.bind_ok, keyAt, List.getElem?_eq_none (show key.length ≤ body.length by omega), R.bind_error]
  · rintro t rfl
    rw [hun, cmpCompact_eq _ _ (fun j hj => ⟨body[j], by rw [Nat.zero_add, List.getElem?_append_left hj]; exact List.getElem?_eq_getElem hj,
        by rw [hget j hj]; exact List.getElem?_eq_getElem hj⟩)]
    simp only [R.bind_ok, keyAt, List.getElem?_append_right (Nat.le_refl _), Nat.sub_self, List.getElem?_cons_zero, ne_eq, not_true_eq_false, if_false, R.pure_eq]
    congr 3
    simp only [ent, List.length_append]; omega

theorem CompactBonsaiNlm.first {W vs b r : Nat} {n0 : CompactBonsaiNlm} (hw : W = 8 ∨ W = 16 ∨ W = 32 ∨ W = 64)
    (hb : 16 ≤ b) (hm : CompactBonsaiNlm.make W b = .ok n0) (hr : r < 2 ^ b) {k : List UInt8} (hk : k ≠ []) :
    ∃ n, CompactBonsaiNlm.insert W vs n0 r k = .ok (n, ⟨.heap 0, (ent (k.dropLast ++ List.replicate vs 0)).length - vs⟩) ∧
      n.heap.B 0 = some (ent (k.dropLast ++ List.replicate vs 0)) ∧
      (∀ key o mt, compareMem false vs (ent (k.dropLast ++ List.replicate vs 0)) 0 key = .ok (some o, mt) →
        CompactBonsaiNlm.compare W vs n r key = .ok (some ⟨.heap 0, o⟩, mt)) ∧
      (∀ key, compareMem false vs (ent (k.dropLast ++ List.replicate vs 0)) 0 key = .error .oob →
        CompactBonsaiNlm.compare W vs n r key = .error .oob) := by
  have hW : 0 < W := by omega
  have hW64 : W ≤ 64 := by omega
  have hmod := Nat.mod_lt r hW
  have hdiv : r / W < 2 ^ b / W := by
    have : W ∣ 2 ^ b := by
      rcases hw with rfl | rfl | rfl | rfl
      · exact Nat.pow_dvd_pow 2 (show 3 ≤ b by omega)
      · exact Nat.pow_dvd_pow 2 (show 4 ≤ b by omega)
      · exact Nat.pow_dvd_pow 2 (show 5 ≤ b by omega)
      · exact Nat.pow_dvd_pow 2 (show 6 ≤ b by omega)
    exact Nat.div_lt_div_of_lt_of_dvd this hr
  unfold CompactBonsaiNlm.make at hm
  split at hm
  · cases hm
    obtain ⟨w', s1, s2, s3⟩ := BitTools.setBit_ok (b := true) hW64 (Nat.two_pow_pos W) hmod
    have hlen : (if k.isEmpty then 0 else k.length - 1) = k.dropLast.length := by cases k <;> simp
    have htake : k.take k.dropLast.length = k.dropLast := by rw [List.length_dropLast]; exact List.dropLast_eq_take.symm
    have hal : (ent (k.dropLast ++ List.replicate vs 0)).length = VByte.size (k.dropLast.length + vs) + k.dropLast.length + vs := by
      rw [VByte.size_eq, ent, List.length_append, List.length_append, List.length_replicate, Nat.add_assoc]
    obtain ⟨bl1, bl2, bl3⟩ := ({} : Heap).alloc_spec ((ent (k.dropLast ++ List.replicate vs 0)).length)
    have hnx : ({} : Heap).next = 0 := rfl
    rw [hnx] at bl1 bl2 bl3
    obtain ⟨k1, k2, k3, w1, w2, w3, w4, w5⟩ := CompactBonsaiNlm.writeEnt_ok (h := (({} : Heap).alloc (ent (k.dropLast ++ List.replicate vs 0)).length).1) (n := 0) (off := 0)
      (k := k.dropLast) (v := List.replicate vs 0) (b := List.replicate (ent (k.dropLast ++ List.replicate vs 0)).length 0) (by rw [bl3, if_pos rfl])
      (by simp)
    rw [List.length_replicate] at w1 w2 w3
    rw [Nat.zero_add] at w2 w3
    have hB : k3.B 0 = some (ent (k.dropLast ++ List.replicate vs 0)) := by
      rw [w5, if_pos rfl]
      simp [patch]
    have hsz : (Array.replicate (2 ^ b / W) (0 : Nat)).size = 2 ^ b / W := by simp
    have hp1 : (Array.setIfInBounds (Array.replicate (2 ^ b / W) (none : Option Nat)) (r / W) (some 0))[r / W]? = some (some 0) :=
      Array.getElem?_setIfInBounds_self_of_lt (by simpa using hdiv)
    have hp2 : (Array.setIfInBounds (Array.replicate (2 ^ b / W) 0) (r / W) w')[r / W]? = some w' :=
      Array.getElem?_setIfInBounds_self_of_lt (by simpa using hdiv)
    refine ⟨{ ptrs := (Array.replicate (2 ^ b / W) none).setIfInBounds (r / W) (some 0),
              chunks := (Array.replicate (2 ^ b / W) 0).setIfInBounds (r / W) w', heap := k3, size := 1,
              labelBytes := 0 + (ent (k.dropLast ++ List.replicate vs 0)).length,
              maxLength := max 0 k.length, sumLength := 0 + k.length }, ?_, hB, ?_, ?_⟩
    · have e1 : rd (Array.replicate (2 ^ b / W) 0) (r / W) = .ok 0 := rd_of_some (by simp [hdiv])
      have e2 : rd (Array.replicate (2 ^ b / W) (none : Option Nat)) (r / W) = .ok none := rd_of_some (by simp [hdiv])
      unfold CompactBonsaiNlm.insert
      dsimp only
      rw [e1, R.bind_ok, BitTools.getBit_ok hmod, R.bind_ok, Nat.zero_testBit, Bool.not_false, R.assert_true, R.bind_ok, s1, R.bind_ok,
        wr_of_lt (by simpa using hdiv), R.bind_ok, hlen, e2, R.bind_ok]
      simp only [htake, ← hal, bl1]
      rw [wr_of_lt (by simpa using hdiv), R.bind_ok, w1, R.bind_ok]
      simp only [w2, w3, R.bind_ok, R.pure_eq]
      congr 3
      rw [ent, List.length_append, List.length_append, List.length_replicate]; omega
    all_goals
      have hpop : BitTools.popcntMask W w' (r % W) = .ok 0 := by
        rw [BitTools.popcntMask_ok hw s2 hmod]
        congr 1
        refine cnt_zero (fun i hi => ?_)
        rw [s3, if_neg (by omega)]; exact Nat.zero_testBit i
    · intro key o mt h
      unfold CompactBonsaiNlm.compare
      simp only [rd_of_some hp1, rd_of_some hp2, R.bind_ok, BitTools.getBit_ok hmod, s3, if_true, R.assert_true, hpop, Heap.block_ok hB, h, R.pure_eq]
      rfl
    · intro key h
      unfold CompactBonsaiNlm.compare
      simp only [rd_of_some hp1, rd_of_some hp2, R.bind_ok, BitTools.getBit_ok hmod, s3, if_true, R.assert_true, hpop, Heap.block_ok hB, h, R.bind_error]
  · cases hm

theorem CompactFkNlm.first {W vs b : Nat} {n0 : CompactFkNlm}
    (hm : CompactFkNlm.make b = .ok n0) {k : List UInt8} (hk : k ≠ []) :
    ∃ n, CompactFkNlm.append W vs n0 k = .ok (n, ⟨.buf 0, (ent (k.dropLast ++ List.replicate vs 0)).length - vs⟩) ∧
      (n.chunkBuf = ent (k.dropLast ++ List.replicate vs 0) ∧ n.chunkPtrs.size = 0) ∧
      (∀ key o mt, compareMem true vs (ent (k.dropLast ++ List.replicate vs 0)) 0 key = .ok (some o, mt) →
        CompactFkNlm.compare W vs n 0 key = .ok (some ⟨.buf 0, o⟩, mt)) ∧
      (∀ key, compareMem true vs (ent (k.dropLast ++ List.replicate vs 0)) 0 key = .error .oob →
        CompactFkNlm.compare W vs n 0 key = .error .oob) := by
  unfold CompactFkNlm.make at hm
  split at hm
  · cases hm
    have hlen : (if k.isEmpty then 0 else k.length - 1) = k.dropLast.length := by cases k <;> simp
    have htake : k.take k.dropLast.length = k.dropLast := by rw [List.length_dropLast]; exact List.dropLast_eq_take.symm
    have hns : CompactFkNlm.nextSlot W {} = .ok { size := 1 } := by
      simp [CompactFkNlm.nextSlot]
    have hbuf : (VByte.append [] (k.dropLast.length + vs)).1 ++ k.dropLast ++ List.replicate vs 0 = ent (k.dropLast ++ List.replicate vs 0) := by
      simp [VByte.append, ent]
    refine ⟨{ size := 1, chunkBuf := ent (k.dropLast ++ List.replicate vs 0), maxLength := max 0 k.length, sumLength := 0 + k.length }, ?_, ⟨rfl, rfl⟩, ?_, ?_⟩
    · unfold CompactFkNlm.append
      rw [hns, R.bind_ok]
      dsimp only
      rw [hlen, htake, hbuf]
      rfl
    · intro key o mt h
      unfold CompactFkNlm.compare
      simp only [R.assert_dec (show 0 < 1 by decide), R.bind_ok, Nat.zero_div, Nat.zero_mod]
      rw [if_neg (by simp), R.assert_dec (by simp), R.bind_ok, h]
      rfl
    · intro key h
      unfold CompactFkNlm.compare
      simp only [R.assert_dec (show 0 < 1 by decide), R.bind_ok, Nat.zero_div, Nat.zero_mod]
      rw [if_neg (by simp), R.assert_dec (by simp), R.bind_ok, h]
      rfl
  · cases hm

end Poplar
