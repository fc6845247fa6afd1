import Verif.Proof.Entries
import Verif.Proof.BitTools
import Verif.Proof.BitVector
import Verif.Proof.PlainBonsaiNlm
/-
  `compact_bonsai_nlm` meets the contract `NlmSpec`.
-/
namespace Poplar
open Spec
open BitTools (ones getBit_ok setBit_ok popcnt_ok popcntMask_ok)
namespace CompactBonsaiNlm

/-! ### ranks -/

theorem ones_lt {w W p : Nat} (hp : p < W) (hb : w.testBit p = true) : ones p w < ones W w := by
  have h1 : ∀ n, p < n → ones p w < ones n w := by
    intro n
    induction n with
    | zero => intro h; omega
    | succ n ih =>
      intro h
      unfold ones at *
      simp only [cnt]
      by_cases e : p = n
      · subst e; simp [hb]
      · have := ih (by omega); omega
  exact h1 W hp

theorem ones_le_ones {w q W : Nat} (h : q ≤ W) : ones q w ≤ ones W w := by
  induction W with
  | zero => have : q = 0 := by omega
            subst this; exact Nat.le_refl _
  | succ n ih =>
    by_cases e : q = n + 1
    · rw [e]
    · have h1 := ih (by omega)
      have h2 : ones n w ≤ ones (n + 1) w := by unfold ones; simp only [cnt]; omega
      omega

theorem ones_setBit {w w' p : Nat} (hb : w.testBit p = false) (h : ∀ j, w'.testBit j = if j = p then true else w.testBit j) (q : Nat) :
    ones q w' = ones q w + (if p < q then 1 else 0) := by
  induction q with
  | zero => simp [ones, cnt]
  | succ q ih =>
    have hs : ∀ x, ones (q + 1) x = ones q x + (if x.testBit q then 1 else 0) := fun x => rfl
    rw [hs, hs, ih, h]
    by_cases e : q = p
    · subst e; simp [hb]
    · rw [if_neg e]
      by_cases e2 : p < q
      · simp only [if_pos e2, if_pos (show p < q + 1 by omega)]; omega
      · simp only [if_neg e2, if_neg (show ¬ p < q + 1 by omega)]; omega

/-- entry of slot `p` of a chunk -/
def look (w : Nat) (ps : List (List UInt8)) (p : Nat) : Option (List UInt8) :=
  if w.testBit p then ps[ones p w]? else none

/-- new entry at rank `k` -/
def splice (ps : List (List UInt8)) (k : Nat) (x : List UInt8) : List (List UInt8) := ps.take k ++ x :: ps.drop k

theorem look_splice {w w' p W : Nat} {ps : List (List UInt8)} {x : List UInt8} (hlen : ones W w = ps.length) (hp : p < W)
    (hb : w.testBit p = false) (h : ∀ j, w'.testBit j = if j = p then true else w.testBit j) {q : Nat} :
    look w' (splice ps (ones p w) x) q = if q = p then some x else look w ps q := by
  have hk : ones p w ≤ ps.length := by rw [← hlen]; exact ones_le_ones (by omega)
  have htk : (ps.take (ones p w)).length = ones p w := by simp; omega
  unfold look splice
  rw [h]
  by_cases e : q = p
  · subst e
    rw [if_pos rfl, if_pos rfl, if_pos rfl, ones_setBit hb h, if_neg (by omega), Nat.add_zero, List.getElem?_append_right (by omega), htk]
    simp
  · rw [if_neg e, if_neg e]
    by_cases hq : w.testBit q = true
    · rw [if_pos hq, if_pos hq, ones_setBit hb h]
      by_cases e2 : p < q
      · rw [if_pos e2]
        have : ones p w ≤ ones q w := ones_le_ones (by omega)
        rw [List.getElem?_append_right (by omega), htk, show ones q w + 1 - ones p w = (ones q w - ones p w) + 1 by omega,
          List.getElem?_cons_succ, List.getElem?_drop]
        congr 1; omega
      · rw [if_neg e2, Nat.add_zero]
        have : ones q w < ones p w := ones_lt (by omega) hq
        rw [List.getElem?_append_left (by omega), List.getElem?_take_of_lt this]
    · rw [if_neg hq, if_neg hq]

/-! ### chunks -/

structure Ck (W vs : Nat) (h : Heap) (ptr : Option Nat) (w : Nat) (ps : List (List UInt8)) : Prop where
  wlt : w < 2 ^ W
  len : ones W w = ps.length
  pay : ∀ p ∈ ps, PayOk vs p
  emp : ptr = none → ps = []
  mem : ∀ a, ptr = some a → h.B a = some (enc ps)

theorem Ck.small {W vs : Nat} {h : Heap} {ptr : Option Nat} {w : Nat} {ps : List (List UInt8)} (k : Ck W vs h ptr w ps) : Small ps := by
  intro p hp
  have := (k.pay p hp).small; omega

structure Ob (W vs : Nat) (ptrs : Array (Option Nat)) (chunks : Array Nat) (h : Heap) (g : Nat → List (List UInt8)) : Prop where
  sz : chunks.size = ptrs.size
  ck : ∀ (c : Nat) ptr w, ptrs[c]? = some ptr → chunks[c]? = some w → Ck W vs h ptr w (g c)
  inj : ∀ (i j : Nat) (a : Nat), ptrs[i]? = some (some a) → ptrs[j]? = some (some a) → i = j

def cL (W vs : Nat) (ptrs : Array (Option Nat)) (chunks : Array Nat) (h : Heap) (i : Nat) (e : Bool) : Option (List UInt8 × List UInt8) :=
  (chunks[i / W]?).bind fun w => ((ptrs[i / W]?).join).bind fun a => (h.B a).bind fun mem =>
    if w.testBit (i % W) then (payAt mem (ones (i % W) w)).bind (fun y => payL vs y.2 e) else none

def cAt (W vs : Nat) (ptrs : Array (Option Nat)) (chunks : Array Nat) (h : Heap) (l : Loc) (i : Nat) : Prop :=
  ∃ a w mem o p, ptrs[i / W]? = some (some a) ∧ chunks[i / W]? = some w ∧ h.B a = some mem ∧ w.testBit (i % W) = true ∧
    payAt mem (ones (i % W) w) = some (o, p) ∧ vs ≤ p.length ∧ l = ⟨.heap a, o + (p.length - vs)⟩

variable {W vs : Nat} {ptrs : Array (Option Nat)} {chunks : Array Nat} {h : Heap} {g : Nat → List (List UInt8)}

theorem cL_out (hW : 0 < W) {i : Nat} (hi : ptrs.size * W ≤ i) (e : Bool) : cL W vs ptrs chunks h i e = none := by
  have : ptrs.size ≤ i / W := (Nat.le_div_iff_mul_le hW).2 hi
  unfold cL
  rw [Array.getElem?_eq_none this]
  cases chunks[i / W]? <;> rfl

theorem Ob.at (ho : Ob W vs ptrs chunks h g) (hW : 0 < W) {i : Nat} (hi : i < ptrs.size * W) :
    ∃ ptr w, i / W < ptrs.size ∧ ptrs[i / W]? = some ptr ∧ chunks[i / W]? = some w ∧ Ck W vs h ptr w (g (i / W)) ∧
      (∀ e, cL W vs ptrs chunks h i e = (look w (g (i / W)) (i % W)).bind (fun p => payL vs p e)) := by
  have hc : i / W < ptrs.size := (Nat.div_lt_iff_lt_mul hW).2 hi
  have h1 : ptrs[i / W]? = some ptrs[i / W] := Array.getElem?_eq_getElem hc
  have h2 : chunks[i / W]? = some (chunks[i / W]'(by rw [ho.sz]; exact hc)) := Array.getElem?_eq_getElem _
  have hck := ho.ck _ _ _ h1 h2
  refine ⟨_, _, hc, h1, h2, hck, ?_⟩
  intro e
  unfold cL look
  rw [h1, h2]
  simp only [Option.bind_some]
  generalize chunks[i / W]'(by rw [ho.sz]; exact hc) = w at *
  by_cases hb : w.testBit (i % W) = true
  · have hlt : ones (i % W) w < (g (i / W)).length := by rw [← hck.len]; exact ones_lt (Nat.mod_lt _ hW) hb
    cases hp : ptrs[i / W] with
    | none => rw [hck.emp hp] at hlt; simp at hlt
    | some a =>
      simp only [Option.join_some, Option.bind_some, hck.mem a hp, if_pos hb]
      rw [payAt_some hck.small (List.getElem?_eq_getElem hlt), List.getElem?_eq_getElem hlt]
      rfl
  · simp only [if_neg hb]
    cases ptrs[i / W] with
    | none => rfl
    | some a => cases h.B a <;> simp

/-- facts about a node with a label -/
theorem Ob.isSome (ho : Ob W vs ptrs chunks h g) (hW : 0 < W) {i : Nat} {e : Bool} {l v : List UInt8}
    (hL : cL W vs ptrs chunks h i e = some (l, v)) :
    i < ptrs.size * W ∧ ∃ a w p, ptrs[i / W]? = some (some a) ∧ chunks[i / W]? = some w ∧ Ck W vs h (some a) w (g (i / W)) ∧
      h.B a = some (enc (g (i / W))) ∧ w.testBit (i % W) = true ∧ (g (i / W))[ones (i % W) w]? = some p ∧ PayOk vs p ∧ payL vs p e = some (l, v) := by
  have hi : i < ptrs.size * W := by
    by_contra hc
    rw [cL_out hW (by omega)] at hL; cases hL
  obtain ⟨ptr, w, h1, h2, h3, h4, h5⟩ := ho.at hW hi
  rw [h5] at hL
  unfold look at hL
  by_cases hb : w.testBit (i % W) = true
  · rw [if_pos hb] at hL
    have hlt : ones (i % W) w < (g (i / W)).length := by rw [← h4.len]; exact ones_lt (Nat.mod_lt _ hW) hb
    rw [List.getElem?_eq_getElem hlt] at hL
    cases ptr with
    | none => rw [h4.emp rfl] at hlt; simp at hlt
    | some a =>
      exact ⟨hi, a, w, _, h2, h3, h4, h4.mem a rfl, hb, List.getElem?_eq_getElem hlt, h4.pay _ (List.getElem_mem hlt), hL⟩
  · rw [if_neg hb] at hL; cases hL

/-- a node without a label has its bit unset -/
theorem Ob.bit_none (ho : Ob W vs ptrs chunks h g) (hW : 0 < W) {i : Nat} (hi : i < ptrs.size * W)
    (hL : ∀ e, cL W vs ptrs chunks h i e = none) {w : Nat} (hw : chunks[i / W]? = some w) : w.testBit (i % W) = false := by
  obtain ⟨ptr, w', h1, h2, h3, h4, h5⟩ := ho.at hW hi
  rw [hw] at h3; cases h3
  by_contra hb
  have hb : w.testBit (i % W) = true := by simpa using hb
  have := hL false
  rw [h5, look, if_pos hb] at this
  have hlt : ones (i % W) w < (g (i / W)).length := by rw [← h4.len]; exact ones_lt (Nat.mod_lt _ hW) hb
  rw [List.getElem?_eq_getElem hlt] at this
  have hp := (h4.pay _ (List.getElem_mem hlt)).len
  simp [payL, hp] at this

theorem compare_ok {m : CompactBonsaiNlm} (hw : W = 8 ∨ W = 16 ∨ W = 32 ∨ W = 64) (ho : Ob W vs m.ptrs m.chunks m.heap g) {i : Nat} {e : Bool}
    {l v : List UInt8} (hL : cL W vs m.ptrs m.chunks m.heap i e = some (l, v)) {key : List UInt8} (he : Sep key l) :
    (key = l → ∃ p, compare W vs m i key = .ok (some p, key.length) ∧ cAt W vs m.ptrs m.chunks m.heap p i) ∧
    (key ≠ l → compare W vs m i key = .ok (none, lcp key l)) := by
  have hW : 0 < W := by omega
  obtain ⟨hi, a, w, p, h1, h2, h3, h4, h5, h6, h7, h8⟩ := ho.isSome hW hL
  obtain ⟨c1, c2⟩ := compareMem_ok (chk := false) h3.small h6 h7 h8 he
  have hm := Nat.mod_lt i hW
  have main : ∀ r n, compareMem false vs (enc (g (i / W))) (ones (i % W) w) key = .ok (r, n) →
      compare W vs m i key = .ok (r.map (fun o => ⟨.heap a, o⟩), n) := by
    intro r n hr
    unfold compare
    simp only [rd_of_some h1, rd_of_some h2, R.bind_ok, getBit_ok hm, h5, R.assert_true, popcntMask_ok hw h3.wlt hm, Heap.block_ok h4, hr, R.pure_eq]
  constructor
  · intro hkl
    exact ⟨_, main _ _ (c1 hkl), a, w, _, _, p, h1, h2, h4, h5, payAt_some h3.small h6, h7.len, rfl⟩
  · intro hkl; exact main _ _ (c2 hkl)

theorem compare_none {m : CompactBonsaiNlm} (hw : W = 8 ∨ W = 16 ∨ W = 32 ∨ W = 64) (ho : Ob W vs m.ptrs m.chunks m.heap g) {i : Nat}
    (hi : i < m.ptrs.size * W) (hL : cL W vs m.ptrs m.chunks m.heap i false = none) (key : List UInt8) :
    compare W vs m i key = .error .assertion := by
  have hW : 0 < W := by omega
  obtain ⟨ptr, w, h1, h2, h3, h4, h5⟩ := ho.at hW hi
  have hm := Nat.mod_lt i hW
  have hb : w.testBit (i % W) = false := by
    refine ho.bit_none hW hi (fun e => ?_) h3
    cases e with
    | false => exact hL
    | true =>
      rw [h5] at hL ⊢
      cases hl : look w (g (i / W)) (i % W) with
      | none => rfl
      | some p =>
        rw [hl] at hL
        simp only [Option.bind_some, payL] at hL ⊢
        split at hL
        · simp at hL
        · rename_i hn; rw [if_neg hn]
  unfold compare
  simp only [rd_of_some h2, R.bind_ok]
  cases ptr with
  | none => rfl
  | some a => simp only [rd_of_some h3, R.bind_ok, getBit_ok hm, hb]; rfl

/-! ### the scan of `get_allocs_` -/

theorem allocsLoop_ok {ps : List (List UInt8)} (hs : Small ps) (k : Nat) : ∀ (n i : Nat), i + n = ps.length →
    allocsLoop (enc ps) k n i (enc (ps.take i)).length (enc (ps.take (min i k))).length (enc ((ps.take i).drop k)).length =
      .ok ((enc (ps.take k)).length, (enc (ps.drop k)).length) := by
  intro n
  induction n with
  | zero =>
    intro i hi
    have : i = ps.length := by omega
    subst this
    simp only [allocsLoop, List.take_length]
    congr 3
    rcases Nat.le_total ps.length k with h | h
    · rw [Nat.min_eq_left h, List.take_length, List.take_of_length_le h]
    · rw [Nat.min_eq_right h]
  | succ n ih =>
    intro i hi
    have hlt : i < ps.length := by omega
    have hg : ps[i]? = some ps[i] := List.getElem?_eq_getElem hlt
    have ht : ps.take (i + 1) = ps.take i ++ [ps[i]] := by rw [List.take_succ_eq_append_getElem hlt]
    have hlen : (enc (ps.take (i + 1))).length = (enc (ps.take i)).length + (ps[i].length + (vb ps[i].length).length) := by
      rw [ht, enc_append]; simp [enc, ent]; omega
    simp only [allocsLoop, decode_at hs hg, R.bind_ok]
    rw [← hlen]
    by_cases hik : i < k
    · rw [if_pos hik]
      have := ih (i + 1) (by omega)
      rw [Nat.min_eq_left (show i + 1 ≤ k by omega)] at this
      rw [Nat.min_eq_left (show i ≤ k by omega), ← hlen]
      have hd : ∀ j, j ≤ k → (ps.take j).drop k = [] := by
        intro j hj; apply List.drop_eq_nil_of_le; simp; omega
      rw [hd (i + 1) (by omega)] at this
      rw [hd i (by omega)]
      exact this
    · rw [if_neg hik]
      have := ih (i + 1) (by omega)
      rw [Nat.min_eq_right (show k ≤ i + 1 by omega)] at this
      rw [Nat.min_eq_right (show k ≤ i by omega)]
      have hd : (enc ((ps.take (i + 1)).drop k)).length = (enc ((ps.take i).drop k)).length + (ps[i].length + (vb ps[i].length).length) := by
        rw [ht, List.drop_append_of_le_length (by simp; omega), enc_append]; simp [enc, ent]; omega
      rw [hd] at this
      exact this

theorem sub64_one {n : Nat} (h : n < 65) : sub64 (n + 1) 1 = n := by unfold sub64; omega

theorem getAllocs_ok (hw : W = 8 ∨ W = 16 ∨ W = 32 ∨ W = 64) {a w w' p : Nat} {ps : List (List UInt8)} (hck : Ck W vs h (some a) w ps) (hp : p < W)
    (hb : w.testBit p = false) (hlt : w' < 2 ^ W) (hb' : ∀ j, w'.testBit j = if j = p then true else w.testBit j) :
    getAllocs W h a w' p = .ok ((enc (ps.take (ones p w))).length, (enc (ps.drop (ones p w))).length) := by
  have h1 : ones W w' = ps.length + 1 := by rw [ones_setBit hb hb', if_pos hp, hck.len]
  have h2 : ones p w' = ones p w := by rw [ones_setBit hb hb', if_neg (by omega)]; rfl
  have h3 : ps.length + 1 ≤ W := by rw [← h1]; exact BitTools.ones_le _ _
  have h4 : w'.testBit p = true := by rw [hb']; simp
  have h5 : sub64 (ps.length + 1) 1 = ps.length := sub64_one (by omega)
  unfold getAllocs
  rw [getBit_ok hp, R.bind_ok, h4, R.assert_true, R.bind_ok, popcnt_ok hw hlt, R.bind_ok, popcntMask_ok hw hlt hp, R.bind_ok,
    Heap.block_ok (hck.mem a rfl), R.bind_ok, h1, h2, h5]
  have := allocsLoop_ok hck.small (ones p w) ps.length 0 (by omega)
  rw [Nat.zero_min, List.take_zero, List.drop_nil, enc_nil, List.length_nil] at this
  exact this

/-! ### adding an entry -/

/-- The heap after the block of a chunk has been replaced by a new one. -/
def Repl (h h' : Heap) (ptr : Option Nat) (n : Nat) (bs : List UInt8) : Prop :=
  h.next < h'.next ∧ ∀ y, h'.B y = if y = n then some bs else if some y = ptr then none else h.B y

theorem fresh_none (h : Heap) {n : Nat} (hn : h.next ≤ n) : h.B n = none := by
  cases hb : h.B n with
  | none => rfl
  | some b => have := Heap.B_lt hb; omega

theorem Ob.put (ho : Ob W vs ptrs chunks h g) (hW : 0 < W) {i : Nat} (hi : i < ptrs.size * W) {ptr : Option Nat} {w w' : Nat}
    (h1 : ptrs[i / W]? = some ptr) (h2 : chunks[i / W]? = some w) (hb : w.testBit (i % W) = false) (hlt : w' < 2 ^ W)
    (hb' : ∀ j, w'.testBit j = if j = i % W then true else w.testBit j) {x : List UInt8} (hx : PayOk vs x) {h' : Heap}
    (hr : Repl h h' ptr h.next (enc (splice (g (i / W)) (ones (i % W) w) x))) :
    Ob W vs (ptrs.setIfInBounds (i / W) (some h.next)) (chunks.setIfInBounds (i / W) w') h'
      (gset g (i / W) (splice (g (i / W)) (ones (i % W) w) x)) ∧
    (∀ e, cL W vs (ptrs.setIfInBounds (i / W) (some h.next)) (chunks.setIfInBounds (i / W) w') h' i e = payL vs x e) ∧
    (∀ j e, j ≠ i → cL W vs (ptrs.setIfInBounds (i / W) (some h.next)) (chunks.setIfInBounds (i / W) w') h' j e = cL W vs ptrs chunks h j e) := by
  have hc : i / W < ptrs.size := (Nat.div_lt_iff_lt_mul hW).2 hi
  have hck := ho.ck _ _ _ h1 h2
  have hm := Nat.mod_lt i hW
  have hps : ∀ c, (ptrs.setIfInBounds (i / W) (some h.next))[c]? = if c = i / W then some (some h.next) else ptrs[c]? := by
    intro c
    by_cases e : c = i / W
    · subst e; rw [Array.getElem?_setIfInBounds_self_of_lt hc, if_pos rfl]
    · rw [Array.getElem?_setIfInBounds_ne (Ne.symm e), if_neg e]
  have hcs : ∀ c, (chunks.setIfInBounds (i / W) w')[c]? = if c = i / W then some w' else chunks[c]? := by
    intro c
    by_cases e : c = i / W
    · subst e; rw [Array.getElem?_setIfInBounds_self_of_lt (by rw [ho.sz]; exact hc), if_pos rfl]
    · rw [Array.getElem?_setIfInBounds_ne (Ne.symm e), if_neg e]
  have hold : ∀ (c : Nat) (a : Nat), ptrs[c]? = some (some a) → a ≠ h.next ∧ a < h.next := by
    intro c a hca
    have hclt : c < ptrs.size := by
      by_contra hcc; rw [Array.getElem?_eq_none (by omega)] at hca; cases hca
    have := (ho.ck c _ _ hca (Array.getElem?_eq_getElem (by rw [ho.sz]; exact hclt))).mem a rfl
    have := Heap.B_lt this
    omega
  have hob : Ob W vs (ptrs.setIfInBounds (i / W) (some h.next)) (chunks.setIfInBounds (i / W) w') h'
      (gset g (i / W) (splice (g (i / W)) (ones (i % W) w) x)) := by
    refine ⟨by simp [ho.sz], ?_, ?_⟩
    · intro c ptr' w'' hp hw
      rw [hps] at hp; rw [hcs] at hw
      by_cases e : c = i / W
      · subst e
        rw [if_pos rfl] at hp hw
        cases hp; cases hw
        rw [gset_same]
        refine ⟨hlt, ?_, ?_, (by intro e; cases e), ?_⟩
        · rw [ones_setBit hb hb', if_pos hm, hck.len]
          have : ones (i % W) w ≤ (g (i / W)).length := by rw [← hck.len]; exact ones_le_ones (by omega)
          simp only [splice, List.length_append, List.length_take, List.length_cons, List.length_drop]; omega
        · intro p hp
          simp only [splice, List.mem_append, List.mem_cons] at hp
          rcases hp with hp | rfl | hp
          · exact hck.pay p (List.mem_of_mem_take hp)
          · exact hx
          · exact hck.pay p (List.mem_of_mem_drop hp)
        · intro a ha; cases ha; rw [hr.2, if_pos rfl]
      · rw [if_neg e] at hp hw
        rw [gset_ne _ _ e]
        have hck' := ho.ck c _ _ hp hw
        refine ⟨hck'.wlt, hck'.len, hck'.pay, hck'.emp, ?_⟩
        rintro a rfl
        rw [hr.2, if_neg (hold c a hp).1, if_neg]
        · exact hck'.mem a rfl
        · rintro rfl; exact e (ho.inj c _ a hp h1)
    · intro c c' a hca hca'
      rw [hps] at hca hca'
      split at hca <;> split at hca'
      · omega
      · cases hca; exact absurd rfl (hold c' _ hca').1
      · cases hca'; exact absurd rfl (hold c _ hca).1
      · exact ho.inj c c' a hca hca'
  have hsz : (ptrs.setIfInBounds (i / W) (some h.next)).size = ptrs.size := by simp
  have key : ∀ j, j < ptrs.size * W → ∀ e, cL W vs (ptrs.setIfInBounds (i / W) (some h.next)) (chunks.setIfInBounds (i / W) w') h' j e =
      if j = i then payL vs x e else cL W vs ptrs chunks h j e := by
    intro j hj e
    obtain ⟨p1, w1, a1, a2, a3, a4, a5⟩ := hob.at hW (i := j) (by rw [hsz]; exact hj)
    obtain ⟨p2, w2, b1, b2, b3, b4, b5⟩ := ho.at hW hj
    rw [a5, b5]
    by_cases ec : j / W = i / W
    · rw [ec, gset_same]
      rw [hcs, ec, if_pos rfl] at a3; cases a3
      rw [ec, h2] at b3; cases b3
      rw [look_splice hck.len hm hb hb']
      by_cases ej : j = i
      · subst ej; rw [if_pos rfl, if_pos rfl]; rfl
      · rw [if_neg ej, if_neg]
        intro hmm; apply ej
        rw [← Nat.div_add_mod j W, ← Nat.div_add_mod i W, ec, hmm]
    · rw [gset_ne _ _ ec]
      rw [hcs, if_neg ec] at a3
      rw [b3] at a3; cases a3
      rw [if_neg (by rintro rfl; exact ec rfl)]
  refine ⟨hob, fun e => by rw [key i hi, if_pos rfl], ?_⟩
  intro j e hj
  by_cases hjl : j < ptrs.size * W
  · rw [key j hjl, if_neg hj]
  · rw [cL_out (ptrs := ptrs) hW (by omega)]; exact cL_out hW (by rw [hsz]; omega) e

theorem patch_three {n : Nat} {f e b : List UInt8} (hn : n = f.length + e.length + b.length) :
    patch (patch (patch (List.replicate n 0) 0 f) f.length e) (f.length + e.length) b = f ++ e ++ b := by
  subst hn
  have e1 : patch (List.replicate (f.length + e.length + b.length) 0) 0 f = f ++ List.replicate (e.length + b.length) 0 := by
    have : List.replicate (f.length + e.length + b.length) (0 : UInt8) = [] ++ List.replicate f.length 0 ++ List.replicate (e.length + b.length) 0 := by
      simp [Nat.add_assoc]
    rw [this, patch_app (off := 0) (List.length_nil) (by simp)]; simp
  have e2 : patch (f ++ List.replicate (e.length + b.length) 0) f.length e = f ++ e ++ List.replicate b.length 0 := by
    have : f ++ List.replicate (e.length + b.length) (0 : UInt8) = f ++ List.replicate e.length 0 ++ List.replicate b.length 0 := by simp
    rw [this, patch_app rfl (by simp)]
  have e3 : patch (f ++ e ++ List.replicate b.length 0) (f.length + e.length) b = f ++ e ++ b := by
    have : f ++ e ++ List.replicate b.length (0 : UInt8) = (f ++ e) ++ List.replicate b.length 0 ++ [] := by simp
    rw [this, patch_app (by simp) (by simp)]; simp
  rw [e1, e2, e3]

theorem patch_patch {b xs ys : List UInt8} {off : Nat} (hl : off + xs.length + ys.length ≤ b.length) :
    patch (patch b off xs) (off + xs.length) ys = patch b off (xs ++ ys) := by
  have h1 : b = b.take off ++ (b.drop off).take xs.length ++ ((b.drop (off + xs.length)).take ys.length ++ b.drop (off + xs.length + ys.length)) := by
    conv_lhs => rw [← List.take_append_drop off b, ← List.take_append_drop xs.length (b.drop off), List.drop_drop,
      ← List.take_append_drop ys.length (b.drop (off + xs.length)), List.drop_drop]
    simp
  have l1 : (b.take off).length = off := by simp; omega
  have l2 : ((b.drop off).take xs.length).length = xs.length := by simp; omega
  have l3 : ((b.drop (off + xs.length)).take ys.length).length = ys.length := by simp; omega
  conv_lhs => rw [h1]
  conv_rhs => rw [h1]
  rw [patch_app l1 l2]
  generalize (b.drop off).take xs.length = m1 at *
  generalize (b.drop (off + xs.length)).take ys.length = m2 at *
  generalize b.drop (off + xs.length + ys.length) = r at *
  generalize b.take off = f at *
  rw [show f ++ xs ++ (m2 ++ r) = (f ++ xs) ++ m2 ++ r by simp, patch_app (by simp [l1]) l3,
    show f ++ m1 ++ (m2 ++ r) = f ++ (m1 ++ m2) ++ r by simp, patch_app l1 (by simp [l2, l3])]
  simp

/-- writing one entry -/
theorem writeEnt_ok {n off : Nat} {k v b : List UInt8} (hb : h.B n = some b) (hl : off + (ent (k ++ v)).length ≤ b.length) :
    ∃ h1 h2 h3, h.encode n off (k.length + v.length) = .ok (h1, (vb (k.length + v.length)).length) ∧
      h1.copyIn n (off + (vb (k.length + v.length)).length) k = .ok h2 ∧
      h2.copyIn n (off + (vb (k.length + v.length)).length + k.length) v = .ok h3 ∧ h3.next = h.next ∧
      ∀ y, h3.B y = if y = n then some (patch b off (ent (k ++ v))) else h.B y := by
  have hlen : (ent (k ++ v)).length = (vb (k.length + v.length)).length + k.length + v.length := by
    simp only [ent, List.length_append]; omega
  rw [hlen] at hl
  obtain ⟨h1, a1, a2, a3⟩ := Heap.encode_ok (val := k.length + v.length) (off := off) hb (by show off + (vb (k.length + v.length)).length ≤ _; omega)
  have hb1 : h1.B n = some (patch b off (vb (k.length + v.length))) := by rw [a3, if_pos rfl]
  have pl1 := patch_length (b := b) (off := off) (xs := vb (k.length + v.length)) (by omega)
  obtain ⟨h2, b1, b2, b3⟩ := Heap.copyIn_ok k hb1 (off := off + (vb (k.length + v.length)).length) (by omega)
  have hb2 : h2.B n = some (patch (patch b off (vb (k.length + v.length))) (off + (vb (k.length + v.length)).length) k) := by rw [b3, if_pos rfl]
  rw [patch_patch (by omega)] at hb2
  have pl2 := patch_length (b := b) (off := off) (xs := vb (k.length + v.length) ++ k) (by simp only [List.length_append]; omega)
  obtain ⟨h3, c1, c2, c3⟩ := Heap.copyIn_ok v hb2 (off := off + (vb (k.length + v.length)).length + k.length) (by omega)
  refine ⟨h1, h2, h3, a1, b1, c1, by rw [c2, b2, a2], ?_⟩
  intro y
  rw [c3, b3, a3]
  have e : patch (patch b off (vb (k.length + v.length) ++ k)) (off + (vb (k.length + v.length)).length + k.length) v = patch b off (ent (k ++ v)) := by
    have := patch_patch (b := b) (off := off) (xs := vb (k.length + v.length) ++ k) (ys := v) (by simp only [List.length_append]; omega)
    rw [List.length_append, ← Nat.add_assoc] at this
    rw [this, ent, List.length_append]; simp
  rw [e]
  split <;> rfl

theorem enc_splice (ps : List (List UInt8)) (k : Nat) (x : List UInt8) :
    enc (splice ps k x) = enc (ps.take k) ++ ent x ++ enc (ps.drop k) := by
  rw [splice, enc_append, enc_cons]; simp

theorem Ck.none_facts {w p : Nat} {ps : List (List UInt8)} (hck : Ck W vs h none w ps) : ps = [] ∧ ∀ x, splice ps (ones p w) x = [x] := by
  have := hck.emp rfl
  subst this
  exact ⟨rfl, fun x => by simp [splice]⟩

theorem split_enc (ps : List (List UInt8)) (k : Nat) :
    (enc ps).length = (enc (ps.take k)).length + (enc (ps.drop k)).length ∧
    ((enc ps).drop 0).take (enc (ps.take k)).length = enc (ps.take k) ∧
    ((enc ps).drop (enc (ps.take k)).length).take (enc (ps.drop k)).length = enc (ps.drop k) := by
  rw [enc_split ps k]
  refine ⟨by simp, ?_, ?_⟩
  · rw [List.drop_zero]; exact List.take_left' rfl
  · rw [List.drop_left' rfl]; exact List.take_of_length_le (Nat.le_refl _)

/-- `insert` -/
theorem insert_ok {m : CompactBonsaiNlm} (hw : W = 8 ∨ W = 16 ∨ W = 32 ∨ W = 64) (ho : Ob W vs m.ptrs m.chunks m.heap g) {i : Nat}
    (hi : i < m.ptrs.size * W) (hL : ∀ e, cL W vs m.ptrs m.chunks m.heap i e = none) {key : List UInt8} (hk : OkLabel vs key) (hv2 : vs + 1 < 2 ^ 64) :
    ∃ m' g' q, insert W vs m i key = .ok (m', q) ∧ m'.ptrs.size = m.ptrs.size ∧ Ob W vs m'.ptrs m'.chunks m'.heap g' ∧
      cAt W vs m'.ptrs m'.chunks m'.heap q i ∧
      cL W vs m'.ptrs m'.chunks m'.heap i key.isEmpty = some (key, List.replicate vs 0) ∧
      ∀ j e, j ≠ i → cL W vs m'.ptrs m'.chunks m'.heap j e = cL W vs m.ptrs m.chunks m.heap j e := by
  have hW : 0 < W := by omega
  have hW64 : W ≤ 64 := by omega
  obtain ⟨ptr, w, hc, h1, h2, hck, hLi⟩ := ho.at hW hi
  have hb := ho.bit_none hW hi hL h2
  have hm := Nat.mod_lt i hW
  obtain ⟨w', s1, s2, s3⟩ := setBit_ok (b := true) hW64 hck.wlt hm
  have hmk := mkPay_ok hk (v := List.replicate vs 0) (by simp) hv2
  have hlen : (if key.isEmpty then 0 else key.length - 1) = key.length - 1 := by cases key <;> simp
  have htake : key.take (key.length - 1) = key.dropLast := List.dropLast_eq_take.symm
  have hkl : key.dropLast.length = key.length - 1 := by simp
  have hxl : (mkPay key (List.replicate vs 0)).length = key.length - 1 + vs := by simp [mkPay]
  have hentl : (ent (mkPay key (List.replicate vs 0))).length = VByte.size (key.length - 1 + vs) + (key.length - 1) + vs := by
    rw [VByte.size_eq, ent, List.length_append, hxl, Nat.add_assoc]
  have hcc : i / W < m.chunks.size := by rw [ho.sz]; exact hc
  -- the block once it has been written
  have fin : ∀ h' off, Repl m.heap h' ptr m.heap.next (enc (splice (g (i / W)) (ones (i % W) w) (mkPay key (List.replicate vs 0)))) →
      insert W vs m i key = .ok ({ ptrs := m.ptrs.setIfInBounds (i / W) (some m.heap.next), chunks := m.chunks.setIfInBounds (i / W) w', heap := h', size := m.size + 1, labelBytes := m.labelBytes + (ent (mkPay key (List.replicate vs 0))).length, maxLength := max m.maxLength key.length, sumLength := m.sumLength + key.length }, ⟨.heap m.heap.next, off⟩) →
      off = (enc ((g (i / W)).take (ones (i % W) w))).length + (vb (key.length - 1 + vs)).length + (key.length - 1) →
      ∃ m' g' q, insert W vs m i key = .ok (m', q) ∧ m'.ptrs.size = m.ptrs.size ∧ Ob W vs m'.ptrs m'.chunks m'.heap g' ∧
      cAt W vs m'.ptrs m'.chunks m'.heap q i ∧
      cL W vs m'.ptrs m'.chunks m'.heap i key.isEmpty = some (key, List.replicate vs 0) ∧
      ∀ j e, j ≠ i → cL W vs m'.ptrs m'.chunks m'.heap j e = cL W vs m.ptrs m.chunks m.heap j e := by
    intro h' off hr hins hoff
    obtain ⟨o1, o2, o3⟩ := ho.put hW hi h1 h2 hb s2 s3 hmk.1 hr
    refine ⟨_, _, _, hins, by simp, o1, ?_, ?_, o3⟩
    · obtain ⟨_, a', w'', p, q1, q2, q3, q4, q5, q6, q7, q8⟩ := o1.isSome hW ((o2 key.isEmpty).trans hmk.2)
      rw [Array.getElem?_setIfInBounds_self_of_lt hc] at q1; cases q1
      rw [Array.getElem?_setIfInBounds_self_of_lt hcc] at q2; cases q2
      rw [gset_same] at q3 q4 q6
      have hrk : ones (i % W) w' = ones (i % W) w := by rw [ones_setBit hb s3, if_neg (by omega)]; rfl
      have hkle : ones (i % W) w ≤ (g (i / W)).length := by rw [← hck.len]; exact ones_le_ones (by omega)
      have htl : ((g (i / W)).take (ones (i % W) w)).length = ones (i % W) w := by simp; omega
      have hp : p = mkPay key (List.replicate vs 0) := by
        rw [hrk, splice, List.getElem?_append_right (by omega), htl] at q6
        simpa using q6.symm
      subst hp
      have hpo : poff (splice (g (i / W)) (ones (i % W) w) (mkPay key (List.replicate vs 0))) (ones (i % W) w') (mkPay key (List.replicate vs 0)) =
          (enc ((g (i / W)).take (ones (i % W) w))).length + (vb (key.length - 1 + vs)).length := by
        rw [poff, hxl, hrk, splice, List.take_left' htl]
      refine ⟨_, _, _, _, _, Array.getElem?_setIfInBounds_self_of_lt hc, Array.getElem?_setIfInBounds_self_of_lt hcc, q4, q5,
        payAt_some q3.small q6, q7.len, ?_⟩
      rw [hpo, hoff, hxl]
      congr 1; omega
    · rw [o2]; exact hmk.2
  obtain ⟨al1, al2, al3⟩ := m.heap.alloc_spec ((enc ((g (i / W)).take (ones (i % W) w))).length + (ent (mkPay key (List.replicate vs 0))).length
    + (enc ((g (i / W)).drop (ones (i % W) w))).length)
  have hvs : (List.replicate vs (0 : UInt8)).length = vs := by simp
  cases ptr with
  | none =>
    obtain ⟨e1, e2⟩ := hck.none_facts (p := i % W)
    obtain ⟨bl1, bl2, bl3⟩ := m.heap.alloc_spec ((ent (mkPay key (List.replicate vs 0))).length)
    obtain ⟨k1, k2, k3, w1, w2, w3, w4, w5⟩ := writeEnt_ok (h := (m.heap.alloc (ent (mkPay key (List.replicate vs 0))).length).1) (n := m.heap.next) (off := 0)
      (k := key.dropLast) (v := List.replicate vs 0) (b := List.replicate (ent (mkPay key (List.replicate vs 0))).length 0) (by rw [bl3, if_pos rfl])
      (by simp [mkPay])
    rw [hkl, hvs] at w1 w2 w3
    rw [Nat.zero_add] at w2 w3
    refine fin k3 ((vb (key.length - 1 + vs)).length + (key.length - 1)) ⟨by omega, ?_⟩ ?_ ?_
    · intro y
      rw [w5, bl3, e2]
      split
      · congr 1
        simp only [patch, List.take_zero, List.nil_append, Nat.zero_add, mkPay, enc]
        simp
      · simp
    · unfold insert
      dsimp only
      rw [rd_of_some h2, R.bind_ok, getBit_ok hm, R.bind_ok, hb, Bool.not_false, R.assert_true, R.bind_ok, s1, R.bind_ok,
        wr_of_lt hcc, R.bind_ok, hlen, rd_of_some h1, R.bind_ok]
      simp only [htake, ← hentl, bl1, wr_of_lt hc, R.bind_ok, w1, w2, w3, R.pure_eq]
    · rw [e1]; simp [enc]
  | some a =>
    have hBa := hck.mem a rfl
    obtain ⟨se1, se2, se3⟩ := split_enc (g (i / W)) (ones (i % W) w)
    have halt := Heap.B_lt hBa
    generalize hfr : enc ((g (i / W)).take (ones (i % W) w)) = fr at *
    generalize hbk : enc ((g (i / W)).drop (ones (i % W) w)) = bk at *
    generalize hxx : ent (mkPay key (List.replicate vs 0)) = xx at *
    have hga := getAllocs_ok hw hck hm hb s2 s3
    rw [hfr, hbk] at hga
    obtain ⟨t1, u1, u2, u3⟩ := Heap.copyBytes_ok fr.length (h := (m.heap.alloc (fr.length + xx.length + bk.length)).1) (dst := m.heap.next) (doff := 0)
      (src := a) (soff := 0) (b := List.replicate (fr.length + xx.length + bk.length) 0) (c := enc (g (i / W))) (by omega)
      (by rw [al3, if_pos rfl]) (by rw [al3, if_neg (by omega)]; exact hBa) (by simp; omega) (by omega)
    rw [se2] at u3
    have hp1 := patch_length (b := List.replicate (fr.length + xx.length + bk.length) (0 : UInt8)) (off := 0) (xs := fr) (by simp; omega)
    rw [List.length_replicate] at hp1
    obtain ⟨k1, k2, k3, w1, w2, w3, w4, w5⟩ := writeEnt_ok (h := t1) (n := m.heap.next) (off := fr.length)
      (k := key.dropLast) (v := List.replicate vs 0) (by rw [u3, if_pos rfl]) (by rw [← mkPay, hxx, hp1]; omega)
    rw [hkl, hvs] at w1 w2 w3
    rw [← mkPay, hxx] at w5
    have hp2 := patch_length (b := patch (List.replicate (fr.length + xx.length + bk.length) (0 : UInt8)) 0 fr) (off := fr.length) (xs := xx) (by rw [hp1]; omega)
    rw [hp1] at hp2
    have hoff : fr.length + (vb (key.length - 1 + vs)).length + (key.length - 1) + vs = fr.length + xx.length := by
      rw [hentl, VByte.size_eq]; simp only [vb]; omega
    obtain ⟨t2, v1, v2, v3⟩ := Heap.copyBytes_ok bk.length (h := k3) (dst := m.heap.next) (doff := fr.length + xx.length)
      (src := a) (soff := fr.length) (c := enc (g (i / W))) (by omega)
      (by rw [w5, if_pos rfl]) (by rw [w5, if_neg (by omega), u3, if_neg (by omega), al3, if_neg (by omega)]; exact hBa) (by rw [hp2]) (by omega)
    rw [se3, patch_three rfl] at v3
    have hBa2 : t2.B a = some (enc (g (i / W))) := by
      rw [v3, if_neg (by omega), w5, if_neg (by omega), u3, if_neg (by omega), al3, if_neg (by omega)]; exact hBa
    obtain ⟨t3, f1, f2, f3⟩ := Heap.free_ok hBa2
    refine fin t3 (fr.length + (vb (key.length - 1 + vs)).length + (key.length - 1)) ⟨by omega, ?_⟩ ?_ rfl
    · intro y
      rw [enc_splice, hfr, hbk, hxx, f3]
      by_cases ey : y = m.heap.next
      · rw [if_neg (by omega), if_pos ey, v3, if_pos ey]
      · rw [if_neg ey]
        by_cases ey2 : y = a
        · rw [if_pos ey2, if_pos (by rw [ey2])]
        · rw [if_neg ey2, if_neg (by intro e; exact ey2 (Option.some.inj e)), v3, if_neg ey, w5, if_neg ey, u3, if_neg ey, al3, if_neg ey]
    · unfold insert
      dsimp only
      rw [rd_of_some h2, R.bind_ok, getBit_ok hm, R.bind_ok, hb, Bool.not_false, R.assert_true, R.bind_ok, s1, R.bind_ok,
        wr_of_lt hcc, R.bind_ok, hlen, rd_of_some h1, R.bind_ok]
      simp only [htake, ← hentl, hga, al1, wr_of_lt hc, R.bind_ok, u1, w1, w2, w3, hoff, v1, f1, R.pure_eq]

/-! ### moving entries (`expand`) -/

/-- the heap matters only where it is pointed to -/
theorem Ob.frame (ho : Ob W vs ptrs chunks h g) {h' : Heap} (hf : ∀ (c : Nat) a, ptrs[c]? = some (some a) → h'.B a = h.B a) :
    Ob W vs ptrs chunks h' g ∧ ∀ i e, cL W vs ptrs chunks h' i e = cL W vs ptrs chunks h i e := by
  refine ⟨⟨ho.sz, ?_, ho.inj⟩, ?_⟩
  · intro c ptr w h1 h2
    have hck := ho.ck c ptr w h1 h2
    exact ⟨hck.wlt, hck.len, hck.pay, hck.emp, fun a ha => by subst ha; rw [hf c a h1]; exact hck.mem a rfl⟩
  · intro i e
    unfold cL
    cases hp : ptrs[i / W]? with
    | none => simp
    | some ptr =>
      cases ptr with
      | none => simp
      | some a => simp only [Option.join_some, Option.bind_some, hf _ a hp]

/-- `set_slice_` -/
theorem setSlice_ok {m : CompactBonsaiNlm} (hw : W = 8 ∨ W = 16 ∨ W = 32 ∨ W = 64) (ho : Ob W vs m.ptrs m.chunks m.heap g) {i : Nat}
    (hi : i < m.ptrs.size * W) (hL : ∀ e, cL W vs m.ptrs m.chunks m.heap i e = none) {x : List UInt8} (hx : PayOk vs x)
    {src soff : Nat} {sb : List UInt8} (hsb : m.heap.B src = some sb) (hsl : soff + (ent x).length ≤ sb.length)
    (hse : (sb.drop soff).take (ent x).length = ent x) (hsrc : ∀ (c : Nat), m.ptrs[c]? ≠ some (some src)) :
    ∃ m' g', setSlice W m (i / W) (i % W) src soff (ent x).length = .ok m' ∧ m'.ptrs.size = m.ptrs.size ∧ Ob W vs m'.ptrs m'.chunks m'.heap g' ∧
      (∀ e, cL W vs m'.ptrs m'.chunks m'.heap i e = payL vs x e) ∧
      (∀ j e, j ≠ i → cL W vs m'.ptrs m'.chunks m'.heap j e = cL W vs m.ptrs m.chunks m.heap j e) ∧
      (∀ (c : Nat) a, m'.ptrs[c]? = some (some a) → m.ptrs[c]? = some (some a) ∨ a = m.heap.next) ∧
      (∀ y b, m.heap.B y = some b → (∀ (c : Nat), m.ptrs[c]? ≠ some (some y)) → m'.heap.B y = some b) := by
  have hW : 0 < W := by omega
  have hW64 : W ≤ 64 := by omega
  obtain ⟨ptr, w, hc, h1, h2, hck, hLi⟩ := ho.at hW hi
  have hb := ho.bit_none hW hi hL h2
  have hm := Nat.mod_lt i hW
  obtain ⟨w', s1, s2, s3⟩ := setBit_ok (b := true) hW64 hck.wlt hm
  have hcc : i / W < m.chunks.size := by rw [ho.sz]; exact hc
  have hslt := Heap.B_lt hsb
  have fin : ∀ h', Repl m.heap h' ptr m.heap.next (enc (splice (g (i / W)) (ones (i % W) w) x)) →
      setSlice W m (i / W) (i % W) src soff (ent x).length = .ok { m with ptrs := m.ptrs.setIfInBounds (i / W) (some m.heap.next), chunks := m.chunks.setIfInBounds (i / W) w', heap := h' } →
      ∃ m' g', setSlice W m (i / W) (i % W) src soff (ent x).length = .ok m' ∧ m'.ptrs.size = m.ptrs.size ∧ Ob W vs m'.ptrs m'.chunks m'.heap g' ∧
      (∀ e, cL W vs m'.ptrs m'.chunks m'.heap i e = payL vs x e) ∧
      (∀ j e, j ≠ i → cL W vs m'.ptrs m'.chunks m'.heap j e = cL W vs m.ptrs m.chunks m.heap j e) ∧
      (∀ (c : Nat) a, m'.ptrs[c]? = some (some a) → m.ptrs[c]? = some (some a) ∨ a = m.heap.next) ∧
      (∀ y b, m.heap.B y = some b → (∀ (c : Nat), m.ptrs[c]? ≠ some (some y)) → m'.heap.B y = some b) := by
    intro h' hr hset
    obtain ⟨o1, o2, o3⟩ := ho.put hW hi h1 h2 hb s2 s3 hx hr
    refine ⟨_, _, hset, by simp, o1, o2, o3, ?_, ?_⟩
    · intro c a hca
      simp only at hca
      by_cases e : c = i / W
      · subst e
        rw [Array.getElem?_setIfInBounds_self_of_lt hc] at hca
        cases hca; exact Or.inr rfl
      · rw [Array.getElem?_setIfInBounds_ne (Ne.symm e)] at hca; exact Or.inl hca
    · intro y b hy hny
      have := Heap.B_lt hy
      show h'.B y = some b
      rw [hr.2, if_neg (by omega), if_neg (by intro e; rw [← e] at h1; exact hny _ h1)]; exact hy
  obtain ⟨al1, al2, al3⟩ := m.heap.alloc_spec ((enc ((g (i / W)).take (ones (i % W) w))).length + (ent x).length
    + (enc ((g (i / W)).drop (ones (i % W) w))).length)
  cases ptr with
  | none =>
    obtain ⟨e1, e2⟩ := hck.none_facts (p := i % W)
    obtain ⟨bl1, bl2, bl3⟩ := m.heap.alloc_spec (ent x).length
    obtain ⟨t1, u1, u2, u3⟩ := Heap.copyBytes_ok (ent x).length (h := (m.heap.alloc (ent x).length).1) (dst := m.heap.next) (doff := 0)
      (src := src) (soff := soff) (b := List.replicate (ent x).length 0) (c := sb) (by omega)
      (by rw [bl3, if_pos rfl]) (by rw [bl3, if_neg (by omega)]; exact hsb) (by simp) hsl
    rw [hse] at u3
    refine fin t1 ⟨by omega, ?_⟩ ?_
    · intro y
      rw [u3, bl3, e2]
      split
      · congr 1
        simp [patch, enc]
      · simp
    · unfold setSlice
      rw [rd_of_some h2, R.bind_ok, getBit_ok hm, R.bind_ok, hb, Bool.not_false, R.assert_true, R.bind_ok, s1, R.bind_ok,
        wr_of_lt hcc, R.bind_ok, rd_of_some h1, R.bind_ok]
      simp only [bl1, wr_of_lt hc, R.bind_ok, u1, R.pure_eq]
  | some a =>
    have hBa := hck.mem a rfl
    have hasrc : a ≠ src := fun e => hsrc (i / W) (by rw [← e]; exact h1)
    obtain ⟨se1, se2, se3⟩ := split_enc (g (i / W)) (ones (i % W) w)
    have halt := Heap.B_lt hBa
    generalize hfr : enc ((g (i / W)).take (ones (i % W) w)) = fr at *
    generalize hbk : enc ((g (i / W)).drop (ones (i % W) w)) = bk at *
    have hga := getAllocs_ok hw hck hm hb s2 s3
    rw [hfr, hbk] at hga
    generalize hxx : ent x = xx at *
    obtain ⟨t1, u1, u2, u3⟩ := Heap.copyBytes_ok fr.length (h := (m.heap.alloc (fr.length + xx.length + bk.length)).1) (dst := m.heap.next) (doff := 0)
      (src := a) (soff := 0) (b := List.replicate (fr.length + xx.length + bk.length) 0) (c := enc (g (i / W))) (by omega)
      (by rw [al3, if_pos rfl]) (by rw [al3, if_neg (by omega)]; exact hBa) (by simp; omega) (by omega)
    rw [se2] at u3
    have hp1 := patch_length (b := List.replicate (fr.length + xx.length + bk.length) (0 : UInt8)) (off := 0) (xs := fr) (by simp; omega)
    rw [List.length_replicate] at hp1
    obtain ⟨k3, w1, w4, w5⟩ := Heap.copyBytes_ok xx.length (h := t1) (dst := m.heap.next) (doff := fr.length)
      (src := src) (soff := soff) (c := sb) (by omega)
      (by rw [u3, if_pos rfl]) (by rw [u3, if_neg (by omega), al3, if_neg (by omega)]; exact hsb) (by rw [hp1]; omega) hsl
    rw [hse] at w5
    have hp2 := patch_length (b := patch (List.replicate (fr.length + xx.length + bk.length) (0 : UInt8)) 0 fr) (off := fr.length) (xs := xx) (by rw [hp1]; omega)
    rw [hp1] at hp2
    obtain ⟨t2, v1, v2, v3⟩ := Heap.copyBytes_ok bk.length (h := k3) (dst := m.heap.next) (doff := fr.length + xx.length)
      (src := a) (soff := fr.length) (c := enc (g (i / W))) (by omega)
      (by rw [w5, if_pos rfl]) (by rw [w5, if_neg (by omega), u3, if_neg (by omega), al3, if_neg (by omega)]; exact hBa) (by rw [hp2]) (by omega)
    rw [se3, patch_three rfl] at v3
    have hBa2 : t2.B a = some (enc (g (i / W))) := by
      rw [v3, if_neg (by omega), w5, if_neg (by omega), u3, if_neg (by omega), al3, if_neg (by omega)]; exact hBa
    obtain ⟨t3, f1, f2, f3⟩ := Heap.free_ok hBa2
    refine fin t3 ⟨by omega, ?_⟩ ?_
    · intro y
      rw [enc_splice, hfr, hbk, hxx, f3]
      by_cases ey : y = m.heap.next
      · rw [if_neg (by omega), if_pos ey, v3, if_pos ey]
      · rw [if_neg ey]
        by_cases ey2 : y = a
        · rw [if_pos ey2, if_pos (by rw [ey2])]
        · rw [if_neg ey2, if_neg (by intro e; exact ey2 (Option.some.inj e)), v3, if_neg ey, w5, if_neg ey, u3, if_neg ey, al3, if_neg ey]
    · unfold setSlice
      rw [rd_of_some h2, R.bind_ok, getBit_ok hm, R.bind_ok, hb, Bool.not_false, R.assert_true, R.bind_ok, s1, R.bind_ok,
        wr_of_lt hcc, R.bind_ok, rd_of_some h1, R.bind_ok]
      simp only [hga, al1, wr_of_lt hc, R.bind_ok, u1, w1, v1, f1, R.pure_eq]

/-- `get_slice_` -/
theorem getSlice_ok {m : CompactBonsaiNlm} (hw : W = 8 ∨ W = 16 ∨ W = 32 ∨ W = 64) (ho : Ob W vs ptrs m.chunks h g) {i : Nat}
    (hi : i < ptrs.size * W) (hp : m.ptrs[i / W]? = ptrs[i / W]?) :
    (getSlice W m h (i / W) (i % W) = .ok none ∧ ∀ e, cL W vs ptrs m.chunks h i e = none) ∨
    (∃ a off x sb, getSlice W m h (i / W) (i % W) = .ok (some (a, off, (ent x).length)) ∧ ptrs[i / W]? = some (some a) ∧ h.B a = some sb ∧
      off + (ent x).length ≤ sb.length ∧ (sb.drop off).take (ent x).length = ent x ∧ PayOk vs x ∧ ∀ e, cL W vs ptrs m.chunks h i e = payL vs x e) := by
  have hW : 0 < W := by omega
  obtain ⟨ptr, w, hc, h1, h2, hck, hLi⟩ := ho.at hW hi
  have hm := Nat.mod_lt i hW
  by_cases hb : w.testBit (i % W) = true
  · right
    have hlt : ones (i % W) w < (g (i / W)).length := by rw [← hck.len]; exact ones_lt hm hb
    have hx : (g (i / W))[ones (i % W) w]? = some (g (i / W))[ones (i % W) w] := List.getElem?_eq_getElem hlt
    cases ptr with
    | none => rw [hck.emp rfl] at hlt; simp at hlt
    | some a =>
      generalize (g (i / W))[ones (i % W) w] = x at hx
      obtain ⟨hlt', hpe⟩ := List.getElem?_eq_some_iff.1 hx
      have hsplit : enc (g (i / W)) = enc ((g (i / W)).take (ones (i % W) w)) ++ ent x ++ enc ((g (i / W)).drop (ones (i % W) w + 1)) := by
        rw [List.append_assoc, ← enc_cons, ← hpe, List.getElem_cons_drop, ← enc_append, List.take_append_drop]
      have hBa := hck.mem a rfl
      refine ⟨a, (enc ((g (i / W)).take (ones (i % W) w))).length, x, enc (g (i / W)), ?_, h1, hBa, ?_, ?_, hck.pay x (List.mem_of_getElem? hx), ?_⟩
      · unfold getSlice
        rw [rd_of_some h2, R.bind_ok, getBit_ok hm, R.bind_ok, hb, rd_of_some (hp.trans h1)]
        simp only [Bool.not_true, Bool.false_eq_true, if_false, R.bind_ok]
        rw [popcntMask_ok hw hck.wlt hm, R.bind_ok, Heap.block_ok hBa, R.bind_ok, skip_enc hck.small (by omega), R.bind_ok,
          decode_at hck.small hx, R.bind_ok]
        rw [ent, List.length_append]; rfl
      · rw [hsplit, List.length_append, List.length_append]; omega
      · rw [hsplit, List.append_assoc, List.drop_left' rfl]; exact List.take_left' rfl
      · intro e; rw [hLi, look, if_pos hb, hx]; rfl
  · left
    have hb : w.testBit (i % W) = false := by simpa using hb
    refine ⟨?_, ?_⟩
    · unfold getSlice
      rw [rd_of_some h2, R.bind_ok, getBit_ok hm, R.bind_ok, hb]; rfl
    · intro e; rw [hLi, look, hb]; rfl

/-- state of the loop of `expand` before position `pos` -/
structure LI (W vs : Nat) (m : CompactBonsaiNlm) (D : Nat → Prop) (f : Nat → Nat) (pos : Nat) (old new : CompactBonsaiNlm) : Prop where
  chunks : old.chunks = m.chunks
  size : old.ptrs.size = m.ptrs.size
  todo : ∀ c, pos / W ≤ c → old.ptrs[c]? = m.ptrs[c]?
  done : ∀ c, c < pos / W → c < m.ptrs.size → old.ptrs[c]? = some none
  blk : ∀ (c : Nat) a, pos / W ≤ c → m.ptrs[c]? = some (some a) → new.heap.B a = m.heap.B a
  dis : ∀ (c : Nat) a, pos / W ≤ c → m.ptrs[c]? = some (some a) → ∀ k : Nat, new.ptrs[k]? ≠ some (some a)
  nsize : new.ptrs.size = 2 * m.ptrs.size
  ob : ∃ g', Ob W vs new.ptrs new.chunks new.heap g'
  moved : ∀ i < pos, D i → ∀ e, cL W vs new.ptrs new.chunks new.heap (f i) e = cL W vs m.ptrs m.chunks m.heap i e
  rest : ∀ k, (∀ i < pos, D i → f i ≠ k) → ∀ e, cL W vs new.ptrs new.chunks new.heap k e = none

/-- the part of an iteration that moves a label -/
theorem move_ok {m : CompactBonsaiNlm} (hw : W = 8 ∨ W = 16 ∨ W = 32 ∨ W = 64) (ho : Ob W vs m.ptrs m.chunks m.heap g) {nm : NodeMap} {D : Nat → Prop}
    {f : Nat → Nat} (h64 : 2 * (m.ptrs.size * W) < 2 ^ 64) (n1 : ∀ i < m.ptrs.size * W, D i → nm.get i = .ok (f i))
    (n2 : ∀ i < m.ptrs.size * W, ¬ D i → nm.get i = .ok u64max) (n3 : ∀ i, D i → i < m.ptrs.size * W ∧ f i < 2 * (m.ptrs.size * W))
    (n4 : ∀ i j, D i → D j → f i = f j → i = j)
    {pos : Nat} {old new : CompactBonsaiNlm} (hp : pos < m.ptrs.size * W) (hI : LI W vs m D f pos old new) :
    ∃ new', moveOne W nm pos old new = .ok new' ∧
      new'.ptrs.size = 2 * m.ptrs.size ∧ (∃ g', Ob W vs new'.ptrs new'.chunks new'.heap g') ∧
      (∀ (c : Nat) a, pos / W ≤ c → m.ptrs[c]? = some (some a) → new'.heap.B a = m.heap.B a) ∧
      (∀ (c : Nat) a, pos / W ≤ c → m.ptrs[c]? = some (some a) → ∀ k : Nat, new'.ptrs[k]? ≠ some (some a)) ∧
      (∀ i < pos + 1, D i → ∀ e, cL W vs new'.ptrs new'.chunks new'.heap (f i) e = cL W vs m.ptrs m.chunks m.heap i e) ∧
      (∀ k, (∀ i < pos + 1, D i → f i ≠ k) → ∀ e, cL W vs new'.ptrs new'.chunks new'.heap k e = none) := by
  have hW : 0 < W := by omega
  obtain ⟨g', hob⟩ := hI.ob
  -- nothing to move
  have nop : (D pos → ∀ e, cL W vs m.ptrs m.chunks m.heap pos e = none) →
      (∀ i < pos + 1, D i → ∀ e, cL W vs new.ptrs new.chunks new.heap (f i) e = cL W vs m.ptrs m.chunks m.heap i e) ∧
      (∀ k, (∀ i < pos + 1, D i → f i ≠ k) → ∀ e, cL W vs new.ptrs new.chunks new.heap k e = none) := by
    intro hz
    refine ⟨?_, fun k hk e => hI.rest k (fun i hi => hk i (by omega)) e⟩
    intro i hi hD e
    by_cases ei : i = pos
    · subst ei
      rw [hz hD e]
      exact hI.rest (f i) (fun j hj hDj ej => by have := n4 j i hDj hD ej; omega) e
    · exact hI.moved i (by omega) hD e
  unfold moveOne
  by_cases hD : D pos
  · rw [n1 pos hp hD, R.bind_ok]
    have hf := (n3 pos hD).2
    rw [if_pos (show f pos ≠ u64max by unfold u64max; omega)]
    -- the old object, read through the shared heap
    have hckm : getSlice W old new.heap (pos / W) (pos % W) = getSlice W old m.heap (pos / W) (pos % W) := by
      unfold getSlice
      cases hr : rd old.chunks (pos / W) with
      | error e => rfl
      | ok w =>
        simp only [R.bind_ok]
        cases hg : BitTools.getBit W w (pos % W) with
        | error e => rfl
        | ok b =>
          simp only [R.bind_ok]
          cases b with
          | false => rfl
          | true =>
            simp only [Bool.not_true, Bool.false_eq_true, if_false]
            cases hr2 : rd old.ptrs (pos / W) with
            | error e => rfl
            | ok ptr =>
              simp only [R.bind_ok]
              cases ptr with
              | none => rfl
              | some a =>
                simp only
                have hpa : m.ptrs[pos / W]? = some (some a) := by
                  rw [← hI.todo _ (Nat.le_refl _)]
                  unfold rd at hr2
                  split at hr2
                  next x hx => cases hr2; exact hx
                  next => cases hr2
                have := hI.blk _ a (Nat.le_refl _) hpa
                rw [Heap.block_eq, Heap.block_eq, this]
    have ho' : Ob W vs m.ptrs old.chunks m.heap g := by rw [hI.chunks]; exact ho
    rcases getSlice_ok hw ho' hp (hI.todo _ (Nat.le_refl _)) with ⟨g1, g2⟩ | ⟨a, off, x, sb, g1, g2, g3, g4, g5, g6, g7⟩
    · rw [hI.chunks] at g2
      obtain ⟨q1, q2⟩ := nop (fun _ => g2)
      refine ⟨new, ?_, hI.nsize, ⟨g', hob⟩, hI.blk, hI.dis, q1, q2⟩
      rw [hckm, g1, R.bind_ok]; rfl
    · rw [hI.chunks] at g7
      have hent : (ent x).length ≠ 0 := by
        have := VByte.bytesGo_pos VByte.fuel x.length
        simp only [ent, List.length_append, vb]; omega
      have hfl : f pos < new.ptrs.size * W := by rw [hI.nsize, Nat.mul_assoc]; exact hf
      have hnone : ∀ e, cL W vs new.ptrs new.chunks new.heap (f pos) e = none :=
        hI.rest (f pos) (fun j hj hDj ej => by have := n4 j pos hDj hD ej; omega)
      obtain ⟨new', g'', s1, s2, s3, s4, s5, s6, s7⟩ := setSlice_ok hw hob hfl hnone g6 (src := a) (soff := off) (sb := sb)
        (by rw [hI.blk _ a (Nat.le_refl _) g2]; exact g3) g4 g5 (hI.dis _ a (Nat.le_refl _) g2)
      have holdlt : ∀ (c : Nat) a, pos / W ≤ c → m.ptrs[c]? = some (some a) → ∃ b, m.heap.B a = some b := by
        intro c a _ hca
        have hclt : c < m.ptrs.size := by
          by_contra hcc; rw [Array.getElem?_eq_none (by omega)] at hca; cases hca
        exact ⟨_, (ho.ck c _ _ hca (Array.getElem?_eq_getElem (by rw [ho.sz]; exact hclt))).mem a rfl⟩
      refine ⟨new', ?_, by rw [s2, hI.nsize], ⟨g'', s3⟩, ?_, ?_, ?_, ?_⟩
      · rw [hckm, g1, R.bind_ok]
        simp only [hent, if_false]
        exact s1
      · intro c a' hc hca
        obtain ⟨b, hb⟩ := holdlt c a' hc hca
        rw [hb]
        exact s7 a' b (by rw [hI.blk c a' hc hca]; exact hb) (hI.dis c a' hc hca)
      · intro c a' hc hca k hk
        rcases s6 k a' hk with h1 | h1
        · exact hI.dis c a' hc hca k h1
        · obtain ⟨b, hb⟩ := holdlt c a' hc hca
          rw [← hI.blk c a' hc hca] at hb
          have := Heap.B_lt hb
          omega
      · intro i hi hDi e
        by_cases ei : i = pos
        · subst ei; rw [s4, g7]
        · rw [s5 _ _ (fun ej => ei (n4 i pos hDi hD ej))]
          exact hI.moved i (by omega) hDi e
      · intro k hk e
        rw [s5 _ _ (fun ek => hk pos (by omega) hD ek.symm)]
        exact hI.rest k (fun i hi => hk i (by omega)) e
  · rw [n2 pos hp hD, R.bind_ok, if_neg (by simp)]
    obtain ⟨q1, q2⟩ := nop (fun h => absurd h hD)
    exact ⟨new, rfl, hI.nsize, ⟨g', hob⟩, hI.blk, hI.dis, q1, q2⟩

theorem div_succ (hW : 0 < W) (pos : Nat) : (pos + 1) / W = if pos % W = W - 1 then pos / W + 1 else pos / W := by
  have h1 := Nat.div_add_mod pos W
  have h2 := Nat.mod_lt pos hW
  split
  next e =>
    have : pos + 1 = W * (pos / W + 1) := by rw [Nat.mul_add]; omega
    rw [this, Nat.mul_div_cancel_left _ hW]
  next e =>
    have : pos + 1 = W * (pos / W) + (pos % W + 1) := by omega
    conv_lhs => rw [this]
    have h3 : (pos % W + 1) / W = 0 := Nat.div_eq_of_lt (by omega)
    rw [Nat.mul_add_div hW, h3, Nat.add_zero]

theorem expandLoop_ok {m : CompactBonsaiNlm} (hw : W = 8 ∨ W = 16 ∨ W = 32 ∨ W = 64) (ho : Ob W vs m.ptrs m.chunks m.heap g) {nm : NodeMap} {D : Nat → Prop}
    {f : Nat → Nat} (h64 : 2 * (m.ptrs.size * W) < 2 ^ 64) (n1 : ∀ i < m.ptrs.size * W, D i → nm.get i = .ok (f i))
    (n2 : ∀ i < m.ptrs.size * W, ¬ D i → nm.get i = .ok u64max) (n3 : ∀ i, D i → i < m.ptrs.size * W ∧ f i < 2 * (m.ptrs.size * W))
    (n4 : ∀ i j, D i → D j → f i = f j → i = j) :
    ∀ (n pos : Nat) (old new : CompactBonsaiNlm), pos + n = m.ptrs.size * W → LI W vs m D f pos old new →
      ∃ old' new', expandLoop W nm n pos old new = .ok (old', new') ∧ LI W vs m D f (m.ptrs.size * W) old' new' := by
  have hW : 0 < W := by omega
  intro n
  induction n with
  | zero =>
    intro pos old new hp hI
    have : pos = m.ptrs.size * W := by omega
    subst this
    exact ⟨old, new, rfl, hI⟩
  | succ n ih =>
    intro pos old new hp hI
    have hpl : pos < m.ptrs.size * W := by omega
    obtain ⟨new', e1, e2, e3, e4, e5, e6, e7⟩ := move_ok hw ho h64 n1 n2 n3 n4 hpl hI
    have hc : pos / W < m.ptrs.size := (Nat.div_lt_iff_lt_mul hW).2 hpl
    unfold expandLoop
    rw [e1, R.bind_ok]
    have hds := div_succ hW pos
    by_cases hl : pos % W = W - 1
    · rw [if_pos hl] at hds ⊢
      have hold : old.ptrs[pos / W]? = m.ptrs[pos / W]? := hI.todo _ (Nat.le_refl _)
      rw [Array.getElem?_eq_getElem hc] at hold
      rw [rd_of_some hold, R.bind_ok]
      -- releasing the block of the finished chunk
      have hfree : ∃ h', new'.heap.freeOpt m.ptrs[pos / W] = .ok h' ∧ ∀ y, some y ≠ m.ptrs[pos / W] → h'.B y = new'.heap.B y := by
        cases hpp : m.ptrs[pos / W] with
        | none => exact ⟨new'.heap, rfl, fun _ _ => rfl⟩
        | some a =>
          have hpa : m.ptrs[pos / W]? = some (some a) := by rw [Array.getElem?_eq_getElem hc, hpp]
          have hBa := (ho.ck _ _ _ hpa (Array.getElem?_eq_getElem (by rw [ho.sz]; exact hc))).mem a rfl
          rw [← e4 _ a (Nat.le_refl _) hpa] at hBa
          obtain ⟨h', f1, f2, f3⟩ := Heap.free_ok hBa
          refine ⟨h', f1, ?_⟩
          intro y hy
          rw [f3, if_neg (fun e => hy (by rw [e]))]
      obtain ⟨h', f1, f2⟩ := hfree
      rw [f1, R.bind_ok, wr_of_lt (by rw [hI.size]; exact hc), R.bind_ok]
      obtain ⟨g', hob⟩ := e3
      have hfr : ∀ (c : Nat) a, new'.ptrs[c]? = some (some a) → h'.B a = new'.heap.B a := by
        intro c a hca
        apply f2
        intro e
        exact e5 (pos / W) a (Nat.le_refl _) (by rw [Array.getElem?_eq_getElem hc, e]) c hca
      obtain ⟨r1, r2⟩ := hob.frame hfr
      refine ih (pos + 1) _ _ (by omega) ⟨hI.chunks, by simp [hI.size], ?_, ?_, ?_, ?_, e2, ⟨g', r1⟩, ?_, ?_⟩
      · intro c hcc
        simp only
        rw [Array.getElem?_setIfInBounds_ne (by omega)]
        exact hI.todo c (by omega)
      · intro c hcc hcs
        simp only
        by_cases ec : c = pos / W
        · subst ec; exact Array.getElem?_setIfInBounds_self_of_lt (by rw [hI.size]; exact hc)
        · rw [Array.getElem?_setIfInBounds_ne (Ne.symm ec)]; exact hI.done c (by omega) hcs
      · intro c a hcc hca
        show h'.B a = _
        rw [f2, e4 c a (by omega) hca]
        intro e
        have := ho.inj c (pos / W) a hca (by rw [Array.getElem?_eq_getElem hc, e])
        omega
      · intro c a hcc hca; exact e5 c a (by omega) hca
      · intro i hi hD e; rw [← e6 i hi hD e]; exact r2 _ e
      · intro k hk e; rw [← e7 k hk e]; exact r2 _ e
    · rw [if_neg hl] at hds ⊢
      refine ih (pos + 1) _ _ (by omega) ⟨hI.chunks, hI.size, ?_, ?_, ?_, ?_, e2, e3, e6, e7⟩
      · intro c hcc; exact hI.todo c (by omega)
      · intro c hcc; exact hI.done c (by omega)
      · intro c a hcc; exact e4 c a (by omega)
      · intro c a hcc; exact e5 c a (by omega)

theorem make_Ob (n : Nat) (h : Heap) : Ob W vs (Array.replicate n none) (Array.replicate n 0) h (fun _ => []) ∧
    ∀ i e, cL W vs (Array.replicate n none) (Array.replicate n 0) h i e = none := by
  refine ⟨⟨by simp, ?_, ?_⟩, ?_⟩
  · intro c ptr w h1 h2
    rw [Array.getElem?_replicate] at h1 h2
    split at h1
    · cases h1
      split at h2
      · cases h2
        refine ⟨Nat.two_pow_pos _, ?_, (by intro p hp; cases hp), fun _ => rfl, (by intro a ha; cases ha)⟩
        exact cnt_zero (fun i _ => Nat.zero_testBit i)
      · contradiction
    · cases h1
  · intro i j a h1 _
    rw [Array.getElem?_replicate] at h1
    split at h1 <;> cases h1
  · intro i e
    unfold cL
    rw [Array.getElem?_replicate, Array.getElem?_replicate]
    split <;> rfl

theorem expand_ok {m : CompactBonsaiNlm} (hw : W = 8 ∨ W = 16 ∨ W = 32 ∨ W = 64) (ho : Ob W vs m.ptrs m.chunks m.heap g) {nm : NodeMap} {D : Nat → Prop}
    {f : Nat → Nat} (h64 : 2 * (m.ptrs.size * W) < 2 ^ 64) (n1 : ∀ i < m.ptrs.size * W, D i → nm.get i = .ok (f i))
    (n2 : ∀ i < m.ptrs.size * W, ¬ D i → nm.get i = .ok u64max) (n3 : ∀ i, D i → i < m.ptrs.size * W ∧ f i < 2 * (m.ptrs.size * W))
    (n4 : ∀ i j, D i → D j → f i = f j → i = j)
    (hs : nm.size = m.ptrs.size * W) {b : Nat} (hb : m.ptrs.size * W = 2 ^ b) :
    ∃ m', expand W m nm = .ok m' ∧ m'.ptrs.size = 2 * m.ptrs.size ∧ (∃ g', Ob W vs m'.ptrs m'.chunks m'.heap g') ∧
      (∀ i, D i → ∀ e, cL W vs m'.ptrs m'.chunks m'.heap (f i) e = cL W vs m.ptrs m.chunks m.heap i e) ∧
      (∀ k, (∀ i, D i → f i ≠ k) → ∀ e, cL W vs m'.ptrs m'.chunks m'.heap k e = none) := by
  have hW : 0 < W := by omega
  have hb1 : m.ptrs.size * W * 2 = 2 ^ (b + 1) := by rw [hb, Nat.pow_succ]
  have hb63 : b + 1 < 64 := by
    by_contra hc
    have : 2 ^ 64 ≤ 2 ^ (b + 1) := Nat.pow_le_pow_right (by decide) (by omega)
    omega
  have hdiv : 2 ^ (b + 1) / W = 2 * m.ptrs.size := by
    rw [← hb1, Nat.mul_assoc, Nat.mul_comm W, ← Nat.mul_assoc, Nat.mul_div_cancel _ hW, Nat.mul_comm]
  obtain ⟨k1, k2⟩ := make_Ob (W := W) (vs := vs) (2 * m.ptrs.size) m.heap
  have hI : LI W vs m D f 0 m { ptrs := Array.replicate (2 * m.ptrs.size) none, chunks := Array.replicate (2 * m.ptrs.size) 0, heap := m.heap } := by
    refine ⟨rfl, rfl, fun _ _ => rfl, ?_, fun _ _ _ _ => rfl, ?_, by simp, ⟨_, k1⟩, ?_, fun k _ e => k2 k e⟩
    · intro c hc; rw [Nat.zero_div] at hc; omega
    · intro c a _ _ k hk
      simp only [Array.getElem?_replicate] at hk
      split at hk <;> cases hk
    · intro i hi; omega
  obtain ⟨old', new', e1, e2⟩ := expandLoop_ok hw ho h64 n1 n2 n3 n4 (m.ptrs.size * W) 0 _ _ (by omega) hI
  have hdone : ∀ j < old'.ptrs.size, old'.ptrs[j]? = some none := by
    intro j hj
    rw [e2.size] at hj
    exact e2.done j (by rw [Nat.mul_div_cancel _ hW]; exact hj) hj
  refine ⟨{ new' with heap := new'.heap, size := m.size, labelBytes := m.labelBytes, maxLength := m.maxLength, sumLength := m.sumLength }, ?_, e2.nsize, e2.ob, fun i hD e => e2.moved i (n3 i hD).1 hD e,
    fun k hk e => e2.rest k (fun i _ => hk i) e⟩
  unfold expand
  rw [hb1, BitTools.ceilLog2_pow hb63, R.bind_ok, make, if_pos hb63, R.bind_ok, hdiv, hs]
  simp only [e1, R.bind_ok]
  rw [PlainBonsaiNlm.foldlM_none _ _ (PlainBonsaiNlm.all_none hdone)]; rfl

/-! ### values -/

theorem payL_val {p : List UInt8} (hp : PayOk vs p) {e : Bool} {l v : List UInt8} (h5 : payL vs p e = some (l, v)) : v = p.drop (p.length - vs) := by
  unfold payL at h5
  rw [if_pos hp.len] at h5
  cases e with
  | true =>
    simp only [if_true] at h5
    split at h5
    next hh => cases h5; rw [hh]; simp
    next => cases h5
  | false => simp only [Bool.false_eq_true, if_false, Option.some.injEq, Prod.mk.injEq] at h5; exact h5.2.symm

/-- what a pointer to the value of node `i` looks like -/
theorem Ob.loc (ho : Ob W vs ptrs chunks h g) (hW : 0 < W) {i : Nat} {q : Loc} (hA : cAt W vs ptrs chunks h q i) :
    ∃ a w p, ptrs[i / W]? = some (some a) ∧ chunks[i / W]? = some w ∧ Ck W vs h (some a) w (g (i / W)) ∧
      h.B a = some (enc (g (i / W))) ∧ w.testBit (i % W) = true ∧ (g (i / W))[ones (i % W) w]? = some p ∧ PayOk vs p ∧
      q = ⟨.heap a, poff (g (i / W)) (ones (i % W) w) p + (p.length - vs)⟩ := by
  obtain ⟨a, w, mem, o, p, a1, a2, a3, a4, a5, a6, a7⟩ := hA
  have hck := ho.ck _ _ _ a1 a2
  have hB := hck.mem a rfl
  have hlt : ones (i % W) w < (g (i / W)).length := by rw [← hck.len]; exact ones_lt (Nat.mod_lt _ hW) a4
  have hx := List.getElem?_eq_getElem hlt
  have hpa := payAt_some hck.small hx
  rw [a3] at hB; cases hB
  rw [hpa] at a5
  simp only [Option.some.injEq, Prod.mk.injEq] at a5
  obtain ⟨rfl, rfl⟩ := a5
  exact ⟨a, w, _, a1, a2, hck, a3, a4, hx, hck.pay _ (List.getElem_mem hlt), a7⟩

theorem load_ok {m : CompactBonsaiNlm} (hW : 0 < W) (ho : Ob W vs m.ptrs m.chunks m.heap g) {i : Nat} {e : Bool} {l v : List UInt8}
    (hL : cL W vs m.ptrs m.chunks m.heap i e = some (l, v)) {q : Loc} (hA : cAt W vs m.ptrs m.chunks m.heap q i) :
    load vs m q = .ok v := by
  obtain ⟨_, a, w, p, h1, h2, h3, h4, h5, h6, h7, h8⟩ := ho.isSome hW hL
  obtain ⟨a', w', p', b1, b2, b3, b4, b5, b6, b7, rfl⟩ := ho.loc hW hA
  rw [h1] at b1; cases b1
  rw [h2] at b2; cases b2
  rw [h6] at b6; cases b6
  obtain ⟨k1, k2, _⟩ := patch_enc h6 h7.len (w := List.replicate vs 0) (by simp)
  show m.heap.load a _ vs = _
  rw [Heap.load_ok h4 k1, k2, payL_val h7 h8]

theorem store_ok {m : CompactBonsaiNlm} (hW : 0 < W) (ho : Ob W vs m.ptrs m.chunks m.heap g) {i : Nat} {q : Loc}
    (hA : cAt W vs m.ptrs m.chunks m.heap q i) {v : List UInt8} (hv : v.length = vs) :
    ∃ h' g', store m q v = .ok { m with heap := h' } ∧ Ob W vs m.ptrs m.chunks h' g' ∧
      (∀ x j, cAt W vs m.ptrs m.chunks m.heap x j → cAt W vs m.ptrs m.chunks h' x j) ∧
      (∀ e, cL W vs m.ptrs m.chunks h' i e = (cL W vs m.ptrs m.chunks m.heap i e).map (fun x => (x.1, v))) ∧
      ∀ j e, j ≠ i → cL W vs m.ptrs m.chunks h' j e = cL W vs m.ptrs m.chunks m.heap j e := by
  obtain ⟨a, w, p, h1, h2, h3, h4, h5, h6, h7, rfl⟩ := ho.loc hW hA
  obtain ⟨k1, k2, k3⟩ := patch_enc h6 h7.len hv
  obtain ⟨h', c1, _, c3⟩ := Heap.copyIn_ok v h4 (by rw [hv]; exact k1)
  rw [k3] at c3
  have hset := PayOk.set h7 hv
  have hpl : (p.take (p.length - vs) ++ v).length = p.length := by have := h7.len; simp [hv]; omega
  have hlt : ones (i % W) w < (g (i / W)).length := by rw [← h3.len]; exact ones_lt (Nat.mod_lt _ hW) h5
  have hob : Ob W vs m.ptrs m.chunks h' (gset g (i / W) ((g (i / W)).set (ones (i % W) w) (p.take (p.length - vs) ++ v))) := by
    refine ⟨ho.sz, ?_, ho.inj⟩
    intro c ptr w' e1 e2
    have hck := ho.ck c ptr w' e1 e2
    by_cases ec : c = i / W
    · subst ec
      rw [h1] at e1; cases e1
      rw [h2] at e2; cases e2
      rw [gset_same]
      refine ⟨hck.wlt, by rw [hck.len]; simp, ?_, (by intro e; cases e), ?_⟩
      · intro y hy
        rcases List.mem_or_eq_of_mem_set hy with hy | rfl
        · exact hck.pay y hy
        · exact hset
      · intro a' ha; cases ha; rw [c3, if_pos rfl]
    · rw [gset_ne _ _ ec]
      refine ⟨hck.wlt, hck.len, hck.pay, hck.emp, ?_⟩
      rintro a' rfl
      rw [c3, if_neg]
      · exact hck.mem a' rfl
      · rintro rfl; exact ec (ho.inj c _ _ e1 h1)
  have key : ∀ j, j < m.ptrs.size * W → ∀ e, cL W vs m.ptrs m.chunks h' j e =
      if j = i then (cL W vs m.ptrs m.chunks m.heap i e).map (fun x => (x.1, v)) else cL W vs m.ptrs m.chunks m.heap j e := by
    intro j hj e
    obtain ⟨p1, w1, a1, a2, a3, a4, a5⟩ := hob.at hW hj
    obtain ⟨p2, w2, b1, b2, b3, b4, b5⟩ := ho.at hW hj
    rw [a3] at b3; cases b3
    rw [a5]
    by_cases ej : j = i
    · subst ej
      rw [if_pos rfl, b5, gset_same]
      rw [h2] at a3; cases a3
      rw [look, look, if_pos h5, if_pos h5, List.getElem?_set_self hlt, h6]
      exact payL_set h7.len hv e
    · rw [if_neg ej, b5]
      by_cases ec : j / W = i / W
      · rw [ec, gset_same]
        rw [ec, h2] at a3; cases a3
        unfold look
        by_cases hb : w.testBit (j % W) = true
        · rw [if_pos hb, if_pos hb, List.getElem?_set_ne]
          intro heq
          have hmm : j % W ≠ i % W := by
            intro hmm; apply ej
            rw [← Nat.div_add_mod j W, ← Nat.div_add_mod i W, ec, hmm]
          rcases Nat.lt_or_gt_of_ne hmm with hlt' | hlt'
          · have := ones_lt (W := i % W) hlt' hb; omega
          · have := ones_lt (W := j % W) hlt' h5; omega
        · rw [if_neg hb, if_neg hb]
      · rw [gset_ne _ _ ec]
  have hi : i < m.ptrs.size * W := by
    by_contra hc
    have : m.ptrs.size ≤ i / W := (Nat.le_div_iff_mul_le hW).2 (by omega)
    rw [Array.getElem?_eq_none this] at h1; cases h1
  refine ⟨h', _, ?_, hob, ?_, fun e => by rw [key i hi, if_pos rfl], ?_⟩
  · simp only [store, c1, R.bind_ok, R.pure_eq]
  · intro x j hA'
    obtain ⟨a', w', p', b1, b2, b3, b4, b5, b6, b7, rfl⟩ := ho.loc hW hA'
    by_cases ec : j / W = i / W
    · rw [ec, h1] at b1; cases b1
      rw [ec, h2] at b2; cases b2
      rw [ec] at b6
      have hsm := (hob.ck _ _ _ h1 h2).small
      rw [gset_same] at hsm
      by_cases er : ones (j % W) w = ones (i % W) w
      · rw [er, h6] at b6; cases b6
        refine ⟨a, w, _, _, _, by rw [ec]; exact h1, by rw [ec]; exact h2, by rw [c3, if_pos rfl], b5,
          payAt_some hsm (by rw [er]; exact List.getElem?_set_self hlt), by rw [hpl]; exact h7.len, ?_⟩
        rw [hpl, ec, poff_set h6 hpl hpl]
      · refine ⟨a, w, _, _, p', by rw [ec]; exact h1, by rw [ec]; exact h2, by rw [c3, if_pos rfl], b5,
          payAt_some hsm (by rw [List.getElem?_set_ne (Ne.symm er)]; exact b6), b7.len, ?_⟩
        rw [ec, poff_set h6 hpl rfl]
    · refine ⟨a', w', _, _, p', b1, b2, ?_, b5, payAt_some b3.small b6, b7.len, rfl⟩
      rw [c3, if_neg]
      · exact b4
      · rintro rfl; exact ec (ho.inj _ _ _ b1 h1)
  · intro j e hj
    by_cases hjl : j < m.ptrs.size * W
    · rw [key j hjl, if_neg hj]
    · rw [cL_out hW (by omega), cL_out hW (by omega)]

def spec (W vs : Nat) (hw : W = 8 ∨ W = 16 ∨ W = 32 ∨ W = 64) (hv2 : vs + 1 < 2 ^ 64) : NlmSpec (ops W vs) .bonsai vs where
  minb := Nat.log2 W
  Inv := fun c m => m.ptrs.size * W = c ∧ (∃ b, c = 2 ^ b) ∧ ∃ g, Ob W vs m.ptrs m.chunks m.heap g
  L := fun m => cL W vs m.ptrs m.chunks m.heap
  At := fun m => cAt W vs m.ptrs m.chunks m.heap
  stable := False
  make := by
    intro b hb hb64
    have hdvd : W ∣ 2 ^ b := by
      have : W = 2 ^ Nat.log2 W := by rcases hw with rfl | rfl | rfl | rfl <;> decide
      rw [this]; exact Nat.pow_dvd_pow 2 hb
    obtain ⟨k1, k2⟩ := make_Ob (W := W) (vs := vs) (2 ^ b / W) {}
    refine ⟨{ ptrs := Array.replicate (2 ^ b / W) none, chunks := Array.replicate (2 ^ b / W) 0 }, ?_, ⟨?_, ⟨b, rfl⟩, _, k1⟩, rfl, k2⟩
    · show make W b = _
      unfold make; rw [if_pos hb64]
    · simp only [Array.size_replicate]; exact Nat.div_mul_cancel hdvd
  flag := by
    intro m i e h
    unfold cL at h ⊢
    cases h2 : m.chunks[i / W]? with
    | none => rw [h2] at h; exact absurd rfl h
    | some w =>
      rw [h2] at h
      simp only [Option.bind_some] at h ⊢
      cases h3 : (m.ptrs[i / W]?).join with
      | none => rw [h3] at h; exact absurd rfl h
      | some a =>
        rw [h3] at h
        simp only [Option.bind_some] at h ⊢
        cases h4 : m.heap.B a with
        | none => rw [h4] at h; exact absurd rfl h
        | some mem =>
          rw [h4] at h
          simp only [Option.bind_some] at h ⊢
          split
          next h1 =>
            rw [if_pos h1] at h
            cases h5 : payAt mem (ones (i % W) w) with
            | none => rw [h5] at h; exact absurd rfl h
            | some y => rw [h5] at h; exact payL_flag h
          next h1 => rw [if_neg h1] at h; exact h
  lab := by
    rintro c m ⟨_, _, g, ho⟩ i e l v hL
    obtain ⟨_, _, _, p, _, _, _, _, _, _, h7, h8⟩ := ho.isSome (by omega) hL
    exact payL_lab h7 h8
  bound := by
    rintro _ c m ⟨hc, _, g, ho⟩ i e hL
    by_contra hcon
    exact hL (cL_out (by omega) (by omega) e)
  bound_fk := by intro h; cases h
  compare_none := by
    rintro c m ⟨hc, _, g, ho⟩ i hL h1 _ key _
    exact compare_none hw ho (by rw [hc]; exact h1 rfl) hL key
  compare := by
    rintro c m ⟨_, _, g, ho⟩ i e l v hL key he
    exact compare_ok hw ho hL he
  insert := by
    rintro _ c m ⟨hc, hb, g, ho⟩ i hi hL key hk
    obtain ⟨m', g', q, s1, s2, s3, s4, s5, s6⟩ := insert_ok hw ho (by omega) hL hk hv2
    exact ⟨m', q, s1, ⟨by rw [s2]; exact hc, hb, g', s3⟩, s4, (by rintro ⟨⟩), s5, s6⟩
  append := by intro h; cases h
  appendDummy := by intro h; cases h
  inv_fk := by intro h; cases h
  expand := by
    rintro _ c m nm D f ⟨hc, ⟨b, hb⟩, g, ho⟩ h64 hs h1 h2 h3 h4 _
    subst hc
    obtain ⟨m', s1, s2, s3, s4, s5⟩ := expand_ok hw ho h64 h1 h2 h3 h4 hs hb
    exact ⟨m', s1, ⟨by rw [s2, Nat.mul_assoc], ⟨b + 1, by rw [hb, Nat.pow_succ, Nat.mul_comm]⟩, s3⟩, (by rintro ⟨⟩), fun i e hD => s4 i hD e, fun j e hj => s5 j hj e⟩
  load := by
    rintro c m ⟨_, _, g, ho⟩ p i e l v hA hL
    exact load_ok (by omega) ho hL hA
  store := by
    rintro c m ⟨hc, hb, g, ho⟩ p i e l v w hA hL hw'
    obtain ⟨h', g', s1, s2, s3, s4, s5⟩ := store_ok (by omega) ho hA hw'
    exact ⟨_, s1, ⟨hc, hb, g', s2⟩, rfl, s3, s4, s5⟩

end CompactBonsaiNlm
end Poplar
