import Mathlib.Algebra.BigOperators.Group.Finset.Basic
import Verif.Proof.Owned
import Verif.Proof.PlainBonsaiNlm
import Verif.Proof.PlainFkNlm
/-
  `label_bytes_` is the number of bytes of the blocks owned by the label map.
-/
namespace Poplar
open Spec BitTools
open scoped BigOperators

/-! ### sums over node ids -/

/-- `Σ psz (label i)` over the first `c` nodes -/
def tot (psz : List UInt8 → Nat) (L : Nat → Bool → Option (List UInt8 × List UInt8)) (c : Nat) : Nat :=
  ∑ i ∈ Finset.range c, ((L i false).elim 0 (fun x => psz x.1))

section
variable {psz : List UInt8 → Nat} {L L' : Nat → Bool → Option (List UInt8 × List UInt8)} {c : Nat}

theorem tot_none (h : ∀ i e, L i e = none) : tot psz L c = 0 := by
  unfold tot
  exact Finset.sum_eq_zero (fun i _ => by rw [h]; rfl)

theorem tot_add {i : Nat} (hi : i < c) (h0 : L i false = none) {x : List UInt8 × List UInt8} (h1 : L' i false = some x)
    (h2 : ∀ j, j ≠ i → L' j false = L j false) : tot psz L' c = tot psz L c + psz x.1 := by
  unfold tot
  rw [← Finset.add_sum_erase _ _ (Finset.mem_range.2 hi), ← Finset.add_sum_erase (a := i) _ (fun i => (L i false).elim 0 (fun x => psz x.1)) (Finset.mem_range.2 hi)]
  rw [h0, h1, Finset.sum_congr rfl (g := fun i => (L i false).elim 0 (fun x => psz x.1))]
  · simp [Nat.add_comm]
  · intro j hj
    rw [h2 j (Finset.ne_of_mem_erase hj)]

theorem tot_same (h : ∀ j, (L' j false).map Prod.fst = (L j false).map Prod.fst) : tot psz L' c = tot psz L c := by
  unfold tot
  refine Finset.sum_congr rfl (fun j _ => ?_)
  have := h j
  revert this
  cases L' j false <;> cases L j false <;> simp
  intro h; rw [h]

theorem tot_expand {c' : Nat} {D : Nat → Prop} {f : Nat → Nat} (h3 : ∀ i, D i → i < c ∧ f i < c') (h4 : ∀ i j, D i → D j → f i = f j → i = j)
    (h5 : ∀ i e, L i e ≠ none → D i) (h6 : ∀ i e, D i → L' (f i) e = L i e) (h7 : ∀ j e, (∀ i, D i → f i ≠ j) → L' j e = none) :
    tot psz L' c' = tot psz L c := by
  have hD : ∀ i, ((L i false).elim 0 (fun x => psz x.1)) ≠ 0 → D i := by
    intro i hi
    refine h5 i false (fun hc => hi ?_)
    rw [hc]; rfl
  symm
  refine Finset.sum_bij_ne_zero (fun i _ _ => f i) ?_ ?_ ?_ ?_
  · intro i _ hi; exact Finset.mem_range.2 (h3 i (hD i hi)).2
  · intro i _ hi j _ hj e; exact h4 i j (hD i hi) (hD j hj) e
  · intro j _ hj
    by_contra hc
    refine hj ?_
    rw [h7 j false (fun i hi e => hc ⟨i, Finset.mem_range.2 (h3 i hi).1, ?_, e⟩)]; rfl
    rw [← h6 i false hi, e]; exact hj
  · intro i _ hi
    rw [h6 i false (hD i hi)]
end

/-! ### contracts with an additional invariant -/

/-- a contract of a bonsai label map with an additional invariant -/
def NlmSpec.strengthen {ν : Type} {ops : NlmOps ν} {vs : Nat} (S : NlmSpec ops .bonsai vs) (J : Nat → ν → Prop)
    (jmake : ∀ b m, ops.make b = .ok m → (∀ i e, S.L m i e = none) → J (2 ^ b) m)
    (jins : ∀ c m i key m' p, S.Inv c m → J c m → i < c → (∀ e, S.L m i e = none) → OkLabel vs key → ops.insert m i key = .ok (m', p) →
      S.Inv c m' → S.L m' i key.isEmpty = some (key, List.replicate vs 0) → (∀ j e, j ≠ i → S.L m' j e = S.L m j e) → J c m')
    (jexp : ∀ c m nm m' (D : Nat → Prop) (f : Nat → Nat), S.Inv c m → J c m → ops.expand m nm = .ok m' → S.Inv (2 * c) m' →
      (∀ i, D i → i < c ∧ f i < 2 * c) → (∀ i j, D i → D j → f i = f j → i = j) → (∀ i e, S.L m i e ≠ none → D i) →
      (∀ i e, D i → S.L m' (f i) e = S.L m i e) → (∀ j e, (∀ i, D i → f i ≠ j) → S.L m' j e = none) → J (2 * c) m')
    (jstore : ∀ c m p w m', S.Inv c m → J c m → ops.store m p w = .ok m' → S.Inv c m' →
      (∀ j, (S.L m' j false).map Prod.fst = (S.L m j false).map Prod.fst) → J c m') : NlmSpec ops .bonsai vs where
  minb := S.minb
  Inv := fun c m => S.Inv c m ∧ J c m
  L := S.L
  At := S.At
  stable := S.stable
  make := fun b hb h64 => by
    obtain ⟨m, h1, h2, h3, h4⟩ := S.make b hb h64
    exact ⟨m, h1, ⟨h2, jmake b m h1 h4⟩, h3, h4⟩
  lab := fun c m h => S.lab c m h.1
  flag := S.flag
  bound := fun hk c m h => S.bound hk c m h.1
  bound_fk := by rintro ⟨⟩
  compare := fun c m h => S.compare c m h.1
  compare_none := fun c m h => S.compare_none c m h.1
  insert := fun hk c m h i hi hL key hkey => by
    obtain ⟨m', p, h1, h2, h3, h4, h5, h6⟩ := S.insert hk c m h.1 i hi hL key hkey
    exact ⟨m', p, h1, ⟨h2, jins c m i key m' p h.1 h.2 hi hL hkey h1 h2 h5 h6⟩, h3, h4, h5, h6⟩
  append := by rintro ⟨⟩
  appendDummy := by rintro ⟨⟩
  inv_fk := by rintro ⟨⟩
  expand := fun hk c m nm D f h h64 n0 n1 n2 n3 n4 n5 => by
    obtain ⟨m', h1, h2, h3, h4, h5⟩ := S.expand hk c m nm D f h.1 h64 n0 n1 n2 n3 n4 n5
    exact ⟨m', h1, ⟨h2, jexp c m nm m' D f h.1 h.2 h1 h2 n3 n4 n5 h4 h5⟩, h3, h4, h5⟩
  load := fun c m h => S.load c m h.1
  store := fun c m h p i e l v w hA hL hw => by
    obtain ⟨m', h1, h2, h3, h4, h5, h6⟩ := S.store c m h.1 p i e l v w hA hL hw
    refine ⟨m', h1, ⟨h2, jstore c m p w m' h.1 h.2 h1 h2 (fun j => ?_)⟩, h3, h4, h5, h6⟩
    by_cases hj : j = i
    · subst hj; rw [h5]; cases S.L m j false <;> rfl
    · rw [h6 j false hj]

/-! ### the sizes of the blocks -/

namespace Heap

/-- size of a block -/
def sz (h : Heap) (a : Nat) : Nat := ((h.B a).getD []).length

theorem bytes_eq (h : Heap) : h.bytes = ∑ a ∈ Finset.range h.next, h.sz a := by
  have key : ∀ l : List (Option (List UInt8)), (l.map (fun b => (b.getD []).length)).sum =
      ∑ a ∈ Finset.range l.length, (((l[a]?).join).getD []).length := by
    intro l
    induction l with
    | nil => rfl
    | cons b l ih =>
      rw [List.map_cons, List.sum_cons, ih, List.length_cons, Finset.sum_range_succ']
      simp [Nat.add_comm]
  unfold bytes
  rw [key]
  unfold sz B next
  simp

theorem bytes_owns {l : List Nat} {h : Heap} (ho : Owns l h) : h.bytes = (l.map h.sz).sum := by
  rw [bytes_eq, ← List.sum_toFinset _ ho.1]
  symm
  refine Finset.sum_subset ?_ ?_
  · intro a ha
    obtain ⟨b, hb⟩ := Option.ne_none_iff_exists'.1 ((ho.2 a).1 (List.mem_toFinset.1 ha))
    exact Finset.mem_range.2 (B_lt hb)
  · intro a _ ha
    have hn : h.B a = none := by
      by_contra hc
      exact ha (List.mem_toFinset.2 ((ho.2 a).2 hc))
    unfold sz; rw [hn]; rfl

theorem bytes_owned {ptrs : Array (Option Nat)} {h : Heap} (ho : Owns (owned ptrs) h) :
    h.bytes = ∑ c ∈ Finset.range ptrs.size, ((ptrs[c]?).join.elim 0 h.sz) := by
  rw [bytes_owns ho]
  have key : ∀ l : List (Option Nat), ((l.filterMap id).map h.sz).sum = ∑ c ∈ Finset.range l.length, ((l[c]?).join.elim 0 h.sz) := by
    intro l
    induction l with
    | nil => rfl
    | cons b l ih =>
      rw [List.length_cons, Finset.sum_range_succ']
      cases b with
      | none => simpa using ih
      | some a => rw [show (some a :: l).filterMap id = a :: l.filterMap id from rfl, List.map_cons, List.sum_cons, ih]; simp [Nat.add_comm]
  unfold owned
  rw [key]
  simp

theorem bytes_alloc (h : Heap) (n : Nat) : (h.alloc n).1.bytes = h.bytes + n := by
  unfold bytes alloc
  simp

theorem write_sz {h h' : Heap} {a off : Nat} {x : UInt8} (e : h.write a off x = .ok h') : h'.bytes = h.bytes := by
  obtain ⟨b, e1, e⟩ := R.bind_eq_ok e
  split at e
  · obtain ⟨b', e2, e⟩ := R.bind_eq_ok e
    cases e
    have hb : h.blocks[a]? = some (some b) := by
      unfold block at e1
      split at e1
      next h1 => cases e1; exact h1
      next => cases e1
    unfold bytes
    rw [Array.toList_setIfInBounds, List.map_set]
    have : (h.blocks.toList.map (fun b => (b.getD []).length))[a]? = some (b.set off x).length := by
      simp [hb]
    obtain ⟨q1, q2⟩ := List.getElem?_eq_some_iff.1 this
    rw [show ((some (b.set off x)).getD []).length = (h.blocks.toList.map (fun b => (b.getD []).length))[a] from q2.symm, List.set_getElem_self]
  · cases e

theorem copyIn_bytes : ∀ (xs : List UInt8) {h h' : Heap} {a off : Nat}, h.copyIn a off xs = .ok h' → h'.bytes = h.bytes := by
  intro xs
  induction xs with
  | nil => intro h h' a off e; cases e; rfl
  | cons x xs ih =>
    intro h h' a off e
    obtain ⟨h1, e1, e⟩ := R.bind_eq_ok e
    rw [ih e, write_sz e1]

end Heap

/-! ### fkhash -/

namespace PlainFkNlm

theorem evoBytes (vs : Nat) : Evo (ops vs) (fun m => m.labelBytes = m.heap.bytes) (fun _ _ => True) where
  refl _ := trivial
  trans _ _ := trivial
  empty := rfl
  make := by
    intro b n h
    change make b = _ at h
    unfold make at h
    split at h
    · cases h; exact ⟨rfl, trivial⟩
    · cases h
  insert := by rintro n i k n' l _ ⟨⟩
  append := by
    intro n k n' l hn h
    refine ⟨?_, trivial⟩
    change append vs n k = _ at h
    unfold append at h
    dsimp only at h
    obtain ⟨h1, e2, h⟩ := R.bind_eq_ok h
    obtain ⟨h2, e3, h⟩ := R.bind_eq_ok h
    cases h
    dsimp only
    rw [Heap.copyIn_bytes _ e3, Heap.copyIn_bytes _ e2, Heap.bytes_alloc, ← hn]
  dummy := by
    intro n n' hn h
    cases h
    exact ⟨hn, trivial⟩
  expand := by rintro n i k _ ⟨⟩
  store := by
    intro n l v n' hn h
    refine ⟨?_, trivial⟩
    change store n l v = _ at h
    unfold store at h
    split at h
    · cases h
    · obtain ⟨x, e, h⟩ := R.bind_eq_ok h
      cases h
      dsimp only
      rw [Heap.copyIn_bytes _ e, ← hn]

end PlainFkNlm

namespace CompactFkNlm

theorem nextSlot_bytes {W : Nat} {m m' : CompactFkNlm} (hm : m.labelBytes = m.heap.bytes) (h : nextSlot W m = .ok m') :
    m'.labelBytes = m'.heap.bytes := by
  unfold nextSlot at h
  dsimp only at h
  split at h
  · obtain ⟨h1, e, h⟩ := R.bind_eq_ok h
    cases h
    show m.labelBytes + m.chunkBuf.length = h1.bytes
    rw [Heap.copyIn_bytes _ e, hm]
    exact (Heap.bytes_alloc m.heap _).symm
  · cases h; exact hm

theorem evoBytes (W vs : Nat) : Evo (ops W vs) (fun m => m.labelBytes = m.heap.bytes) (fun _ _ => True) where
  refl _ := trivial
  trans _ _ := trivial
  empty := rfl
  make := by
    intro b n h
    change make b = _ at h
    unfold make at h
    split at h
    · cases h; exact ⟨rfl, trivial⟩
    · cases h
  insert := by rintro n i k n' l _ ⟨⟩
  append := by
    intro n k n' l hn h
    obtain ⟨m1, h1, h⟩ := R.bind_eq_ok h
    have h0 := nextSlot_bytes hn h1
    cases h
    exact ⟨h0, trivial⟩
  dummy := by
    intro n n' hn h
    obtain ⟨m1, h1, h⟩ := R.bind_eq_ok h
    have h0 := nextSlot_bytes hn h1
    cases h
    exact ⟨h0, trivial⟩
  expand := by rintro n i k _ ⟨⟩
  store := by
    intro n l v n' hn h
    refine ⟨?_, trivial⟩
    change store n l v = _ at h
    unfold store at h
    split at h
    · split at h
      · obtain ⟨x, _, h⟩ := R.bind_eq_ok h
        cases h; exact hn
      · cases h
    · obtain ⟨x, e, h⟩ := R.bind_eq_ok h
      cases h
      dsimp only
      rw [Heap.copyIn_bytes _ e, ← hn]

end CompactFkNlm

/-! ### bonsai -/

namespace PlainBonsaiNlm

/-- size of the block of a label -/
def psz (vs : Nat) (l : List UInt8) : Nat := l.length + vs

theorem bytes_tot {vs c : Nat} {m : PlainBonsaiNlm} (h : (spec vs).Inv c m) (ho : Own m) : m.heap.bytes = tot (psz vs) ((spec vs).L m) c := by
  rw [Heap.bytes_owned ho, h.1]
  unfold tot
  refine Finset.sum_congr rfl (fun i _ => ?_)
  show _ = (pL vs m.ptrs m.heap i).elim 0 _
  unfold pL
  cases hp : m.ptrs[i]? with
  | none => rfl
  | some p =>
    cases p with
    | none => rfl
    | some a =>
      obtain ⟨b, hb, hB⟩ := h.2.blk i a hp
      simp only [Option.join_some, Option.elim_some, Option.bind_some, hb, Option.map_some, Heap.sz, Option.getD_some, psz, pLab, List.length_take]
      have := hB.len
      omega

def J (vs c : Nat) (m : PlainBonsaiNlm) : Prop := Own m ∧ m.labelBytes = tot (psz vs) ((spec vs).L m) c

theorem insert_labelBytes {vs : Nat} {m m' : PlainBonsaiNlm} {i : Nat} {key : List UInt8} {p : Loc} (h : insert vs m i key = .ok (m', p)) :
    m'.labelBytes = m.labelBytes + (key.length + vs) := by
  unfold insert at h
  obtain ⟨p, e0, h⟩ := R.bind_eq_ok h
  obtain ⟨_, hp, h⟩ := R.bind_eq_ok h
  dsimp only at h
  obtain ⟨ps, e1, h⟩ := R.bind_eq_ok h
  obtain ⟨h1, e2, h⟩ := R.bind_eq_ok h
  obtain ⟨h2, e3, h⟩ := R.bind_eq_ok h
  cases h
  rfl

/-- the contract with the additional invariant -/
def specB (vs : Nat) : NlmSpec (ops vs) .bonsai vs := (spec vs).strengthen (J vs)
  (fun b m h hL => ⟨((evoOwn vs).make h).1, by
    rw [tot_none hL]
    change make b = _ at h
    unfold make at h
    split at h
    · cases h; rfl
    · cases h⟩)
  (fun c m i key m' p _ hJ hi h0 hk h hI h1 h2 => ⟨((evoOwn vs).insert hJ.1 h).1, by
    rw [insert_labelBytes h, hJ.2, tot_add (x := (key, List.replicate vs 0)) hi (h0 false) h1 (fun j hj => h2 j false hj)]; rfl⟩)
  (fun c m nm m' D f _ hJ h hI h3 h4 h5 h6 h7 => ⟨((evoOwn vs).expand hJ.1 h).1, by
    rw [tot_expand h3 h4 h5 h6 h7, ← hJ.2]
    obtain ⟨⟨old, new, hh⟩, e1, h⟩ := R.bind_eq_ok h
    dsimp only at h
    obtain ⟨h2, e2, h⟩ := R.bind_eq_ok h
    cases h
    rfl⟩)
  (fun c m p w m' _ hJ h hI h1 => ⟨((evoOwn vs).store hJ.1 h).1, by
    rw [tot_same h1, ← hJ.2]
    change store m p w = _ at h
    unfold store at h
    split at h
    · cases h
    · obtain ⟨x, e, h⟩ := R.bind_eq_ok h
      cases h
      rfl⟩)

theorem labelBytes_eq {vs c : Nat} {m : PlainBonsaiNlm} (h : (specB vs).Inv c m) : m.labelBytes = m.heap.bytes := by
  rw [bytes_tot h.1 h.2.1, h.2.2]

end PlainBonsaiNlm

namespace CompactBonsaiNlm
variable {W vs : Nat}

/-- size of the entry of a label -/
def psz (vs : Nat) (l : List UInt8) : Nat := (vb (l.length - 1 + vs)).length + (l.length - 1 + vs)

theorem enc_len {w : Nat} {ps : List (List UInt8)} (h : ones W w = ps.length) :
    (enc ps).length = ∑ p ∈ Finset.range W, ((look w ps p).elim 0 (fun x => (ent x).length)) := by
  have key : ∀ q, q ≤ W → (enc (ps.take (ones q w))).length = ∑ p ∈ Finset.range q, ((look w ps p).elim 0 (fun x => (ent x).length)) := by
    intro q
    induction q with
    | zero => intro _; simp [ones, cnt, enc]
    | succ q ih =>
      intro hq
      rw [Finset.sum_range_succ, ← ih (by omega)]
      unfold look
      by_cases hb : w.testBit q = true
      · rw [if_pos hb]
        have hlt := ones_lt (by omega : q < W) hb
        have he : ones (q + 1) w = ones q w + 1 := by simp [ones, cnt, hb]
        rw [h] at hlt
        rw [he, List.getElem?_eq_getElem hlt, List.take_succ_eq_append_getElem hlt, enc_append]
        simp [enc]
      · rw [if_neg hb]
        have he : ones (q + 1) w = ones q w := by simp [ones, cnt, hb]
        rw [he]; rfl
  have := key W (Nat.le_refl _)
  rw [h, List.take_length] at this
  exact this

theorem sum_chunks (F : Nat → Nat) (W n : Nat) :
    ∑ i ∈ Finset.range (n * W), F i = ∑ c ∈ Finset.range n, ∑ p ∈ Finset.range W, F (c * W + p) := by
  induction n with
  | zero => simp
  | succ n ih => rw [Nat.succ_mul, Finset.sum_range_add, ih, Finset.sum_range_succ]

theorem bytes_tot (hw : W = 8 ∨ W = 16 ∨ W = 32 ∨ W = 64) {hv2 : vs + 1 < 2 ^ 64} {c : Nat} {m : CompactBonsaiNlm} (h : (spec W vs hw hv2).Inv c m) (ho : Owner m) :
    m.heap.bytes = tot (psz vs) ((spec W vs hw hv2).L m) c := by
  obtain ⟨h1, _, g, hg⟩ := h
  have hW : 0 < W := by omega
  rw [Heap.bytes_owned ho, ← h1]
  unfold tot
  rw [sum_chunks]
  refine Finset.sum_congr rfl (fun c hc => ?_)
  have hc : c < m.ptrs.size := Finset.mem_range.1 hc
  have hat : ∀ p, p < W → (c * W + p) / W = c ∧ (c * W + p) % W = p := by
    intro p hp
    rw [Nat.mul_comm, Nat.mul_add_div hW, Nat.mul_add_mod, Nat.div_eq_of_lt hp, Nat.mod_eq_of_lt hp]
    exact ⟨rfl, rfl⟩
  have hlt : ∀ p, p < W → c * W + p < m.ptrs.size * W := by
    intro p hp
    calc c * W + p < c * W + W := by omega
      _ = (c + 1) * W := by rw [Nat.succ_mul]
      _ ≤ _ := Nat.mul_le_mul_right W hc
  obtain ⟨ptr, w, _, k2, k3, k4, _⟩ := hg.at hW (hlt 0 hW)
  rw [(hat 0 hW).1] at k2 k3 k4
  have hl : (m.ptrs[c]?).join.elim 0 m.heap.sz = (enc (g c)).length := by
    rw [k2]
    cases ptr with
    | none => rw [k4.emp rfl]; rfl
    | some a =>
      have := k4.mem a rfl
      simp [Heap.sz, this]
  rw [hl, enc_len k4.len]
  refine Finset.sum_congr rfl (fun p hp => ?_)
  have hp := Finset.mem_range.1 hp
  obtain ⟨ptr', w', _, q2, q3, q4, q5⟩ := hg.at hW (hlt p hp)
  rw [(hat p hp).1] at q2 q3 q4 q5
  rw [(hat p hp).2] at q5
  rw [k3] at q3; cases q3
  show _ = (cL W vs m.ptrs m.chunks m.heap (c * W + p) false).elim 0 _
  rw [q5]
  cases hlk : look w (g c) p with
  | none => rfl
  | some x =>
    have hx : x ∈ g c := by
      unfold look at hlk
      split at hlk
      · exact List.mem_of_getElem? hlk
      · cases hlk
    have := (k4.pay x hx).len
    simp [payL, this, psz, ent, show x.length - vs + vs = x.length by omega]

def J (vs : Nat) (L : CompactBonsaiNlm → Nat → Bool → Option (List UInt8 × List UInt8)) (c : Nat) (m : CompactBonsaiNlm) : Prop :=
  Owner m ∧ m.labelBytes = tot (psz vs) (L m) c

theorem insert_labelBytes {m m' : CompactBonsaiNlm} {i : Nat} {key : List UInt8} {l : Loc} (h : insert W vs m i key = .ok (m', l)) :
    m'.labelBytes = m.labelBytes + psz vs key := by
  have hk : (if key.isEmpty then 0 else key.length - 1) = key.length - 1 := by cases key <;> rfl
  unfold insert at h
  dsimp only at h
  rw [hk] at h
  unfold psz
  rw [← VByte.size_eq]
  obtain ⟨w, _, h⟩ := R.bind_eq_ok h
  obtain ⟨_, _, h⟩ := R.bind_eq_ok h
  obtain ⟨_, _, h⟩ := R.bind_eq_ok h
  obtain ⟨w', _, h⟩ := R.bind_eq_ok h
  obtain ⟨cs, _, h⟩ := R.bind_eq_ok h
  obtain ⟨p, hp, h⟩ := R.bind_eq_ok h
  cases p with
  | none =>
    dsimp only at h
    obtain ⟨ps, hps, h⟩ := R.bind_eq_ok h
    obtain ⟨⟨h1, d⟩, e1, h⟩ := R.bind_eq_ok h
    dsimp only at h
    obtain ⟨h2, e2, h⟩ := R.bind_eq_ok h
    obtain ⟨h3, e3, h⟩ := R.bind_eq_ok h
    cases h
    dsimp only; omega
  | some a =>
    dsimp only at h
    obtain ⟨⟨fr, bk⟩, _, h⟩ := R.bind_eq_ok h
    dsimp only at h
    obtain ⟨h1, e1, h⟩ := R.bind_eq_ok h
    obtain ⟨⟨h2, d⟩, e2, h⟩ := R.bind_eq_ok h
    dsimp only at h
    obtain ⟨h3, e3, h⟩ := R.bind_eq_ok h
    obtain ⟨h4, e4, h⟩ := R.bind_eq_ok h
    obtain ⟨h5, e5, h⟩ := R.bind_eq_ok h
    obtain ⟨h6, e6, h⟩ := R.bind_eq_ok h
    obtain ⟨ps, hps, h⟩ := R.bind_eq_ok h
    cases h
    dsimp only; omega

theorem cL_false {ptrs : Array (Option Nat)} {chunks : Array Nat} {h : Heap} {g : Nat → List (List UInt8)} (ho : Ob W vs ptrs chunks h g) (hW : 0 < W)
    {i : Nat} {e : Bool} {l v : List UInt8} (hL : cL W vs ptrs chunks h i e = some (l, v)) :
    ∃ x, cL W vs ptrs chunks h i false = some x ∧ psz vs x.1 = psz vs l := by
  obtain ⟨hi, a, w, p, h1, h2, h3, h4, h5, h6, h7, h8⟩ := ho.isSome hW hL
  cases e with
  | false => exact ⟨_, hL, rfl⟩
  | true =>
    obtain ⟨ptr', w', _, q2, q3, q4, q5⟩ := ho.at hW hi
    rw [h2] at q3; cases q3
    rw [q5]
    unfold look
    rw [if_pos h5, h6]
    unfold payL at h8 ⊢
    rw [if_pos h7.len] at h8
    simp only [if_true] at h8
    split at h8
    next hp =>
      cases h8
      exact ⟨_, by rw [Option.bind_some, if_pos h7.len]; rfl, by simp [psz, hp]⟩
    next => cases h8

/-- the contract with the additional invariant -/
def specB (W vs : Nat) (hw : W = 8 ∨ W = 16 ∨ W = 32 ∨ W = 64) (hv2 : vs + 1 < 2 ^ 64) : NlmSpec (ops W vs) .bonsai vs :=
  (spec W vs hw hv2).strengthen (J vs (spec W vs hw hv2).L)
  (fun b m h hL => ⟨((evoOwn W vs).make h).1, by
    rw [tot_none hL]
    change make W b = _ at h
    unfold make at h
    split at h
    · cases h; rfl
    · cases h⟩)
  (fun c m i key m' p _ hJ hi h0 hk h hI h1 h2 => ⟨((evoOwn W vs).insert hJ.1 h).1, by
    obtain ⟨g, ho⟩ := hI.2.2
    obtain ⟨x, x1, x2⟩ := cL_false ho (by omega) h1
    have x1 : (spec W vs hw hv2).L m' i false = some x := x1
    rw [insert_labelBytes h, hJ.2, tot_add hi (h0 false) x1 (fun j hj => h2 j false hj), x2]⟩)
  (fun c m nm m' D f _ hJ h hI h3 h4 h5 h6 h7 => ⟨((evoOwn W vs).expand hJ.1 h).1, by
    rw [tot_expand h3 h4 h5 h6 h7, ← hJ.2]
    change expand W m nm = _ at h
    unfold expand at h
    obtain ⟨b, _, h⟩ := R.bind_eq_ok h
    obtain ⟨n1, e1, h⟩ := R.bind_eq_ok h
    obtain ⟨⟨old, new⟩, e2, h⟩ := R.bind_eq_ok h
    dsimp only at h
    obtain ⟨hh, e3, h⟩ := R.bind_eq_ok h
    cases h
    rfl⟩)
  (fun c m p w m' _ hJ h hI h1 => ⟨((evoOwn W vs).store hJ.1 h).1, by
    rw [tot_same h1, ← hJ.2]
    change store m p w = _ at h
    unfold store at h
    split at h
    · cases h
    · obtain ⟨x, e, h⟩ := R.bind_eq_ok h
      cases h
      rfl⟩)

theorem labelBytes_eq {hw : W = 8 ∨ W = 16 ∨ W = 32 ∨ W = 64} {hv2 : vs + 1 < 2 ^ 64} {c : Nat} {m : CompactBonsaiNlm} (h : (specB W vs hw hv2).Inv c m) :
    m.labelBytes = m.heap.bytes := by
  rw [bytes_tot hw h.1 h.2.1, h.2.2]

end CompactBonsaiNlm
end Poplar
