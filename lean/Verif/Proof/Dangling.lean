import Verif.Proof.Evolve
import Verif.Proof.CompactFkNlm
import Verif.Proof.CompactBonsaiNlm
/-
  Which heap blocks the compact node label maps release.
-/
namespace Poplar

namespace Heap

/-- the same blocks are live -/
def Same (h h' : Heap) : Prop := h'.next = h.next ∧ ∀ y, h'.B y = none ↔ h.B y = none

theorem Same.refl (h : Heap) : Same h h := ⟨rfl, fun _ => Iff.rfl⟩
theorem Same.trans {a b c : Heap} (h1 : Same a b) (h2 : Same b c) : Same a c :=
  ⟨h2.1.trans h1.1, fun y => (h2.2 y).trans (h1.2 y)⟩

theorem block_inv {h : Heap} {a : Nat} {b : List UInt8} (hb : h.block a = .ok b) : h.B a = some b := by
  rw [block_eq] at hb
  split at hb
  · cases hb; assumption
  · cases hb

theorem block_none {h : Heap} {a : Nat} (hb : h.B a = none) : h.block a = .error .oob := by
  rw [block_eq, hb]

theorem put_same {h h' : Heap} {a : Nat} {b : List UInt8} (e : h.put a b = .ok h') : Same h h' := by
  obtain ⟨c, hc, _⟩ := R.bind_eq_ok e
  obtain ⟨h2, e2, e3, e4⟩ := put_ok (block_inv hc) b
  rw [e] at e2; cases e2
  refine ⟨e3, fun y => ?_⟩
  rw [e4]
  split
  next hy => subst hy; rw [block_inv hc]; simp
  next => exact Iff.rfl

theorem write_same {h h' : Heap} {a off : Nat} {x : UInt8} (e : h.write a off x = .ok h') : Same h h' := by
  obtain ⟨c, hc, e⟩ := R.bind_eq_ok e
  split at e
  · exact put_same e
  · cases e

theorem copyIn_same : ∀ (xs : List UInt8) {h h' : Heap} {a off : Nat}, h.copyIn a off xs = .ok h' → Same h h' := by
  intro xs
  induction xs with
  | nil => intro h h' a off e; cases e; exact Same.refl _
  | cons x xs ih =>
    intro h h' a off e
    obtain ⟨h1, e1, e⟩ := R.bind_eq_ok e
    exact (write_same e1).trans (ih e)

theorem copyBytes_same : ∀ (n : Nat) {h h' : Heap} {d dof s sof : Nat}, h.copyBytes d dof s sof n = .ok h' → Same h h' := by
  intro n
  induction n with
  | zero => intro h h' d dof s sof e; cases e; exact Same.refl _
  | succ n ih =>
    intro h h' d dof s sof e
    obtain ⟨x, _, e⟩ := R.bind_eq_ok e
    obtain ⟨h1, e1, e⟩ := R.bind_eq_ok e
    exact (write_same e1).trans (ih e)

theorem encode_same {h h' : Heap} {a off v n : Nat} (e : h.encode a off v = .ok (h', n)) : Same h h' := by
  obtain ⟨b, _, e⟩ := R.bind_eq_ok e
  obtain ⟨⟨b2, n2⟩, _, e⟩ := R.bind_eq_ok e
  obtain ⟨h1, e1, e⟩ := R.bind_eq_ok e
  cases e
  exact put_same e1

theorem free_inv {h h' : Heap} {a : Nat} (e : h.free a = .ok h') :
    h'.next = h.next ∧ h.B a ≠ none ∧ ∀ y, h'.B y = if y = a then none else h.B y := by
  obtain ⟨c, hc, _⟩ := R.bind_eq_ok e
  obtain ⟨h2, e2, e3, e4⟩ := free_ok (block_inv hc)
  rw [e] at e2; cases e2
  exact ⟨e3, by rw [block_inv hc]; simp, e4⟩

theorem load_none {h : Heap} {a off vs : Nat} (hb : h.B a = none) : h.load a off vs = .error .oob := by
  unfold load; rw [block_none hb]; rfl

theorem load_inv {h : Heap} {a off vs : Nat} {v : List UInt8} (e : h.load a off vs = .ok v) : h.B a ≠ none := by
  intro hb; rw [load_none hb] at e; cases e

end Heap

namespace CompactFkNlm
variable {W vs : Nat}

/-- the number of full chunks that have been moved out of the buffer -/
def Rel (W : Nat) (m : CompactFkNlm) : Prop := m.chunkPtrs.size = (m.size - 1) / W

theorem nextSlot_inv (hW : 0 < W) {m m' : CompactFkNlm} (hm : Rel W m) (h : nextSlot W m = .ok m') :
    m'.chunkPtrs.size = (m'.size - 1) / W ∧ m'.size = m.size + 1 := by
  unfold nextSlot at h
  dsimp only at h
  unfold Rel at hm
  have hdm := Nat.div_add_mod m.size W
  split at h
  next hc =>
    obtain ⟨hc1, hc2⟩ : m.size / W ≠ 0 ∧ m.size % W = 0 := by simpa using hc
    obtain ⟨h1, _, h⟩ := R.bind_eq_ok h
    cases h
    refine ⟨?_, rfl⟩
    simp only [Array.size_push, Nat.add_sub_cancel, hm]
    obtain ⟨q, hq⟩ : ∃ q, m.size / W = q + 1 := ⟨m.size / W - 1, (Nat.succ_pred_eq_of_ne_zero hc1).symm⟩
    have e : m.size - 1 = W * q + (W - 1) := by
      rw [hq, hc2, Nat.mul_add] at hdm; omega
    rw [e, hq, Nat.mul_add_div hW, Nat.div_eq_of_lt (by omega)]
  next hc =>
    cases h
    refine ⟨?_, rfl⟩
    simp only [Nat.add_sub_cancel, hm]
    by_cases h0 : m.size / W = 0
    · have : m.size < W := by
        rcases Nat.lt_or_ge m.size W with h | h
        · exact h
        · have := Nat.div_pos h hW; omega
      rw [h0, Nat.div_eq_of_lt (by omega)]
    · have hr : m.size % W ≠ 0 := by
        intro h1; exact hc (by simp [h0, h1])
      have hlt := Nat.mod_lt m.size hW
      have e : m.size - 1 = W * (m.size / W) + (m.size % W - 1) := by omega
      have e2 : (m.size % W - 1) / W = 0 := Nat.div_eq_of_lt (by omega)
      rw [e, Nat.mul_add_div hW, e2, Nat.add_zero]

theorem append_inv (hW : 0 < W) {m m' : CompactFkNlm} {k : List UInt8} {l : Loc} (hm : Rel W m)
    (h : append W vs m k = .ok (m', l)) : Rel W m' ∧ m'.size = m.size + 1 ∧ l.blk = .buf m'.chunkPtrs.size := by
  obtain ⟨m1, h1, h⟩ := R.bind_eq_ok h
  cases h
  obtain ⟨q1, q2⟩ := nextSlot_inv hW hm h1
  exact ⟨q1, q2, rfl⟩

theorem evo (hW : 0 < W) : Evo (ops W vs) (Rel W) (fun m m' => m.size ≤ m'.size) where
  refl _ := Nat.le_refl _
  trans := Nat.le_trans
  empty := by simp [Rel, ops]
  make := by
    intro b n h
    change make b = _ at h
    unfold make at h
    split at h
    · cases h; exact ⟨by simp [Rel], Nat.zero_le _⟩
    · cases h
  insert := by rintro n i k n' l _ ⟨⟩
  append := by
    intro n k n' l hn h
    obtain ⟨q1, q2, _⟩ := append_inv hW hn h
    exact ⟨q1, by omega⟩
  dummy := by
    intro n n' hn h
    obtain ⟨m1, h1, h⟩ := R.bind_eq_ok h
    cases h
    obtain ⟨q1, q2⟩ := nextSlot_inv hW hn h1
    exact ⟨q1, by show n.size ≤ m1.size; omega⟩
  expand := by rintro n i k _ ⟨⟩
  store := by
    intro n l v n' hn h
    change store n l v = _ at h
    unfold store at h
    split at h
    · split at h
      · obtain ⟨x, _, h⟩ := R.bind_eq_ok h
        cases h; exact ⟨hn, Nat.le_refl _⟩
      · cases h
    · obtain ⟨x, _, h⟩ := R.bind_eq_ok h
      cases h; exact ⟨hn, Nat.le_refl _⟩

/-- a pointer into the buffer is invalid once `W` more labels have been stored -/
theorem load_stale (hW : 0 < W) {m m' : CompactFkNlm} {l : Loc} (hm : Rel W m) (hm' : Rel W m') (hl : l.blk = .buf m.chunkPtrs.size)
    (h0 : 0 < m.size) (h : m.size + W ≤ m'.size) : load vs m' l = .error .oob := by
  unfold load
  rw [hl]
  dsimp only
  rw [if_neg]
  rintro ⟨e, _⟩
  rw [hm, hm'] at e
  have h1 : (m.size - 1 + W) / W ≤ (m'.size - 1) / W := Nat.div_le_div_right (by omega)
  rw [Nat.add_div_right _ hW] at h1
  omega

end CompactFkNlm

namespace CompactBonsaiNlm
variable {W vs : Nat}

/-- every live block belongs to a chunk -/
def Own (m : CompactBonsaiNlm) : Prop := ∀ a, m.heap.B a ≠ none → ∃ c : Nat, m.ptrs[c]? = some (some a)

/-- released blocks stay released; a change of the number of chunks releases all blocks -/
def Ev (m m' : CompactBonsaiNlm) : Prop :=
  m.heap.next ≤ m'.heap.next ∧ (∀ a, a < m.heap.next → m.heap.B a = none → m'.heap.B a = none) ∧
    (m'.ptrs.size ≠ m.ptrs.size → ∀ a, a < m.heap.next → m'.heap.B a = none)

/-- the block of one chunk has been replaced by a new one -/
def Put (m m' : CompactBonsaiNlm) : Prop :=
  ∃ (c : Nat) (ptr : Option Nat), m.ptrs[c]? = some ptr ∧ m'.ptrs = m.ptrs.setIfInBounds c (some m.heap.next) ∧
    m'.heap.next = m.heap.next + 1 ∧
    ∀ y, m'.heap.B y ≠ none → y = m.heap.next ∨ (some y ≠ ptr ∧ m.heap.B y ≠ none)

theorem rd_inv {α : Type} {x : Array α} {i : Nat} {v : α} (h : rd x i = .ok v) : x[i]? = some v := by
  unfold rd at h
  split at h
  · cases h; assumption
  · cases h

theorem wr_inv {α : Type} {x x' : Array α} {i : Nat} {v : α} (h : wr x i v = .ok x') : x' = x.setIfInBounds i v := by
  unfold wr at h
  split at h
  · cases h; rfl
  · cases h

/-- the heap operations between allocation and release -/
theorem put_some {h h1 h2 : Heap} {n a : Nat} (hs : Heap.Same (h.alloc n).1 h1) (hf : h1.free a = .ok h2) :
    h2.next = h.next + 1 ∧ ∀ y, h2.B y ≠ none → y = h.next ∨ (some y ≠ some a ∧ h.B y ≠ none) := by
  obtain ⟨_, a2, a3⟩ := Heap.alloc_spec h n
  obtain ⟨f1, _, f3⟩ := Heap.free_inv hf
  refine ⟨by rw [f1, hs.1, a2], ?_⟩
  intro y hy
  rw [f3] at hy
  split at hy
  · exact absurd rfl hy
  next hya =>
    have h1 := mt (hs.2 y).2 hy
    rw [a3] at h1
    split at h1
    next e => exact Or.inl e
    next => exact Or.inr ⟨fun e => hya (Option.some.inj e), h1⟩

theorem put_none {h h1 : Heap} {n : Nat} (hs : Heap.Same (h.alloc n).1 h1) :
    h1.next = h.next + 1 ∧ ∀ y, h1.B y ≠ none → y = h.next ∨ (some y ≠ none ∧ h.B y ≠ none) := by
  obtain ⟨_, a2, a3⟩ := Heap.alloc_spec h n
  refine ⟨by rw [hs.1, a2], ?_⟩
  intro y hy
  have h1 := mt (hs.2 y).2 hy
  rw [a3] at h1
  split at h1
  next e => exact Or.inl e
  next => exact Or.inr ⟨by simp, h1⟩

theorem insert_put {m m' : CompactBonsaiNlm} {pos : Nat} {key : List UInt8} {l : Loc} (h : insert W vs m pos key = .ok (m', l)) :
    Put m m' ∧ l.blk = .heap m.heap.next := by
  unfold insert at h
  dsimp only at h
  obtain ⟨w, _, h⟩ := R.bind_eq_ok h
  obtain ⟨_, _, h⟩ := R.bind_eq_ok h
  obtain ⟨_, _, h⟩ := R.bind_eq_ok h
  obtain ⟨w', _, h⟩ := R.bind_eq_ok h
  obtain ⟨cs, _, h⟩ := R.bind_eq_ok h
  obtain ⟨p, hp, h⟩ := R.bind_eq_ok h
  cases p with
  | none =>
    dsimp only at h
    obtain ⟨ps, hps, h⟩ := R.bind_eq_ok h
    obtain ⟨⟨h1, d⟩, e1, h⟩ := R.bind_eq_ok h
    dsimp only at h
    obtain ⟨h2, e2, h⟩ := R.bind_eq_ok h
    obtain ⟨h3, e3, h⟩ := R.bind_eq_ok h
    cases h
    obtain ⟨q1, q2⟩ := put_none (((Heap.encode_same e1).trans (Heap.copyIn_same _ e2)).trans (Heap.copyIn_same _ e3))
    exact ⟨⟨_, _, rd_inv hp, wr_inv hps, q1, q2⟩, rfl⟩
  | some a =>
    dsimp only at h
    obtain ⟨⟨fr, bk⟩, _, h⟩ := R.bind_eq_ok h
    dsimp only at h
    obtain ⟨h1, e1, h⟩ := R.bind_eq_ok h
    obtain ⟨⟨h2, d⟩, e2, h⟩ := R.bind_eq_ok h
    dsimp only at h
    obtain ⟨h3, e3, h⟩ := R.bind_eq_ok h
    obtain ⟨h4, e4, h⟩ := R.bind_eq_ok h
    obtain ⟨h5, e5, h⟩ := R.bind_eq_ok h
    obtain ⟨h6, e6, h⟩ := R.bind_eq_ok h
    obtain ⟨ps, hps, h⟩ := R.bind_eq_ok h
    cases h
    obtain ⟨q1, q2⟩ := put_some (((((Heap.copyBytes_same _ e1).trans (Heap.encode_same e2)).trans (Heap.copyIn_same _ e3)).trans
      (Heap.copyIn_same _ e4)).trans (Heap.copyBytes_same _ e5)) e6
    exact ⟨⟨_, _, rd_inv hp, wr_inv hps, q1, q2⟩, rfl⟩

theorem setSlice_put {m m' : CompactBonsaiNlm} {c p src soff len : Nat} (h : setSlice W m c p src soff len = .ok m') : Put m m' := by
  unfold setSlice at h
  dsimp only at h
  obtain ⟨w, _, h⟩ := R.bind_eq_ok h
  obtain ⟨_, _, h⟩ := R.bind_eq_ok h
  obtain ⟨_, _, h⟩ := R.bind_eq_ok h
  obtain ⟨w', _, h⟩ := R.bind_eq_ok h
  obtain ⟨cs, _, h⟩ := R.bind_eq_ok h
  obtain ⟨p, hp, h⟩ := R.bind_eq_ok h
  cases p with
  | none =>
    dsimp only at h
    obtain ⟨ps, hps, h⟩ := R.bind_eq_ok h
    obtain ⟨h1, e1, h⟩ := R.bind_eq_ok h
    cases h
    obtain ⟨q1, q2⟩ := put_none (Heap.copyBytes_same _ e1)
    exact ⟨_, _, rd_inv hp, wr_inv hps, q1, q2⟩
  | some a =>
    dsimp only at h
    obtain ⟨⟨fr, bk⟩, _, h⟩ := R.bind_eq_ok h
    dsimp only at h
    obtain ⟨h1, e1, h⟩ := R.bind_eq_ok h
    obtain ⟨h3, e3, h⟩ := R.bind_eq_ok h
    obtain ⟨h5, e5, h⟩ := R.bind_eq_ok h
    obtain ⟨h6, e6, h⟩ := R.bind_eq_ok h
    obtain ⟨ps, hps, h⟩ := R.bind_eq_ok h
    cases h
    obtain ⟨q1, q2⟩ := put_some (((Heap.copyBytes_same _ e1).trans (Heap.copyBytes_same _ e3)).trans (Heap.copyBytes_same _ e5)) e6
    exact ⟨_, _, rd_inv hp, wr_inv hps, q1, q2⟩

/-- ownership is kept; `A` are blocks owned by another object -/
theorem Put.own {m m' : CompactBonsaiNlm} (h : Put m m') {A : Nat → Prop}
    (ho : ∀ a, m.heap.B a ≠ none → A a ∨ ∃ c : Nat, m.ptrs[c]? = some (some a)) :
    ∀ a, m'.heap.B a ≠ none → A a ∨ ∃ c : Nat, m'.ptrs[c]? = some (some a) := by
  obtain ⟨c, ptr, h1, h2, h3, h4⟩ := h
  have hc : c < m.ptrs.size := by
    by_contra hc; rw [Array.getElem?_eq_none (by omega)] at h1; cases h1
  intro a ha
  rcases h4 a ha with rfl | ⟨q1, q2⟩
  · exact Or.inr ⟨c, by rw [h2]; exact Array.getElem?_setIfInBounds_self_of_lt hc⟩
  · rcases ho a q2 with q | ⟨d, hd⟩
    · exact Or.inl q
    · refine Or.inr ⟨d, ?_⟩
      have : d ≠ c := by
        rintro rfl; rw [h1] at hd; cases hd; exact q1 rfl
      rw [h2, Array.getElem?_setIfInBounds_ne (Ne.symm this), hd]

theorem Put.size {m m' : CompactBonsaiNlm} (h : Put m m') : m'.ptrs.size = m.ptrs.size := by
  obtain ⟨c, ptr, h1, h2, h3, h4⟩ := h
  rw [h2]; simp

theorem Put.ev {m m' : CompactBonsaiNlm} (h : Put m m') : Ev m m' := by
  refine ⟨?_, ?_, fun e => absurd h.size e⟩
  · obtain ⟨c, ptr, h1, h2, h3, h4⟩ := h; omega
  · obtain ⟨c, ptr, h1, h2, h3, h4⟩ := h
    intro a ha hn
    by_contra hc
    rcases h4 a hc with q | ⟨_, q⟩
    · omega
    · exact q hn

/-- the two objects during `expand` -/
structure Two (n0 : Nat) (old new : CompactBonsaiNlm) : Prop where
  own : ∀ a, new.heap.B a ≠ none → (∃ c : Nat, old.ptrs[c]? = some (some a)) ∨ ∃ c : Nat, new.ptrs[c]? = some (some a)
  next : n0 ≤ new.heap.next
  fresh : ∀ (c : Nat) a, new.ptrs[c]? = some (some a) → n0 ≤ a

theorem Two.put {n0 : Nat} {old new new' : CompactBonsaiNlm} (h : Two n0 old new) (hp : Put new new') : Two n0 old new' := by
  refine ⟨hp.own h.own, ?_, ?_⟩
  · have := hp.ev.1; have := h.next; omega
  · obtain ⟨c, ptr, h1, h2, h3, h4⟩ := hp
    intro d a hd
    rw [h2, Array.getElem?_setIfInBounds] at hd
    split at hd
    · split at hd
      · cases hd; exact h.next
      · cases hd
    · exact h.fresh d a hd

theorem moveOne_two {n0 : Nat} {nm : NodeMap} {pos : Nat} {old new new' : CompactBonsaiNlm} (h : Two n0 old new)
    (e : moveOne W nm pos old new = .ok new') : Two n0 old new' := by
  unfold moveOne at e
  obtain ⟨np, _, e⟩ := R.bind_eq_ok e
  split at e
  · obtain ⟨sl, _, e⟩ := R.bind_eq_ok e
    split at e
    · cases e; exact h
    · split at e
      · cases e; exact h
      · exact h.put (setSlice_put e)
  · cases e; exact h

theorem freeOpt_inv {h h' : Heap} {p : Option Nat} (e : h.freeOpt p = .ok h') :
    h'.next = h.next ∧ ∀ y, h'.B y ≠ none → h.B y ≠ none ∧ some y ≠ p := by
  cases p with
  | none => cases e; exact ⟨rfl, fun y hy => ⟨hy, by simp⟩⟩
  | some a =>
    obtain ⟨f1, _, f3⟩ := Heap.free_inv e
    refine ⟨f1, fun y hy => ?_⟩
    rw [f3] at hy
    split at hy
    · exact absurd rfl hy
    next hya => exact ⟨hy, fun e => hya (Option.some.inj e)⟩

theorem expandLoop_two {n0 : Nat} {nm : NodeMap} : ∀ (n pos : Nat) {old new old' new' : CompactBonsaiNlm}, Two n0 old new →
    expandLoop W nm n pos old new = .ok (old', new') → Two n0 old' new' := by
  intro n
  induction n with
  | zero => intro pos old new old' new' h e; cases e; exact h
  | succ n ih =>
    intro pos old new old' new' h e
    unfold expandLoop at e
    obtain ⟨n1, e1, e⟩ := R.bind_eq_ok e
    have h1 := moveOne_two h e1
    split at e
    · obtain ⟨p, hp, e⟩ := R.bind_eq_ok e
      obtain ⟨hh, e2, e⟩ := R.bind_eq_ok e
      obtain ⟨ps, e3, e⟩ := R.bind_eq_ok e
      refine ih _ ?_ e
      obtain ⟨f1, f2⟩ := freeOpt_inv e2
      refine ⟨?_, by show n0 ≤ hh.next; rw [f1]; exact h1.next, h1.fresh⟩
      intro a ha
      obtain ⟨g1, g2⟩ := f2 a ha
      rcases h1.own a g1 with ⟨c, hc⟩ | q
      · refine Or.inl ⟨c, ?_⟩
        rw [show ({ old with ptrs := ps } : CompactBonsaiNlm).ptrs = _ from wr_inv e3, Array.getElem?_setIfInBounds_ne]
        · exact hc
        · rintro rfl
          rw [rd_inv hp] at hc; cases hc; exact g2 rfl
      · exact Or.inr q
    · exact ih _ h1 e

theorem freeAll_inv : ∀ (ps : List (Option Nat)) {h h' : Heap}, ps.foldlM (fun h p => h.freeOpt p) h = .ok h' →
    h'.next = h.next ∧ ∀ y, h'.B y ≠ none → h.B y ≠ none ∧ some y ∉ ps := by
  intro ps
  induction ps with
  | nil => intro h h' e; cases e; exact ⟨rfl, fun y hy => ⟨hy, by simp⟩⟩
  | cons p ps ih =>
    intro h h' e
    rw [List.foldlM_cons] at e
    obtain ⟨h1, e1, e⟩ := R.bind_eq_ok e
    obtain ⟨f1, f2⟩ := freeOpt_inv e1
    obtain ⟨g1, g2⟩ := ih e
    refine ⟨g1.trans f1, fun y hy => ?_⟩
    obtain ⟨q1, q2⟩ := g2 y hy
    obtain ⟨q3, q4⟩ := f2 y q1
    exact ⟨q3, by simp only [List.mem_cons, not_or]; exact ⟨q4, q2⟩⟩

/-- `expand` releases every block -/
theorem expand_inv {m m' : CompactBonsaiNlm} {nm : NodeMap} (ho : Own m) (e : expand W m nm = .ok m') :
    Own m' ∧ m.heap.next ≤ m'.heap.next ∧ ∀ a, a < m.heap.next → m'.heap.B a = none := by
  unfold expand at e
  obtain ⟨b, _, e⟩ := R.bind_eq_ok e
  obtain ⟨n1, e1, e⟩ := R.bind_eq_ok e
  obtain ⟨⟨old, new⟩, e2, e⟩ := R.bind_eq_ok e
  dsimp only at e
  obtain ⟨hh, e3, e⟩ := R.bind_eq_ok e
  cases e
  have h0 : Two m.heap.next m { n1 with heap := m.heap } := by
    refine ⟨fun a ha => Or.inl (ho a ha), Nat.le_refl _, ?_⟩
    intro c a hc
    unfold make at e1
    split at e1
    · cases e1
      simp only [Array.getElem?_replicate] at hc
      split at hc <;> cases hc
    · cases e1
  have h1 := expandLoop_two _ _ h0 e2
  obtain ⟨f1, f2⟩ := freeAll_inv _ e3
  have hown : ∀ a, hh.B a ≠ none → ∃ c : Nat, new.ptrs[c]? = some (some a) := by
    intro a ha
    obtain ⟨g1, g2⟩ := f2 a ha
    rcases h1.own a g1 with ⟨c, hc⟩ | q
    · exact absurd (Array.mem_toList_iff.2 (Array.mem_of_getElem? hc)) g2
    · exact q
  refine ⟨hown, by show _ ≤ hh.next; rw [f1]; exact h1.next, ?_⟩
  intro a ha
  by_contra hc
  obtain ⟨c, hc⟩ := hown a hc
  have := h1.fresh c a hc
  omega

theorem evo : Evo (ops W vs) Own Ev where
  refl _ := ⟨Nat.le_refl _, fun _ _ h => h, fun e => absurd rfl e⟩
  trans := by
    rintro a b c ⟨h1, h2, h3⟩ ⟨g1, g2, g3⟩
    refine ⟨Nat.le_trans h1 g1, fun x hx hn => g2 x (by omega) (h2 x hx hn), ?_⟩
    intro e x hx
    by_cases e1 : b.ptrs.size = a.ptrs.size
    · exact g3 (by omega) x (by omega)
    · exact g2 x (by omega) (h3 e1 x hx)
  empty := by intro a ha; exact absurd (by simp [ops, Heap.B]) ha
  make := by
    intro b n h
    change make W b = _ at h
    unfold make at h
    split at h
    · cases h
      refine ⟨fun a ha => absurd (by simp [Heap.B]) ha, Nat.le_refl _, fun a ha => by simp [ops, Heap.next] at ha, fun _ a ha => by simp [ops, Heap.next] at ha⟩
    · cases h
  insert := by
    intro n i k n' l hn h
    obtain ⟨h1, _⟩ := insert_put h
    refine ⟨fun a ha => ?_, h1.ev⟩
    rcases h1.own (A := fun _ => False) (fun a ha => Or.inr (hn a ha)) a ha with q | q
    · exact q.elim
    · exact q
  append := by rintro n k n' l _ ⟨⟩
  dummy := by rintro n n' _ ⟨⟩
  expand := by
    intro n nm n' hn h
    obtain ⟨q1, q2, q3⟩ := expand_inv hn h
    exact ⟨q1, q2, fun a ha _ => q3 a ha, fun _ => q3⟩
  store := by
    intro n l v n' hn h
    change store n l v = _ at h
    unfold store at h
    split at h
    · cases h
    · obtain ⟨x, e, h⟩ := R.bind_eq_ok h
      cases h
      have hs := Heap.copyIn_same _ e
      exact ⟨fun a ha => hn a (mt (hs.2 a).2 ha), Nat.le_of_eq hs.1.symm, fun a _ h => (hs.2 a).2 h,
        fun e => absurd rfl e⟩

theorem load_live {m : CompactBonsaiNlm} {l : Loc} {v : List UInt8} (h : load vs m l = .ok v) :
    ∃ a, l.blk = .heap a ∧ m.heap.B a ≠ none := by
  unfold load at h
  split at h
  · cases h
  next a e => exact ⟨a, e, Heap.load_inv h⟩

theorem load_dead {m : CompactBonsaiNlm} {l : Loc} {a : Nat} (hl : l.blk = .heap a) (h : m.heap.B a = none) :
    load vs m l = .error .oob := by
  unfold load
  rw [hl]
  exact Heap.load_none h

end CompactBonsaiNlm
end Poplar
