import Verif.Proof.Entries
/-
  `compact_fkhash_nlm` meets the contract `NlmSpec`.
-/
namespace Poplar
open Spec
namespace CompactFkNlm

/-- the bytes of chunk `c` and the block that holds them -/
def memOf (m : CompactFkNlm) (c : Nat) : Option (Blk × List UInt8) :=
  if c < m.chunkPtrs.size then (m.chunkPtrs[c]?).bind (fun a => (m.heap.B a).map (fun b => (Blk.heap a, b)))
  else if c = m.chunkPtrs.size then some (.buf m.chunkPtrs.size, m.chunkBuf) else none

def cL (W vs : Nat) (m : CompactFkNlm) (i : Nat) (e : Bool) : Option (List UInt8 × List UInt8) :=
  if i < m.size then
    (memOf m (i / W)).bind (fun x => (payAt x.2 (i % W)).bind (fun y => payL vs y.2 e))
  else none

def cAt (W vs : Nat) (m : CompactFkNlm) (l : Loc) (i : Nat) : Prop :=
  ∃ mem o p, memOf m (i / W) = some (l.blk, mem) ∧ payAt mem (i % W) = some (o, p) ∧ vs ≤ p.length ∧ l.off = o + (p.length - vs)

structure Ch (W vs : Nat) (m : CompactFkNlm) (g : Nat → List (List UInt8)) : Prop where
  mem : ∀ c ≤ m.chunkPtrs.size, ∃ b, memOf m c = some (b, enc (g c))
  inj : ∀ (i j : Nat) (a : Nat), m.chunkPtrs[i]? = some a → m.chunkPtrs[j]? = some a → i = j
  full : ∀ c < m.chunkPtrs.size, (g c).length = W
  last : m.size = m.chunkPtrs.size * W + (g m.chunkPtrs.size).length
  le : (g m.chunkPtrs.size).length ≤ W
  ne : 0 < m.chunkPtrs.size → 0 < (g m.chunkPtrs.size).length
  pay : ∀ c ≤ m.chunkPtrs.size, ∀ p ∈ g c, p = [] ∨ PayOk vs p

theorem Ch.small {W vs : Nat} {m : CompactFkNlm} {g : Nat → List (List UInt8)} (h : Ch W vs m g) {c : Nat} (hc : c ≤ m.chunkPtrs.size) :
    Small (g c) := by
  intro p hp
  rcases h.pay c hc p hp with rfl | h1
  · decide
  · have := h1.small; omega

theorem Ch.pos {W vs : Nat} {m : CompactFkNlm} {g : Nat → List (List UInt8)} (h : Ch W vs m g) (hW : 0 < W) {i : Nat} (hi : i < m.size) :
    i / W ≤ m.chunkPtrs.size ∧ i % W < (g (i / W)).length := by
  have hl := h.last
  have hle := h.le
  have hdm := Nat.div_add_mod i W
  have hm := Nat.mod_lt i hW
  have hc : i / W ≤ m.chunkPtrs.size := by
    by_contra hcon
    have : (m.chunkPtrs.size + 1) * W ≤ i / W * W := Nat.mul_le_mul_right _ (by omega)
    rw [Nat.add_mul] at this
    rw [Nat.mul_comm] at hdm
    omega
  refine ⟨hc, ?_⟩
  rcases Nat.lt_or_ge (i / W) m.chunkPtrs.size with h1 | h1
  · rw [h.full _ h1]; exact hm
  · have : i / W = m.chunkPtrs.size := by omega
    rw [this] at hdm ⊢
    rw [Nat.mul_comm] at hdm
    omega

theorem Ch.entry {W vs : Nat} {m : CompactFkNlm} {g : Nat → List (List UInt8)} (h : Ch W vs m g) (hW : 0 < W) {i : Nat} (hi : i < m.size) :
    ∃ b p, memOf m (i / W) = some (b, enc (g (i / W))) ∧ (g (i / W))[i % W]? = some p ∧
      payAt (enc (g (i / W))) (i % W) = some (poff (g (i / W)) (i % W) p, p) ∧ (p = [] ∨ PayOk vs p) := by
  obtain ⟨h1, h2⟩ := h.pos hW hi
  obtain ⟨b, hb⟩ := h.mem _ h1
  refine ⟨b, (g (i / W))[i % W], hb, List.getElem?_eq_getElem h2, payAt_some (h.small h1) (List.getElem?_eq_getElem h2), ?_⟩
  exact h.pay _ h1 _ (List.getElem_mem h2)

theorem Ch.L_eq {W vs : Nat} {m : CompactFkNlm} {g : Nat → List (List UInt8)} (h : Ch W vs m g) (hW : 0 < W) {i : Nat} (hi : i < m.size) (e : Bool) :
    cL W vs m i e = ((g (i / W))[i % W]?).bind (fun p => payL vs p e) := by
  obtain ⟨b, p, h1, h2, h3, _⟩ := h.entry hW hi
  rw [cL, if_pos hi, h1, h2]
  simp only [Option.bind_some, h3]

theorem payL_nil {vs : Nat} (hv : 0 < vs) (e : Bool) : payL vs [] e = none := by
  unfold payL; rw [if_neg (by simp; omega)]

theorem Ch.isSome {W vs : Nat} {m : CompactFkNlm} {g : Nat → List (List UInt8)} (h : Ch W vs m g) (hW : 0 < W) (hv : 0 < vs) {i : Nat} {e : Bool}
    {l v : List UInt8} (hL : cL W vs m i e = some (l, v)) :
    i < m.size ∧ ∃ b p, memOf m (i / W) = some (b, enc (g (i / W))) ∧ (g (i / W))[i % W]? = some p ∧
      payAt (enc (g (i / W))) (i % W) = some (poff (g (i / W)) (i % W) p, p) ∧ PayOk vs p ∧ payL vs p e = some (l, v) := by
  have hi : i < m.size := by
    by_contra hc; rw [cL, if_neg hc] at hL; cases hL
  obtain ⟨b, p, h1, h2, h3, h4⟩ := h.entry hW hi
  rw [h.L_eq hW hi, h2] at hL
  simp only [Option.bind_some] at hL
  refine ⟨hi, b, p, h1, h2, h3, ?_, hL⟩
  rcases h4 with rfl | h4
  · rw [payL_nil hv] at hL; cases hL
  · exact h4

theorem memOf_blk {m : CompactFkNlm} {c : Nat} {b : Blk} {mem : List UInt8} (h : memOf m c = some (b, mem)) :
    (c < m.chunkPtrs.size ∧ ∃ a, b = .heap a ∧ m.chunkPtrs[c]? = some a ∧ m.heap.B a = some mem) ∨
    (c = m.chunkPtrs.size ∧ b = .buf m.chunkPtrs.size ∧ mem = m.chunkBuf) := by
  unfold memOf at h
  split at h
  next hc =>
    refine Or.inl ⟨hc, m.chunkPtrs[c], ?_⟩
    rw [Array.getElem?_eq_getElem hc] at h ⊢
    simp only [Option.bind_some, Option.map_eq_some_iff, Prod.mk.injEq] at h
    obtain ⟨x, h1, h2, h3⟩ := h
    exact ⟨h2.symm, rfl, by rw [h1, h3]⟩
  next hc =>
    split at h
    next hc2 => cases h; exact Or.inr ⟨hc2, rfl, rfl⟩
    next => cases h

theorem compare_ok {W vs : Nat} {m : CompactFkNlm} {g : Nat → List (List UInt8)} (h : Ch W vs m g) (hW : 0 < W) (hv : 0 < vs) {i : Nat} {e : Bool}
    {l v : List UInt8} (hL : cL W vs m i e = some (l, v)) {key : List UInt8} (he : Sep key l) :
    (key = l → ∃ p, compare W vs m i key = .ok (some p, key.length) ∧ cAt W vs m p i) ∧
    (key ≠ l → compare W vs m i key = .ok (none, lcp key l)) := by
  obtain ⟨hi, b, p, h1, h2, h3, h4, h5⟩ := h.isSome hW hv hL
  obtain ⟨h6, _⟩ := h.pos hW hi
  obtain ⟨c1, c2⟩ := compareMem_ok (chk := true) (h.small h6) h2 h4 h5 he
  have main : ∀ r n, compareMem true vs (enc (g (i / W))) (i % W) key = .ok (r, n) →
      compare W vs m i key = .ok (r.map (fun o => ⟨b, o⟩), n) := by
    intro r n hr
    unfold compare
    rw [R.assert_dec hi]
    simp only [R.bind_ok]
    rcases memOf_blk h1 with ⟨q1, a, rfl, q3, q4⟩ | ⟨q1, rfl, q2⟩
    · rw [if_pos q1, rd_of_some q3]
      simp only [R.bind_ok, Heap.block_ok q4, hr, R.pure_eq]
    · rw [if_neg (by omega), R.assert_dec q1]
      simp only [R.bind_ok]
      rw [← q2, hr]; rfl
  constructor
  · intro hkl
    refine ⟨⟨b, poff (g (i / W)) (i % W) p + (p.length - vs)⟩, main _ _ (c1 hkl), ?_⟩
    exact ⟨_, _, p, h1, h3, h4.len, rfl⟩
  · intro hkl
    exact main _ _ (c2 hkl)

theorem compare_none {W vs : Nat} {m : CompactFkNlm} {g : Nat → List (List UInt8)} (h : Ch W vs m g) (hW : 0 < W) (hv : 0 < vs) {i : Nat}
    (hi : i < m.size) (hL : cL W vs m i false = none) {key : List UInt8} (hk : key ≠ []) :
    compare W vs m i key = .error .assertion := by
  obtain ⟨b, p, h1, h2, h3, h4⟩ := h.entry hW hi
  obtain ⟨h6, _⟩ := h.pos hW hi
  have hp : p = [] := by
    rcases h4 with h4 | h4
    · exact h4
    · rw [h.L_eq hW hi, h2] at hL
      simp [payL, h4.len] at hL
  subst hp
  have hcm : compareMem true vs (enc (g (i / W))) (i % W) key = .error .assertion := by
    obtain ⟨hlt, _⟩ := List.getElem?_eq_some_iff.1 h2
    unfold compareMem
    rw [skip_enc (h.small h6) (by omega)]
    simp only [R.bind_ok, decode_at (h.small h6) h2]
    have he : key.isEmpty = false := by cases key <;> simp_all
    rw [he]
    have hn : ¬ vs ≤ 0 := by omega
    simp [R.assert, hn]
  unfold compare
  rw [R.assert_dec hi]
  simp only [R.bind_ok]
  rcases memOf_blk h1 with ⟨q1, a, rfl, q3, q4⟩ | ⟨q1, rfl, q2⟩
  · rw [if_pos q1, rd_of_some q3]
    simp only [R.bind_ok, Heap.block_ok q4, hcm]; rfl
  · rw [if_neg (by omega), R.assert_dec q1]
    simp only [R.bind_ok]
    rw [← q2, hcm]; rfl

/-- one more entry -/
theorem push_ok {W vs : Nat} {m : CompactFkNlm} {g : Nat → List (List UInt8)} (h : Ch W vs m g) (hW : 0 < W) {p : List UInt8}
    (hp : p = [] ∨ PayOk vs p) :
    ∃ m1 g', nextSlot W m = .ok m1 ∧ Ch W vs { m1 with chunkBuf := m1.chunkBuf ++ ent p } g' ∧ m1.size = m.size + 1 ∧
      (g' (m.size / W))[m.size % W]? = some p ∧
      memOf { m1 with chunkBuf := m1.chunkBuf ++ ent p } (m.size / W) = some (.buf m1.chunkPtrs.size, m1.chunkBuf ++ ent p) ∧
      enc (g' (m.size / W)) = m1.chunkBuf ++ ent p ∧
      poff (g' (m.size / W)) (m.size % W) p = m1.chunkBuf.length + (vb p.length).length ∧
      ∀ i < m.size, (g' (i / W))[i % W]? = (g (i / W))[i % W]? := by
  have hl := h.last
  have hle := h.le
  have hne := h.ne
  obtain ⟨bl, hbl⟩ := h.mem _ (Nat.le_refl _)
  rcases memOf_blk hbl with ⟨q1, _⟩ | ⟨_, rfl, hbuf⟩
  · omega
  rcases Nat.lt_or_ge (g m.chunkPtrs.size).length W with hlt | hge
  · -- room in the buffer
    have hdiv : m.size / W = m.chunkPtrs.size := by
      rw [hl, Nat.mul_comm, Nat.mul_add_div hW, Nat.div_eq_of_lt hlt, Nat.add_zero]
    have hmod : m.size % W = (g m.chunkPtrs.size).length := by
      rw [hl, Nat.mul_comm, Nat.mul_add_mod, Nat.mod_eq_of_lt hlt]
    have hget : ∀ c, c ≠ m.chunkPtrs.size → gset g m.chunkPtrs.size (g m.chunkPtrs.size ++ [p]) c = g c := by
      intro c hc; simp [gset, hc]
    have hgets : gset g m.chunkPtrs.size (g m.chunkPtrs.size ++ [p]) m.chunkPtrs.size = g m.chunkPtrs.size ++ [p] := by
      simp [gset]
    have hencs : enc (g m.chunkPtrs.size ++ [p]) = m.chunkBuf ++ ent p := by
      rw [enc_append, hbuf]; simp [enc]
    refine ⟨{ m with size := m.size + 1 }, gset g m.chunkPtrs.size (g m.chunkPtrs.size ++ [p]), ?_, ?_, rfl, ?_, ?_, ?_, ?_, ?_⟩
    · unfold nextSlot
      simp only [hdiv, hmod]
      rw [if_neg]; rfl
      simp only [Bool.and_eq_true, decide_eq_true_eq, not_and]
      intro h0; have := hne (by omega); omega
    · refine ⟨?_, h.inj, ?_, ?_, ?_, ?_, ?_⟩
      · intro c hc
        simp only at hc
        by_cases e : c = m.chunkPtrs.size
        · subst e
          rw [hgets, hencs]
          exact ⟨_, by simp [memOf]; rfl⟩
        · rw [hget c e]
          obtain ⟨b, hb⟩ := h.mem c hc
          refine ⟨b, ?_⟩
          have hclt : c < m.chunkPtrs.size := by omega
          unfold memOf at hb ⊢
          simpa [hclt] using hb
      · intro c hc; simp only at hc; rw [hget c (by omega)]; exact h.full c hc
      · simp only [hgets, List.length_append, List.length_singleton]; omega
      · simp only [hgets, List.length_append, List.length_singleton]; omega
      · simp only [hgets, List.length_append, List.length_singleton]; omega
      · intro c hc q hq
        simp only at hc
        by_cases e : c = m.chunkPtrs.size
        · subst e
          rw [hgets, List.mem_append, List.mem_singleton] at hq
          rcases hq with hq | rfl
          · exact h.pay _ hc q hq
          · exact hp
        · rw [hget c e] at hq; exact h.pay c hc q hq
    · rw [hdiv, hmod, hgets]; simp
    · rw [hdiv]; simp [memOf]
    · rw [hdiv, hgets, hencs]
    · rw [hdiv, hgets, hmod]; simp [poff, hbuf]
    · intro i hi
      obtain ⟨i1, i2⟩ := h.pos hW hi
      by_cases e : i / W = m.chunkPtrs.size
      · rw [e] at i2 ⊢; rw [hgets, List.getElem?_append_left i2]
      · rw [hget _ e]
  · -- the buffer is released first
    have hlen : (g m.chunkPtrs.size).length = W := by omega
    have hsz : m.size = W * (m.chunkPtrs.size + 1) := by rw [hl, hlen, Nat.mul_comm W, Nat.add_mul]; omega
    have hdiv : m.size / W = m.chunkPtrs.size + 1 := by rw [hsz, Nat.mul_div_cancel_left _ hW]
    have hmod : m.size % W = 0 := by rw [hsz, Nat.mul_mod_right]
    obtain ⟨al1, al2, al3⟩ := m.heap.alloc_spec m.chunkBuf.length
    obtain ⟨h', c1, c2, c3⟩ := Heap.copyIn_ok m.chunkBuf (h := (m.heap.alloc m.chunkBuf.length).1) (a := m.heap.next) (off := 0)
      (b := List.replicate m.chunkBuf.length 0) (by rw [al3, if_pos rfl]) (by simp)
    have hpatch : patch (List.replicate m.chunkBuf.length 0) 0 m.chunkBuf = m.chunkBuf := by simp [patch]
    rw [hpatch] at c3
    have hB' : ∀ x, h'.B x = if x = m.heap.next then some m.chunkBuf else m.heap.B x := by
      intro x; rw [c3, al3]; split <;> rfl
    have hget : ∀ c, c ≠ m.chunkPtrs.size + 1 → gset g (m.chunkPtrs.size + 1) [p] c = g c := by
      intro c hc; simp [gset, hc]
    have hgets : gset g (m.chunkPtrs.size + 1) [p] (m.chunkPtrs.size + 1) = [p] := by
      simp [gset]
    have hencs : enc [p] = ent p := by simp [enc]
    -- addresses in use are old
    have hold : ∀ (c : Nat) (a : Nat), m.chunkPtrs[c]? = some a → a ≠ m.heap.next := by
      intro c a hc
      obtain ⟨hlt, _⟩ := Array.getElem?_eq_some_iff.1 hc
      obtain ⟨b, hb⟩ := h.mem c (by omega)
      rcases memOf_blk hb with ⟨_, a', _, k1, k2⟩ | ⟨k1, _⟩
      · rw [hc] at k1; cases k1
        have := Heap.B_lt k2; omega
      · omega
    refine ⟨{ m with size := m.size + 1, chunkPtrs := m.chunkPtrs.push m.heap.next, chunkBuf := [], heap := h', labelBytes := m.labelBytes + m.chunkBuf.length },
      gset g (m.chunkPtrs.size + 1) [p], ?_, ?_, rfl, ?_, ?_, ?_, ?_, ?_⟩
    · unfold nextSlot
      simp only [hdiv, hmod]
      rw [if_pos (by simp)]
      unfold releaseBuf
      simp only [al1, c1, R.bind_ok, R.pure_eq]
    · refine ⟨?_, ?_, ?_, ?_, ?_, ?_, ?_⟩
      · intro c hc
        simp only [Array.size_push] at hc
        by_cases e : c = m.chunkPtrs.size + 1
        · subst e
          rw [hgets, hencs]
          exact ⟨_, by simp [memOf]; rfl⟩
        · rw [hget c e]
          by_cases e2 : c = m.chunkPtrs.size
          · subst e2
            refine ⟨.heap m.heap.next, ?_⟩
            simp [memOf, hB', hbuf]
          · obtain ⟨b, hb⟩ := h.mem c (by omega)
            refine ⟨b, ?_⟩
            rcases memOf_blk hb with ⟨k0, a', rfl, k1, k2⟩ | ⟨k1, _⟩
            · have hx : (m.chunkPtrs.push m.heap.next)[c]? = some a' := by
                rw [Array.getElem?_push, if_neg (by omega)]; exact k1
              unfold memOf
              simp only [Array.size_push, hx]
              rw [if_pos (by omega)]
              simp only [Option.bind_some, hB']
              rw [if_neg (hold c a' k1), k2]; rfl
            · omega
      · intro i j a hi hj
        simp only [Array.getElem?_push] at hi hj
        split at hi <;> split at hj
        · omega
        · cases hi; exact absurd rfl (hold j _ hj)
        · cases hj; exact absurd rfl (hold i _ hi)
        · exact h.inj i j a hi hj
      · intro c hc
        simp only [Array.size_push] at hc
        rw [hget c (by omega)]
        by_cases e2 : c = m.chunkPtrs.size
        · rw [e2]; exact hlen
        · exact h.full c (by omega)
      · simp only [Array.size_push, hgets, List.length_singleton]; rw [hsz, Nat.mul_comm]
      · simp only [Array.size_push, hgets, List.length_singleton]; omega
      · simp only [Array.size_push, hgets, List.length_singleton]; omega
      · intro c hc q hq
        simp only [Array.size_push] at hc
        by_cases e : c = m.chunkPtrs.size + 1
        · subst e
          rw [hgets, List.mem_singleton] at hq
          subst hq; exact hp
        · rw [hget c e] at hq; exact h.pay c (by omega) q hq
    · rw [hdiv, hmod, hgets]; rfl
    · rw [hdiv]; simp [memOf]
    · rw [hdiv, hgets, hencs]; rfl
    · rw [hdiv, hgets, hmod]; simp [poff, enc]
    · intro i hi
      obtain ⟨i1, i2⟩ := h.pos hW hi
      rw [hget _ (by omega)]

theorem overwrite_ok (xs : List UInt8) : ∀ (b : List UInt8) (off : Nat), off + xs.length ≤ b.length →
    overwrite b off xs = .ok (patch b off xs) := by
  induction xs with
  | nil => intro b off _; rw [patch_nil]; rfl
  | cons x xs ih =>
    intro b off hl
    simp only [List.length_cons] at hl
    unfold overwrite
    rw [if_pos (by omega), ih _ _ (by simp; omega), patch_cons (by omega)]

theorem Ch.load {W vs : Nat} {m : CompactFkNlm} {g : Nat → List (List UInt8)} (h : Ch W vs m g) (hW : 0 < W) (hv : 0 < vs) {i : Nat} {e : Bool}
    {l v : List UInt8} (hL : cL W vs m i e = some (l, v)) {q : Loc} (hA : cAt W vs m q i) :
    CompactFkNlm.load vs m q = .ok v := by
  obtain ⟨hi, b, p, h1, h2, h3, h4, h5⟩ := h.isSome hW hv hL
  obtain ⟨mem, o, p', a1, a2, a3, a4⟩ := hA
  rw [h1] at a1
  simp only [Option.some.injEq, Prod.mk.injEq] at a1
  obtain ⟨rfl, rfl⟩ := a1
  rw [h3] at a2
  simp only [Option.some.injEq, Prod.mk.injEq] at a2
  obtain ⟨rfl, rfl⟩ := a2
  obtain ⟨k1, k2, _⟩ := patch_enc h2 h4.len (w := List.replicate vs 0) (by simp)
  have hvv : v = p.drop (p.length - vs) := by
    unfold payL at h5
    rw [if_pos h4.len] at h5
    cases e with
    | true =>
      simp only [if_true] at h5
      split at h5
      next hh => cases h5; rw [hh]; simp
      next => cases h5
    | false => simp only [Bool.false_eq_true, if_false, Option.some.injEq, Prod.mk.injEq] at h5; exact h5.2.symm
  unfold CompactFkNlm.load
  obtain ⟨qb, qo⟩ := q
  simp only at a4 h1 ⊢
  subst a4
  rcases memOf_blk h1 with ⟨q1, a, rfl, q3, q4⟩ | ⟨q1, rfl, q2⟩
  · simp only
    rw [Heap.load_ok q4 k1, k2, hvv]
  · simp only
    rw [← q2, if_pos ⟨trivial, k1⟩, k2, hvv]

/-- writing a value -/
theorem Ch.store {W vs : Nat} {m : CompactFkNlm} {g : Nat → List (List UInt8)} (h : Ch W vs m g) (hW : 0 < W) (hv : 0 < vs) {i : Nat} {e : Bool}
    {l v w : List UInt8} (hL : cL W vs m i e = some (l, v)) {q : Loc} (hA : cAt W vs m q i) (hw : w.length = vs) :
    ∃ m' g', CompactFkNlm.store m q w = .ok m' ∧ Ch W vs m' g' ∧ m'.size = m.size ∧ (∀ x j, j < m.size → cAt W vs m x j → cAt W vs m' x j) ∧
      (∀ e, cL W vs m' i e = (cL W vs m i e).map (fun x => (x.1, w))) ∧ ∀ j e, j ≠ i → cL W vs m' j e = cL W vs m j e := by
  obtain ⟨hi, b, p, h1, h2, h3, h4, h5⟩ := h.isSome hW hv hL
  obtain ⟨hc, hpos⟩ := h.pos hW hi
  obtain ⟨mem, o, p', a1, a2, a3, a4⟩ := hA
  rw [h1] at a1
  simp only [Option.some.injEq, Prod.mk.injEq] at a1
  obtain ⟨rfl, rfl⟩ := a1
  rw [h3] at a2
  simp only [Option.some.injEq, Prod.mk.injEq] at a2
  obtain ⟨rfl, rfl⟩ := a2
  obtain ⟨k1, k2, k3⟩ := patch_enc h2 h4.len hw
  have hg : ∀ ps', gset g (i / W) ps' (i / W) = ps' := fun ps' => by simp [gset]
  have hg2 : ∀ ps' c, c ≠ i / W → gset g (i / W) ps' c = g c := fun ps' c hc => by simp [gset, hc]
  -- what remains once the memory has changed in one chunk
  have main : ∀ m', CompactFkNlm.store m q w = .ok m' → m'.chunkPtrs = m.chunkPtrs → m'.size = m.size →
      (∀ c, c ≠ i / W → memOf m' c = memOf m c) →
      memOf m' (i / W) = some (q.blk, enc ((g (i / W)).set (i % W) (p.take (p.length - vs) ++ w))) →
      ∃ m' g', CompactFkNlm.store m q w = .ok m' ∧ Ch W vs m' g' ∧ m'.size = m.size ∧ (∀ x j, j < m.size → cAt W vs m x j → cAt W vs m' x j) ∧
      (∀ e, cL W vs m' i e = (cL W vs m i e).map (fun x => (x.1, w))) ∧ ∀ j e, j ≠ i → cL W vs m' j e = cL W vs m j e := by
    intro m' s1 s2 s3 s4 s5
    have hlens : ∀ c, (gset g (i / W) ((g (i / W)).set (i % W) (p.take (p.length - vs) ++ w)) c).length = (g c).length := by
      intro c
      by_cases ec : c = i / W
      · subst ec; rw [hg]; simp
      · rw [hg2 _ _ ec]
    have hCh : Ch W vs m' (gset g (i / W) ((g (i / W)).set (i % W) (p.take (p.length - vs) ++ w))) := by
      refine ⟨?_, by rw [s2]; exact h.inj, ?_, ?_, ?_, ?_, ?_⟩
      · intro c hc
        by_cases ec : c = i / W
        · subst ec; rw [hg, s5]; exact ⟨_, rfl⟩
        · rw [hg2 _ _ ec, s4 c ec]; exact h.mem c (by rw [s2] at hc; exact hc)
      · intro c hc; rw [hlens]; exact h.full c (by rw [s2] at hc; exact hc)
      · rw [s2, s3, hlens]; exact h.last
      · rw [s2, hlens]; exact h.le
      · rw [s2, hlens]; exact h.ne
      · intro c hc x hx
        rw [s2] at hc
        by_cases ec : c = i / W
        · subst ec
          rw [hg] at hx
          rcases List.mem_or_eq_of_mem_set hx with hx | rfl
          · exact h.pay _ hc x hx
          · exact Or.inr (PayOk.set h4 hw)
        · rw [hg2 _ _ ec] at hx; exact h.pay c hc x hx
    have hent : ∀ j, j ≠ i → (gset g (i / W) ((g (i / W)).set (i % W) (p.take (p.length - vs) ++ w)) (j / W))[j % W]? =
        (g (j / W))[j % W]? := by
      intro j hj
      by_cases ec : j / W = i / W
      · rw [ec, hg, List.getElem?_set_ne]
        intro hm
        apply hj
        rw [← Nat.div_add_mod j W, ← Nat.div_add_mod i W, ec, hm]
      · rw [hg2 _ _ ec]
    have henti : (gset g (i / W) ((g (i / W)).set (i % W) (p.take (p.length - vs) ++ w)) (i / W))[i % W]? =
        some (p.take (p.length - vs) ++ w) := by
      rw [hg, List.getElem?_set_self hpos]
    refine ⟨m', _, s1, hCh, s3, ?_, ?_, ?_⟩
    · rintro x j hj ⟨mem, o, p', t1, t2, t3, t4⟩
      obtain ⟨b', p2, u1, u2, u3, u4⟩ := h.entry hW hj
      rw [u1] at t1
      simp only [Option.some.injEq, Prod.mk.injEq] at t1
      obtain ⟨rfl, rfl⟩ := t1
      rw [u3] at t2
      simp only [Option.some.injEq, Prod.mk.injEq] at t2
      obtain ⟨rfl, rfl⟩ := t2
      by_cases ec : j / W = i / W
      · obtain ⟨b3, p3, w1, w2, w3, w4⟩ := hCh.entry hW (i := j) (by rw [s3]; exact hj)
        have hb3 : b3 = x.blk := by
          rw [ec, s5] at w1
          rw [ec, h1] at u1
          simp only [Option.some.injEq, Prod.mk.injEq] at w1 u1
          rw [← w1.1, u1.1]
        subst hb3
        have hp3 : p3.length = p2.length := by
          by_cases ej : j = i
          · subst ej
            rw [henti] at w2; rw [h2] at u2
            cases w2; cases u2
            have := h4.len
            simp [hw]; omega
          · rw [hent j ej, u2] at w2; cases w2; rfl
        refine ⟨_, _, p3, w1, w3, by omega, ?_⟩
        rw [t4, hp3]
        congr 1
        rw [ec, hg]
        rw [poff_set h2 (by have := h4.len; simp [hw]; omega) hp3]
      · refine ⟨_, _, p2, by rw [s4 _ ec]; exact u1, u3, t3, t4⟩
    · intro e'
      rw [hCh.L_eq hW (by rw [s3]; exact hi), h.L_eq hW hi, henti, h2]
      exact payL_set h4.len hw e'
    · intro j e' hj
      by_cases hjs : j < m.size
      · rw [hCh.L_eq hW (by rw [s3]; exact hjs), h.L_eq hW hjs, hent j hj]
      · rw [cL, cL, if_neg hjs, if_neg (by rw [s3]; exact hjs)]
  obtain ⟨qb, qo⟩ := q
  simp only at a4 h1 main
  subst a4
  rcases memOf_blk h1 with ⟨q1, a, rfl, q3, q4⟩ | ⟨q1, rfl, q2⟩
  · obtain ⟨h', c1, _, c3⟩ := Heap.copyIn_ok w q4 (by rw [hw]; exact k1)
    rw [k3] at c3
    refine main { m with heap := h' } ?_ rfl rfl ?_ ?_
    · simp only [CompactFkNlm.store, c1, R.bind_ok, R.pure_eq]
    · intro c hc
      unfold memOf
      simp only
      split
      next hlt =>
        cases hcp : m.chunkPtrs[c]? with
        | none => rfl
        | some a' =>
          simp only [Option.bind_some, c3]
          rw [if_neg]
          rintro rfl
          exact hc (h.inj c _ _ hcp q3)
      next => rfl
    · unfold memOf
      simp only [q1, if_true, q3, Option.bind_some, c3, Option.map_some]
  · refine main { m with chunkBuf := patch m.chunkBuf (poff (g (i / W)) (i % W) p + (p.length - vs)) w } ?_ rfl rfl ?_ ?_
    · simp only [CompactFkNlm.store]
      rw [overwrite_ok _ _ _ (by rw [← q2, hw]; exact k1)]; rfl
    · intro c hc
      unfold memOf
      simp only
      rw [if_neg (show ¬ c = m.chunkPtrs.size by omega), if_neg (show ¬ c = m.chunkPtrs.size by omega)]
    · unfold memOf
      simp only
      rw [if_neg (by omega), if_pos q1, ← q2, k3]

def spec (W vs : Nat) (hW : 0 < W) (hv : 0 < vs) (hv2 : vs + 1 < 2 ^ 64) : NlmSpec (ops W vs) .fkhash vs where
  minb := 0
  Inv := fun _ m => ∃ g, Ch W vs m g
  L := cL W vs
  At := fun m l i => i < m.size ∧ cAt W vs m l i
  stable := False
  make := by
    intro b _ hb
    refine ⟨{}, by simp [ops, make, hb], ⟨fun _ => [], ?_, ?_, ?_, ?_, ?_, ?_, ?_⟩, rfl, ?_⟩
    · intro c hc
      have : c = 0 := by simpa using hc
      subst this
      exact ⟨.buf 0, rfl⟩
    · intro i j a h; simp at h
    · intro c hc; simp at hc
    · simp
    · simp
    · intro h; simp at h
    · intro c _ p hp; cases hp
    · intro i _; simp [cL]
  flag := by
    intro m i e h
    unfold cL at h ⊢
    split
    next h1 =>
      rw [if_pos h1] at h
      cases h2 : memOf m (i / W) with
      | none => rw [h2] at h; exact absurd rfl h
      | some x =>
        rw [h2] at h
        simp only [Option.bind_some] at h ⊢
        cases h3 : payAt x.2 (i % W) with
        | none => rw [h3] at h; exact absurd rfl h
        | some y => rw [h3] at h; exact payL_flag h
    next h1 => rw [if_neg h1] at h; exact h
  lab := by
    rintro c m ⟨g, h⟩ i e l v hL
    obtain ⟨_, _, p, _, _, _, h4, h5⟩ := h.isSome hW hv hL
    exact payL_lab h4 h5
  bound := by intro h; cases h
  bound_fk := by
    intro _ c m h i e hL
    by_contra hc
    exact hL (by show cL _ _ _ _ _ = none; rw [cL]; exact if_neg hc)
  compare_none := by
    rintro c m ⟨g, h⟩ i hL _ h2 key hk
    exact compare_none h hW hv (h2 rfl) hL hk
  compare := by
    rintro c m ⟨g, h⟩ i e l v hL key he
    obtain ⟨c1, c2⟩ := compare_ok h hW hv hL he
    refine ⟨fun hkl => ?_, c2⟩
    obtain ⟨p, p1, p2⟩ := c1 hkl
    exact ⟨p, p1, (h.isSome hW hv hL).1, p2⟩
  insert := by intro h; cases h
  append := by
    rintro _ c m ⟨g, h⟩ key hk
    have hmk := mkPay_ok hk (v := List.replicate vs 0) (by simp) hv2
    obtain ⟨m1, g', n1, n2', n3, n4, n5, n6, n7, n8⟩ := push_ok h hW (Or.inr hmk.1)
    have n2 : Ch W vs { m1 with chunkBuf := m1.chunkBuf ++ ent (mkPay key (List.replicate vs 0)),
                                maxLength := max m1.maxLength key.length, sumLength := m1.sumLength + key.length } g' :=
      ⟨n2'.mem, n2'.inj, n2'.full, n2'.last, n2'.le, n2'.ne, n2'.pay⟩
    have hlen : (if key.isEmpty then 0 else key.length - 1) = key.length - 1 := by
      cases key <;> simp
    have htake : key.take (key.length - 1) = key.dropLast := List.dropLast_eq_take.symm
    have hmklen : (mkPay key (List.replicate vs 0)).length = key.length - 1 + vs := by simp [mkPay]
    have hbuf : m1.chunkBuf ++ vb (key.length - 1 + vs) ++ key.take (key.length - 1) ++ List.replicate vs 0 =
        m1.chunkBuf ++ ent (mkPay key (List.replicate vs 0)) := by
      rw [ent, hmklen, mkPay, htake]; simp
    have hsz : m.size < m1.size := by omega
    refine ⟨{ m1 with chunkBuf := m1.chunkBuf ++ ent (mkPay key (List.replicate vs 0)),
                      maxLength := max m1.maxLength key.length, sumLength := m1.sumLength + key.length },
      ⟨.buf m1.chunkPtrs.size, (m1.chunkBuf ++ ent (mkPay key (List.replicate vs 0))).length - vs⟩, ?_, ⟨g', n2⟩, ⟨hsz, ?_⟩, n3, (by rintro ⟨⟩), ?_, ?_⟩
    · simp only [ops, append, n1, R.bind_ok, VByte.append, hlen]
      rw [show VByte.bytesGo VByte.fuel (key.length - 1 + vs) = vb (key.length - 1 + vs) from rfl, hbuf]; rfl
    · refine ⟨_, poff (g' (m.size / W)) (m.size % W) (mkPay key (List.replicate vs 0)), _, n5, ?_, hmk.1.len, ?_⟩
      · rw [← n6]
        exact payAt_some (n2.small (n2.pos hW hsz).1) n4
      · rw [n7]
        simp only [ent, List.length_append, hmklen]
        omega
    · refine (n2.L_eq hW hsz _).trans ?_
      rw [n4]
      exact hmk.2
    · intro j e hj
      by_cases hjs : j < m.size
      · rw [n2.L_eq hW (show j < m1.size by omega), h.L_eq hW hjs, n8 j hjs]
      · have hj' : j ≠ m.size := hj
        rw [cL, cL, if_neg hjs, if_neg (show ¬ j < m1.size by omega)]
  appendDummy := by
    rintro _ c m ⟨g, h⟩
    obtain ⟨m1, g', n1, n2, n3, n4, n5, n6, n7, n8⟩ := push_ok h hW (p := []) (Or.inl rfl)
    refine ⟨{ m1 with chunkBuf := m1.chunkBuf ++ ent [] }, ?_, ⟨g', n2⟩, n3, (by rintro ⟨⟩), ?_⟩
    · simp only [ops, appendDummy, n1, R.bind_ok, VByte.append]
      simp [ent, vb]
    · intro j e
      by_cases hjs : j < m.size
      · rw [n2.L_eq hW (show j < m1.size by omega), h.L_eq hW hjs, n8 j hjs]
      · by_cases hj' : j = m.size
        · subst hj'
          rw [n2.L_eq hW (show m.size < m1.size by omega), n4, cL, if_neg hjs]
          exact payL_nil hv e
        · rw [cL, cL, if_neg hjs, if_neg (show ¬ j < m1.size by omega)]
  inv_fk := fun _ _ _ _ h => h
  expand := by intro h; cases h
  load := by
    rintro c m ⟨g, h⟩ p i e l v ⟨_, hA⟩ hL
    exact h.load hW hv hL hA
  store := by
    rintro c m ⟨g, h⟩ p i e l v w ⟨_, hA⟩ hL hw
    obtain ⟨m', g', s1, s2, s3, s4, s5, s6⟩ := h.store hW hv hL hA hw
    exact ⟨m', s1, ⟨g', s2⟩, s3, fun q j hq => ⟨by rw [s3]; exact hq.1, s4 q j hq.1 hq.2⟩, s5, s6⟩

end CompactFkNlm
end Poplar
