import Verif.Proof.FirstLabel
/-
  C14: keys with an interior NUL pass the argument check of `find` and `update`, but are not stored
  faithfully.
-/
namespace Poplar.Props
open Poplar Poplar.Spec

/-- the aliases with a plain label map (poplar.hpp:41-57) -/
def PlainLabels : Alias → Prop
  | .plainBonsai | .plainFkhash => True
  | _ => False

private theorem wf {k : Key} (h : ¬ Malformed k) : Map.badKey k = false := by
  have := (badKey_iff k).not.2 h; simpa using this

private theorem ne_nil {k : Key} (h : ¬ Malformed k) : k ≠ [] := fun e => h (Or.inl e)

private theorem last0 {k : Key} (h : ¬ Malformed k) : k = k.dropLast ++ [0] := by
  have h1 := List.dropLast_append_getLast (ne_nil h)
  by_cases h2 : k.getLast (ne_nil h) = 0
  · rw [h2] at h1; exact h1.symm
  · exact absurd (Or.inr ⟨_, _, h1.symm, h2⟩) h

private theorem app {k t : Key} (ht : ¬ Malformed t) : ¬ Malformed (k ++ t) := by
  rintro (h | ⟨s, c, h, hc⟩)
  · exact ne_nil ht (List.append_eq_nil_iff.1 h).2
  · rw [last0 ht, ← List.append_assoc] at h
    have := List.append_inj_right' h rfl
    injection this with h1
    exact hc h1.symm

/-- **C14, plain label maps: a key that was never inserted is found.** Insert `k ++ t` (both parts end in
NUL, so that `k ++ t` has an interior NUL) into a new map: then `find(k)` returns a pointer, and the value
read through it consists of the bytes of `t` (followed by bytes of the value of `k ++ t`). -/
theorem C14_prefix_found (a : Alias) (ha : PlainLabels a) (p : Params) (hp : p.Valid) (i : Init) (hi : i.Fits)
    (k t : Key) (hk : ¬ Malformed k) (ht : ¬ Malformed t) :
    a.answer p i [.update (k ++ t)] (.find k) = .ok (.found (some ((t ++ List.replicate p.valSize 0).take p.valSize))) := by
  obtain ⟨b, r, n0, b1, b2, b3, b4, b5, h⟩ := a.first p hp i hi
  have hkt := app (k := k) ht
  cases a with
  | plainBonsai =>
    obtain ⟨n, n1, n2⟩ := PlainBonsaiNlm.first (vs := p.valSize) b5 b3 (k ++ t)
    have c1 := n2.cmp.1 (k ++ t) [] (by simp)
    obtain ⟨v0, l1⟩ : ∃ v0, PlainBonsaiNlm.load p.valSize n ⟨.heap 0, (k ++ t).length⟩ = .ok v0 := ⟨_, c1.2⟩
    have c2 := n2.cmp.1 k t rfl
    obtain ⟨g1, _, _⟩ := h (k ++ t) n ⟨.heap 0, (k ++ t).length⟩ v0 (wf hkt) (by
      rintro m1 rfl
      show (do let x ← PlainBonsaiNlm.insert p.valSize m1.nlm r (k ++ t); pure (({ m1 with nlm := x.1 }, .ptr x.2) : Map _ _ × UpdOut)) = _
      rw [n1]; rfl) l1 k (wf hk)
    exact g1 ⟨.heap 0, k.length⟩ k.length _ ((n2.compareB (ne_nil hk)).1 c2.1) c2.2
  | plainFkhash =>
    have hr : r = 0 := b4 rfl
    subst hr
    obtain ⟨n, n1, n2⟩ := PlainFkNlm.first (vs := p.valSize) b5 (k ++ t)
    have c1 := n2.cmp.1 (k ++ t) [] (by simp)
    obtain ⟨v0, l1⟩ : ∃ v0, PlainFkNlm.load p.valSize n ⟨.heap 0, (k ++ t).length⟩ = .ok v0 := ⟨_, c1.2⟩
    have c2 := n2.cmp.1 k t rfl
    obtain ⟨g1, _, _⟩ := h (k ++ t) n ⟨.heap 0, (k ++ t).length⟩ v0 (wf hkt) (by
      rintro m1 rfl
      show (do let x ← PlainFkNlm.append p.valSize m1.nlm (k ++ t); pure (({ m1 with nlm := x.1 }, .ptr x.2) : Map _ _ × UpdOut)) = _
      rw [n1]; rfl) l1 k (wf hk)
    exact g1 ⟨.heap 0, k.length⟩ k.length _ ((n2.compareF (ne_nil hk)).1 c2.1) c2.2
  | _ => cases ha

/-- **C14, plain label maps: out-of-bounds read.** Insert `k` into a new map, then call `find` for `k` followed by
further NULs and read the value: memory outside the label's block is read. -/
theorem C14_extension_out_of_bounds (a : Alias) (ha : PlainLabels a) (p : Params) (hp : p.Valid) (i : Init) (hi : i.Fits)
    (k : Key) (hk : ¬ Malformed k) (j : Nat) (hj : 0 < j) :
    a.answer p i [.update k] (.find (k ++ List.replicate j 0)) = .error .oob := by
  obtain ⟨b, r, n0, b1, b2, b3, b4, b5, h⟩ := a.first p hp i hi
  have hkt : ¬ Malformed (k ++ List.replicate j 0) := by
    refine app ?_
    rintro (e | ⟨s, c, e, hc⟩)
    · have := congrArg List.length e; simp at this; omega
    · have : c ∈ List.replicate j (0 : UInt8) := by rw [e]; simp
      exact hc (List.eq_of_mem_replicate this)
  cases a with
  | plainBonsai =>
    obtain ⟨n, n1, n2⟩ := PlainBonsaiNlm.first (vs := p.valSize) b5 b3 k
    have c1 := n2.cmp.1 k [] (by simp)
    obtain ⟨v0, l1⟩ : ∃ v0, PlainBonsaiNlm.load p.valSize n ⟨.heap 0, k.length⟩ = .ok v0 := ⟨_, c1.2⟩
    obtain ⟨_, g2, g3⟩ := h k n ⟨.heap 0, k.length⟩ v0 (wf hk) (by
      rintro m1 rfl
      show (do let x ← PlainBonsaiNlm.insert p.valSize m1.nlm r k; pure (({ m1 with nlm := x.1 }, .ptr x.2) : Map _ _ × UpdOut)) = _
      rw [n1]; rfl) l1 _ (wf hkt)
    obtain ⟨q1, q2⟩ := n2.compareB (ne_nil hkt)
    rcases n2.cmp.2 j hj with c2 | c2
    · exact g3 (q2 c2)
    · exact g2 ⟨.heap 0, (k ++ List.replicate j (0 : UInt8)).length⟩ (k ++ List.replicate j (0 : UInt8)).length _ (q1 c2.1) c2.2
  | plainFkhash =>
    have hr : r = 0 := b4 rfl
    subst hr
    obtain ⟨n, n1, n2⟩ := PlainFkNlm.first (vs := p.valSize) b5 k
    have c1 := n2.cmp.1 k [] (by simp)
    obtain ⟨v0, l1⟩ : ∃ v0, PlainFkNlm.load p.valSize n ⟨.heap 0, k.length⟩ = .ok v0 := ⟨_, c1.2⟩
    obtain ⟨_, g2, g3⟩ := h k n ⟨.heap 0, k.length⟩ v0 (wf hk) (by
      rintro m1 rfl
      show (do let x ← PlainFkNlm.append p.valSize m1.nlm k; pure (({ m1 with nlm := x.1 }, .ptr x.2) : Map _ _ × UpdOut)) = _
      rw [n1]; rfl) l1 _ (wf hkt)
    obtain ⟨q1, q2⟩ := n2.compareF (ne_nil hkt)
    rcases n2.cmp.2 j hj with c2 | c2
    · exact g3 (q2 c2)
    · exact g2 ⟨.heap 0, (k ++ List.replicate j (0 : UInt8)).length⟩ (k ++ List.replicate j (0 : UInt8)).length _ (q1 c2.1) c2.2
  | _ => cases ha

/-- the label map of the four other aliases after the first `update` -/
private theorem compact_first (a : Alias) (ha : ¬ PlainLabels a) (p : Params) (hp : p.Valid) (i : Init) (hi : i.Fits)
    (k' : Key) (hk' : ¬ Malformed k') (hlen : k'.length + p.valSize < 2 ^ 64) (k : Key) (hk : ¬ Malformed k) :
    (k.length < k'.length → k <+: k' → a.answer p i [.update k'] (.find k) = .error .oob) ∧
    (k' <+: k → a.answer p i [.update k'] (.find k) = .ok (.found (some (List.replicate p.valSize 0)))) := by
  obtain ⟨b, r, n0, b1, b2, b3, b4, b5, h⟩ := a.first p hp i hi
  have hd := last0 hk'
  have hdl : k'.dropLast.length = k'.length - 1 := by simp
  have hpre : k.length < k'.length → k <+: k' → k <+: k'.dropLast := by
    rintro h1 ⟨t, rfl⟩
    have ht : t ≠ [] := by rintro rfl; simp at h1
    exact ⟨t.dropLast, by rw [List.dropLast_append_of_ne_nil ht]⟩
  have hext : k' <+: k → ∃ t, k = k'.dropLast ++ 0 :: t := by
    rintro ⟨t, rfl⟩
    exact ⟨t, by conv => lhs; rw [hd]
                 simp⟩
  have hld : ∀ body : List UInt8, (((ent (body ++ List.replicate p.valSize 0)).drop
      ((ent (body ++ List.replicate p.valSize 0)).length - p.valSize)).take p.valSize) = List.replicate p.valSize 0 := by
    intro body
    have e : ent (body ++ List.replicate p.valSize 0) = (vb (body ++ List.replicate p.valSize (0:UInt8)).length ++ body) ++ List.replicate p.valSize 0 := by
      simp [ent]
    rw [e]
    generalize vb _ ++ body = x
    rw [List.length_append, List.length_replicate, Nat.add_sub_cancel, List.drop_left]
    exact List.take_of_length_le (by simp)
  have hle : ∀ body : List UInt8, (ent (body ++ List.replicate p.valSize 0)).length - p.valSize + p.valSize ≤ (ent (body ++ List.replicate p.valSize 0)).length := by
    intro body; simp only [ent, List.length_append, List.length_replicate]; omega
  have bonsai : ∀ (n : CompactBonsaiNlm), n.heap.B 0 = some (ent (k'.dropLast ++ List.replicate p.valSize 0)) →
      CompactBonsaiNlm.load p.valSize n ⟨.heap 0, (ent (k'.dropLast ++ List.replicate p.valSize 0)).length - p.valSize⟩ = .ok (List.replicate p.valSize 0) := by
    intro n hB
    show n.heap.load 0 _ _ = _
    rw [Heap.load_ok hB (hle _), hld]
  have fk : ∀ (n : CompactFkNlm), n.chunkBuf = ent (k'.dropLast ++ List.replicate p.valSize 0) ∧ n.chunkPtrs.size = 0 →
      CompactFkNlm.load p.valSize n ⟨.buf 0, (ent (k'.dropLast ++ List.replicate p.valSize 0)).length - p.valSize⟩ = .ok (List.replicate p.valSize 0) := by
    intro n hB
    unfold CompactFkNlm.load
    simp only [hB.1, hB.2]
    rw [if_pos ⟨trivial, hle _⟩, hld]
  have hbl : k'.dropLast.length + p.valSize < 2 ^ 64 := by omega
  have hmemF := compareMem_one (chk := false) hbl (ne_nil hk)
  have hmemT := compareMem_one (chk := true) hbl (ne_nil hk)
  cases a with
  | plainBonsai => exact absurd trivial ha
  | plainFkhash => exact absurd trivial ha
  | semiCompactBonsai =>
    obtain ⟨n, n1, n2, n3, n4⟩ := CompactBonsaiNlm.first (vs := p.valSize) hp.chunk b1 b5 b3 (ne_nil hk')
    obtain ⟨g1, _, g3⟩ := h k' n ⟨.heap 0, (ent (k'.dropLast ++ List.replicate p.valSize 0)).length - p.valSize⟩ (List.replicate p.valSize 0) (wf hk') (by
      rintro m1 rfl
      show (do let x ← CompactBonsaiNlm.insert p.chunkSize p.valSize m1.nlm r k'; pure (({ m1 with nlm := x.1 }, .ptr x.2) : Map _ _ × UpdOut)) = _
      rw [n1]; rfl) (bonsai n n2) k (wf hk)
    exact ⟨fun e1 e2 => g3 (n4 k (hmemF.1 (by omega) (hpre e1 e2))), fun e => by
      obtain ⟨t, rfl⟩ := hext e
      exact g1 ⟨.heap 0, (ent (k'.dropLast ++ List.replicate p.valSize 0)).length - p.valSize⟩ _ _ (n3 _ _ _ (hmemF.2 t rfl)) (bonsai n n2)⟩
  | compactBonsai =>
    obtain ⟨n, n1, n2, n3, n4⟩ := CompactBonsaiNlm.first (vs := p.valSize) hp.chunk b1 b5 b3 (ne_nil hk')
    obtain ⟨g1, _, g3⟩ := h k' n ⟨.heap 0, (ent (k'.dropLast ++ List.replicate p.valSize 0)).length - p.valSize⟩ (List.replicate p.valSize 0) (wf hk') (by
      rintro m1 rfl
      show (do let x ← CompactBonsaiNlm.insert p.chunkSize p.valSize m1.nlm r k'; pure (({ m1 with nlm := x.1 }, .ptr x.2) : Map _ _ × UpdOut)) = _
      rw [n1]; rfl) (bonsai n n2) k (wf hk)
    exact ⟨fun e1 e2 => g3 (n4 k (hmemF.1 (by omega) (hpre e1 e2))), fun e => by
      obtain ⟨t, rfl⟩ := hext e
      exact g1 ⟨.heap 0, (ent (k'.dropLast ++ List.replicate p.valSize 0)).length - p.valSize⟩ _ _ (n3 _ _ _ (hmemF.2 t rfl)) (bonsai n n2)⟩
  | semiCompactFkhash =>
    have hr : r = 0 := b4 rfl
    subst hr
    obtain ⟨n, n1, n2, n3, n4⟩ := CompactFkNlm.first (W := p.chunkSize) (vs := p.valSize) b5 (ne_nil hk')
    obtain ⟨g1, _, g3⟩ := h k' n ⟨.buf 0, (ent (k'.dropLast ++ List.replicate p.valSize 0)).length - p.valSize⟩ (List.replicate p.valSize 0) (wf hk') (by
      rintro m1 rfl
      show (do let x ← CompactFkNlm.append p.chunkSize p.valSize m1.nlm k'; pure (({ m1 with nlm := x.1 }, .ptr x.2) : Map _ _ × UpdOut)) = _
      rw [n1]; rfl) (fk n n2) k (wf hk)
    exact ⟨fun e1 e2 => g3 (n4 k (hmemT.1 (by omega) (hpre e1 e2))), fun e => by
      obtain ⟨t, rfl⟩ := hext e
      exact g1 ⟨.buf 0, (ent (k'.dropLast ++ List.replicate p.valSize 0)).length - p.valSize⟩ _ _ (n3 _ _ _ (hmemT.2 t rfl)) (fk n n2)⟩
  | compactFkhash =>
    have hr : r = 0 := b4 rfl
    subst hr
    obtain ⟨n, n1, n2, n3, n4⟩ := CompactFkNlm.first (W := p.chunkSize) (vs := p.valSize) b5 (ne_nil hk')
    obtain ⟨g1, _, g3⟩ := h k' n ⟨.buf 0, (ent (k'.dropLast ++ List.replicate p.valSize 0)).length - p.valSize⟩ (List.replicate p.valSize 0) (wf hk') (by
      rintro m1 rfl
      show (do let x ← CompactFkNlm.append p.chunkSize p.valSize m1.nlm k'; pure (({ m1 with nlm := x.1 }, .ptr x.2) : Map _ _ × UpdOut)) = _
      rw [n1]; rfl) (fk n n2) k (wf hk)
    exact ⟨fun e1 e2 => g3 (n4 k (hmemT.1 (by omega) (hpre e1 e2))), fun e => by
      obtain ⟨t, rfl⟩ := hext e
      exact g1 ⟨.buf 0, (ent (k'.dropLast ++ List.replicate p.valSize 0)).length - p.valSize⟩ _ _ (n3 _ _ _ (hmemT.2 t rfl)) (fk n n2)⟩

/-- **C14, compact label maps: a key that was never inserted is found.** Insert `k` into a new map: then `find` of
any longer key that starts with `k` (terminator included) returns the value of `k`. -/
theorem C14_extension_found (a : Alias) (ha : ¬ PlainLabels a) (p : Params) (hp : p.Valid) (i : Init) (hi : i.Fits)
    (k t : Key) (hk : ¬ Malformed k) (ht : ¬ Malformed t) (hlen : k.length + p.valSize < 2 ^ 64) :
    a.answer p i [.update k] (.find (k ++ t)) = .ok (.found (some (List.replicate p.valSize 0))) :=
  (compact_first a ha p hp i hi k hk hlen (k ++ t) (app ht)).2 ⟨t, rfl⟩

/-- **C14, compact label maps: out-of-bounds read.** Insert `k ++ t` (both parts end in NUL) into a new map: then
`find(k)` reads past the end of its argument. -/
theorem C14_prefix_out_of_bounds (a : Alias) (ha : ¬ PlainLabels a) (p : Params) (hp : p.Valid) (i : Init) (hi : i.Fits)
    (k t : Key) (hk : ¬ Malformed k) (ht : ¬ Malformed t) (hlen : (k ++ t).length + p.valSize < 2 ^ 64) :
    a.answer p i [.update (k ++ t)] (.find k) = .error .oob :=
  (compact_first a ha p hp i hi (k ++ t) (app ht) hlen k hk).1
    (by have := ne_nil ht; cases t with | nil => exact absurd rfl this | cons => simp) ⟨t, rfl⟩

/-- **C14** For no alias does the dictionary law hold without the precondition that keys have no interior NUL: there
are two keys that pass the argument check such that after inserting the first one into a new map, `find` of the
second one, which was never inserted, does not answer `nullptr`. -/
theorem C14_dictionary_law_false (a : Alias) (p : Params) (hp : p.Valid) (i : Init) (hi : i.Fits) :
    ∃ k k' : Key, ¬ Malformed k ∧ ¬ Malformed k' ∧ k.length ≤ 2 ∧ k'.length ≤ 2 ∧
      Spec.step p.valSize (Spec.run p.valSize [] [.update k']).1 (.find k) =
        ((Spec.run p.valSize [] [.update k']).1, .found none) ∧
      a.answer p i [.update k'] (.find k) ≠ .ok (.found none) := by
  have h0 : ¬ Malformed [0] := by decide
  have hv := hp.val64
  by_cases ha : PlainLabels a
  · refine ⟨[0], [0, 0], h0, by decide, by decide, by decide, ?_, ?_⟩
    · rfl
    · intro e
      have h := (C14_prefix_found a ha p hp i hi [0] [0] h0 h0).symm.trans e
      cases h
  · refine ⟨[0, 0], [0], by decide, h0, by decide, by decide, ?_, ?_⟩
    · rfl
    · intro e
      have h := (C14_extension_found a ha p hp i hi [0] [0] h0 h0 (by simp; omega)).symm.trans e
      cases h

/-- `"a\0b\0"` is inserted, `"a\0"` is found, with the value `'b'` -/
example : Alias.plainBonsai.answer { valSize := 4 } .default [.update ([97, 0] ++ [98, 0])] (.find [97, 0]) =
    .ok (.found (some [98, 0, 0, 0])) :=
  C14_prefix_found .plainBonsai trivial { valSize := 4 } ⟨by decide, by decide, by decide⟩ .default trivial [97, 0] [98, 0]
    (by decide) (by decide)

/-- `"a\0"` is inserted, `"a\0b\0"` is found -/
example : Alias.compactBonsai.answer { valSize := 4 } (.make 20 16) [.update [97, 0]] (.find ([97, 0] ++ [98, 0])) =
    .ok (.found (some [0, 0, 0, 0])) :=
  C14_extension_found .compactBonsai (fun h => h) { valSize := 4 } ⟨by decide, by decide, by decide⟩ (.make 20 16)
    ⟨⟨4, rfl⟩, by decide⟩ [97, 0] [98, 0] (by decide) (by decide) (by decide)

end Poplar.Props
