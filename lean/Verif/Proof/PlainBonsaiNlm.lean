import Verif.Proof.PlainNlm
/-
  `plain_bonsai_nlm` meets the contract `NlmSpec`.
-/
namespace Poplar
open Spec
namespace PlainBonsaiNlm

theorem compare_ok {vs : Nat} {m : PlainBonsaiNlm} (h : PtrsInv vs m.ptrs m.heap) {i : Nat} {l v : List UInt8}
    (hL : pL vs m.ptrs m.heap i = some (l, v)) {key : List UInt8} (he : Sep key l) :
    (key = l → ∃ p, compare m i key = .ok (some p, key.length) ∧ pAt vs m.ptrs m.heap p i) ∧
    (key ≠ l → compare m i key = .ok (none, lcp key l)) := by
  obtain ⟨a, b, h1, h2, h3, h4⟩ := h.isSome hL
  have hi : i < m.ptrs.size := by
    by_contra hc
    rw [Array.getElem?_eq_none (by omega)] at h1; cases h1
  have hl : (pLab vs b).1 = l := by rw [h4]
  obtain ⟨c1, c2⟩ := plainCompare_ok h2 (by rw [hl]; exact he)
  rw [hl] at c1 c2
  have hrd : rd m.ptrs i = .ok (some a) := by unfold rd; rw [h1]
  constructor
  · intro e
    refine ⟨⟨.heap a, b.length - vs⟩, ?_, a, b, h1, h2, rfl⟩
    unfold compare
    rw [R.assert_dec hi, hrd]
    simp only [R.bind_ok]
    exact c1 e
  · intro e
    unfold compare
    rw [R.assert_dec hi, hrd]
    simp only [R.bind_ok]
    exact c2 e

theorem compare_none {vs : Nat} {m : PlainBonsaiNlm} (h : PtrsInv vs m.ptrs m.heap) {i : Nat} (hi : i < m.ptrs.size)
    (hL : pL vs m.ptrs m.heap i = none) (key : List UInt8) : compare m i key = .error .assertion := by
  have hrd : rd m.ptrs i = .ok none := by unfold rd; rw [h.isNone hi hL]
  unfold compare
  rw [R.assert_dec hi, hrd]; rfl

/-- the loop of `expand` moves every pointer -/
theorem expandLoop_ok {ptrs : Array (Option Nat)} {nm : NodeMap} {D : Nat → Prop} {f : Nat → Nat} (h : Heap)
    (h1 : ∀ i < ptrs.size, D i → nm.get i = .ok (f i)) (h2 : ∀ i < ptrs.size, ¬ D i → nm.get i = .ok u64max)
    (h3 : ∀ i, D i → i < ptrs.size ∧ f i < 2 * ptrs.size) (h64 : 2 * ptrs.size < 2 ^ 64)
    (h4 : ∀ i j, D i → D j → f i = f j → i = j) (h5 : ∀ i a, ptrs[i]? = some (some a) → D i) :
    ∀ (c i : Nat) (old new : Array (Option Nat)), i + c = ptrs.size → old.size = ptrs.size → new.size = 2 * ptrs.size →
      (∀ j, i ≤ j → old[j]? = ptrs[j]?) → (∀ j < i, old[j]? = some none) →
      (∀ j < i, D j → new[f j]? = ptrs[j]?) →
      (∀ k < new.size, (∀ j < i, D j → f j ≠ k) → new[k]? = some none) →
      ∃ old' new', expandLoop nm c i old new h = .ok (old', new', h) ∧ new'.size = 2 * ptrs.size ∧
        (∀ j < ptrs.size, old'[j]? = some none) ∧ old'.size = ptrs.size ∧
        (∀ j, D j → new'[f j]? = ptrs[j]?) ∧ (∀ k < new'.size, (∀ j, D j → f j ≠ k) → new'[k]? = some none) := by
  intro c
  induction c with
  | zero =>
    intro i old new hi ho hn _ a2 a3 a4
    have hi : i = ptrs.size := by omega
    subst hi
    exact ⟨old, new, rfl, hn, a2, ho, fun j hj => a3 j (h3 j hj).1 hj, fun k hk hj => a4 k hk (fun j _ => hj j)⟩
  | succ c ih =>
    intro i old new hi ho hn a1 a2 a3 a4
    have hi' : i < ptrs.size := by omega
    have hold : old[i]? = some ptrs[i] := by rw [a1 i (Nat.le_refl _), Array.getElem?_eq_getElem hi']
    simp only [expandLoop]
    by_cases hD : D i
    · rw [h1 i hi' hD]
      have hf := (h3 i hD).2
      have hne : f i ≠ u64max := by unfold u64max; omega
      simp only [R.bind_ok, hne, ne_eq, not_false_eq_true, if_true]
      have hnew : new[f i]? = some none := a4 (f i) (by omega) (fun j hj hDj e => by
        have := h4 j i hDj hD e; omega)
      have r1 : rd old i = .ok ptrs[i] := by unfold rd; rw [hold]
      have r2 : rd new (f i) = .ok none := by unfold rd; rw [hnew]
      rw [r1, r2]
      simp only [R.bind_ok, Heap.freeOpt]
      rw [wr_of_lt (by omega), wr_of_lt (by omega)]
      simp only [R.bind_ok]
      refine ih (i + 1) _ _ (by omega) (by simp [ho]) (by simp [hn]) ?_ ?_ ?_ ?_
      · intro j hj; rw [Array.getElem?_setIfInBounds_ne (by omega)]; exact a1 j (by omega)
      · intro j hj
        by_cases e : j = i
        · subst e; rw [Array.getElem?_setIfInBounds_self_of_lt (by omega)]
        · rw [Array.getElem?_setIfInBounds_ne (Ne.symm e)]; exact a2 j (by omega)
      · intro j hj hDj
        by_cases e : j = i
        · subst e; rw [Array.getElem?_setIfInBounds_self_of_lt (by omega), Array.getElem?_eq_getElem hi']
        · rw [Array.getElem?_setIfInBounds_ne (fun e2 => e (h4 j i hDj hD e2.symm))]; exact a3 j (by omega) hDj
      · intro k hk hj
        rw [Array.getElem?_setIfInBounds_ne (hj i (by omega) hD)]
        exact a4 k (by simpa using hk) (fun j hji => hj j (by omega))
    · rw [h2 i hi' hD]
      simp only [R.bind_ok, ne_eq, not_true_eq_false, if_false]
      have hnone : ptrs[i]? = some none := by
        rw [Array.getElem?_eq_getElem hi']
        cases hp : ptrs[i] with
        | none => rfl
        | some a => exact absurd (h5 i a (by rw [Array.getElem?_eq_getElem hi', hp])) hD
      refine ih (i + 1) old new (by omega) ho hn (fun j hj => a1 j (by omega)) ?_ ?_ ?_
      · intro j hj
        by_cases e : j = i
        · subst e; rw [a1 j (Nat.le_refl _)]; exact hnone
        · exact a2 j (by omega)
      · intro j hj hDj
        by_cases e : j = i
        · subst e; exact absurd hDj hD
        · exact a3 j (by omega) hDj
      · intro k hk hj
        exact a4 k hk (fun j hji => hj j (by omega))

theorem foldlM_none (h : Heap) : ∀ (l : List (Option Nat)), (∀ x ∈ l, x = none) →
    l.foldlM (fun h p => h.freeOpt p) h = (.ok h : R Heap) := by
  intro l
  induction l with
  | nil => intro _; rfl
  | cons x l ih =>
    intro hl
    rw [List.foldlM_cons, hl x (by simp)]
    simp only [Heap.freeOpt, R.bind_ok]
    exact ih (fun y hy => hl y (by simp [hy]))

theorem all_none {a : Array (Option Nat)} (h : ∀ j < a.size, a[j]? = some none) : ∀ x ∈ a.toList, x = none := by
  intro x hx
  obtain ⟨j, hj, rfl⟩ := Array.mem_iff_getElem.1 (by simpa using hx)
  have := h j hj
  rw [Array.getElem?_eq_getElem hj] at this
  simpa using this

def spec (vs : Nat) : NlmSpec (ops vs) .bonsai vs where
  minb := 0
  Inv := fun c m => m.ptrs.size = c ∧ PtrsInv vs m.ptrs m.heap
  L := fun m i _ => pL vs m.ptrs m.heap i
  At := fun m l i => pAt vs m.ptrs m.heap l i
  stable := True
  make := by
    intro b _ hb
    have hp : ∀ (i : Nat) a, ¬ (Array.replicate (2 ^ b) (none : Option Nat))[i]? = some (some a) := by
      intro i a; rw [Array.getElem?_replicate]; split <;> simp
    refine ⟨{ ptrs := Array.replicate (2 ^ b) none }, by simp [ops, make, hb], ⟨by simp, ?_, ?_⟩, rfl, ?_⟩
    · intro i a h; exact absurd h (hp i a)
    · intro i j a h; exact absurd h (hp i a)
    · intro i _; simp only [pL, Array.getElem?_replicate]; split <;> rfl
  lab := fun c m h i _ l v hL => h.2.lab hL
  flag := fun _ _ _ h => h
  bound := by
    intro _ c m h i _ hL
    by_contra hc
    apply hL
    show pL _ _ _ _ = none
    unfold pL
    rw [Array.getElem?_eq_none (by rw [h.1]; omega)]; rfl
  bound_fk := by intro h; cases h
  compare := fun c m h i _ l v hL key he => compare_ok h.2 hL he
  compare_none := fun c m h i hL h1 _ key _ => compare_none h.2 (by rw [h.1]; exact h1 rfl) hL key
  insert := by
    intro _ c m h i hi hnone key hk
    have hnone := hnone false
    obtain ⟨h', b1, b2⟩ := newBlock_ok vs m.heap key
    obtain ⟨a1, a2, a3, a4⟩ := h.2.add (ptrs' := m.ptrs.setIfInBounds i (some m.heap.next)) (h' := h') hk (i := i)
      (by
        intro j
        by_cases e : j = i
        · subst e; rw [Array.getElem?_setIfInBounds_self_of_lt (by rw [h.1]; omega), if_pos rfl]
        · rw [Array.getElem?_setIfInBounds_ne (Ne.symm e), if_neg e]) b2 hnone
    refine ⟨{ ptrs := m.ptrs.setIfInBounds i (some m.heap.next), heap := h', size := m.size + 1, labelBytes := m.labelBytes + (key.length + vs),
                maxLength := max m.maxLength key.length, sumLength := m.sumLength + key.length }, ⟨.heap m.heap.next, key.length⟩,
      ?_, ⟨by simp [h.1], a1⟩, a2, fun _ => a3, by rw [a4, if_pos rfl], fun j _ hj => by rw [a4, if_neg hj]⟩
    have hn := h.2.isNone (by rw [h.1]; exact hi) hnone
    have hrd : rd m.ptrs i = .ok none := by unfold rd; rw [hn]
    simp only [ops, insert, hrd, R.bind_ok, Option.isNone_none, R.assert, if_true]
    have e := (m.heap.alloc_spec (key.length + vs)).1
    simp only [e] at b1 ⊢
    rw [wr_of_lt (by rw [h.1]; exact hi)]
    cases hc : (m.heap.alloc (key.length + vs)).1.copyIn m.heap.next 0 key with
    | error x => rw [hc] at b1; cases b1
    | ok h1 =>
      rw [hc] at b1
      simp only [R.bind_ok] at b1 ⊢
      rw [b1]; rfl
  append := by intro h; cases h
  appendDummy := by intro h; cases h
  inv_fk := by intro h; cases h
  expand := by
    intro _ c m nm D f h h64 hs h1 h2 h3 h4 h5
    obtain ⟨hc, hI⟩ := h
    subst hc
    have h5' : ∀ i a, m.ptrs[i]? = some (some a) → D i := by
      intro i a hi
      apply h5 i false
      obtain ⟨b, b1, _⟩ := hI.blk i a hi
      show pL _ _ _ _ ≠ none
      simp [pL, hi, b1]
    obtain ⟨old', new', e1, e2, e3, e4, e5, e6⟩ := expandLoop_ok m.heap h1 h2 h3 h64 h4 h5' m.ptrs.size 0 m.ptrs
      (Array.replicate (m.ptrs.size * 2) none) (by omega) rfl (by simp; omega) (fun _ _ => rfl) (by intro j hj; omega)
      (by intro j hj; omega) (by intro k hk _; rw [Array.getElem?_replicate, if_pos (by simpa using hk)])
    have hsrc : ∀ (k : Nat) a, new'[k]? = some (some a) → ∃ j, D j ∧ f j = k ∧ m.ptrs[j]? = some (some a) := by
      intro k a hk
      by_contra hcon
      have hklt : k < new'.size := by
        by_contra hc
        rw [Array.getElem?_eq_none (by omega)] at hk; cases hk
      have := e6 k hklt (fun j hj e => hcon ⟨j, hj, e, by rw [← e5 j hj, e]; exact hk⟩)
      rw [this] at hk; cases hk
    refine ⟨{ m with ptrs := new', heap := m.heap }, ?_, ⟨e2, ?_, ?_⟩, ?_, ?_, ?_⟩
    · simp only [ops, expand, hs, e1, R.bind_ok]
      rw [foldlM_none m.heap _ (all_none (by rw [e4]; exact e3))]; rfl
    · intro k a hk
      obtain ⟨j, _, _, hj⟩ := hsrc k a hk
      exact hI.blk j a hj
    · intro k k' a hk hk'
      obtain ⟨j, _, hj1, hj⟩ := hsrc k a hk
      obtain ⟨j', _, hj1', hj'⟩ := hsrc k' a hk'
      rw [← hj1, ← hj1', hI.inj j j' a hj hj']
    · rintro _ q i ⟨a, b, q1, q2, q3⟩
      exact ⟨a, b, by rw [← q1]; exact e5 i (h5' i a q1), q2, q3⟩
    · intro i _ hi
      simp only [pL]; rw [e5 i hi]
    · intro j _ hj
      simp only [pL]
      by_cases hlt : j < new'.size
      · rw [e6 j hlt hj]; rfl
      · rw [Array.getElem?_eq_none (by omega)]; rfl
  load := by
    intro c m h p i _ l v hA hL
    obtain ⟨a, h', h1, _, h2, _⟩ := h.2.store hA hL (w := v) (h.2.lab hL).2
    simp only [ops, load, h1]; exact h2
  store := by
    intro c m h p i _ l v w hA hL hw
    obtain ⟨a, h', h1, h2, _, h3, h4, h5⟩ := h.2.store hA hL hw
    refine ⟨{ m with heap := h' }, ?_, ⟨h.1, h3⟩, rfl, h4, fun _ => by rw [h5, if_pos rfl, hL]; rfl, fun j _ hj => by rw [h5, if_neg hj]⟩
    simp only [ops, store, h1, h2, R.bind_ok, R.pure_eq]

end PlainBonsaiNlm
end Poplar
