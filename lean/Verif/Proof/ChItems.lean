import Verif.Proof.ChInsert
/-
  The items of a table with quotienting. The item in slot `p` has the (hashed) key
  `q p * C + (p + d p) % C` and the value `x p`.
-/
namespace Poplar.CH
open Poplar

def key (C : Nat) (q d : Nat → Nat) (p : Nat) : Nat := q p * C + (p + d p) % C

def Item (C : Nat) (vac : Nat → Bool) (q d x : Nat → Nat) (K X : Nat) : Prop :=
  ∃ p, vac p = false ∧ key C q d p = K ∧ x p = X

def Uniq (C : Nat) (vac : Nat → Bool) (q d : Nat → Nat) : Prop :=
  ∀ p p', vac p = false → vac p' = false → key C q d p = key C q d p' → p % C = p' % C

variable {C : Nat} {vac v c vac' v' c' : Nat → Bool} {d d' q q' x x' : Nat → Nat}

theorem key_per (pq : ∀ p, q (p + C) = q p) (pd : ∀ p, d (p + C) = d p) (p : Nat) :
    key C q d (p + C) = key C q d p := by
  unfold key; rw [pq, pd, Nat.add_right_comm, mod_add_C]

theorem key_eq_iff {p K : Nat} (hC : 0 < C) : key C q d p = K ↔ q p = K / C ∧ (p + d p) % C = K % C := by
  unfold key
  have hm := Nat.mod_lt (p + d p) hC
  constructor
  · intro h
    subst h
    rw [Nat.mul_comm]
    constructor
    · rw [Nat.mul_add_div hC, Nat.div_eq_of_lt hm, Nat.add_zero]
    · rw [Nat.mul_add_mod, Nat.mod_eq_of_lt hm]
  · rintro ⟨h1, h2⟩
    rw [h1, h2, Nat.mul_comm, Nat.div_add_mod]

/-- an item with home `m` lies in the group of `m` -/
theorem Lay.in_group (L : Lay C vac v c d) {a x e m y : Nat} (hva : vac a = true) (hax : a < x) (hx : vac x = false)
    (hcx : c x = true) (hhx : x + d x = m) (hm : m < a + C) (hce : c (e + 1) = true) (hxe : x ≤ e)
    (hy : vac y = false) (hh : (y + d y) % C = m % C) :
    ∃ y', x ≤ y' ∧ y' ≤ e ∧ y' % C = y % C := by
  have hvaC : vac (a + C) = true := by rw [L.pvac]; exact hva
  obtain ⟨y', w1, w2, w3⟩ := window L.pos a y
  have hy' : vac y' = false := by rw [per_congr L.pvac w3]; exact hy
  have hd : d y' = d y := per_congr L.pd w3
  have hlt := L.hlt hvaC (by omega) hy'
  have hmod : (y' + d y') % C = m % C := by
    rw [← hh, hd, Nat.add_mod, w3, ← Nat.add_mod]
  have heq : y' + d y' = m := window_unique (C := C) (w := a) (by omega) hlt (by omega) hm hmod
  refine ⟨y', ?_, ?_, w3⟩
  · rcases Nat.lt_or_ge y' x with h1 | h1
    · have := L.mono_lt hy' hx h1 (Nat.le_refl _) hcx
      omega
    · exact h1
  · rcases Nat.lt_or_ge e y' with h1 | h1
    · have := L.mono_lt hx hy' (r := e + 1) (by omega) (by omega) hce
      omega
    · exact h1

/-- the items after an insertion into a vacant home slot -/
theorem Lay.items_vacant (L : Lay C vac v c d) {m Q X : Nat} (hm : vac m = true)
    (hvac : ∀ p, vac' p = if p % C = m % C then false else vac p)
    (hd : ∀ p, d' p = if p % C = m % C then 0 else d p)
    (hq : ∀ p, q' p = if p % C = m % C then Q else q p)
    (hx : ∀ p, x' p = if p % C = m % C then X else x p) :
    (∀ K Y, Item C vac' q' d' x' K Y ↔ Item C vac q d x K Y ∨ (K = Q * C + m % C ∧ Y = X)) ∧
    (Uniq C vac q d → (∀ Y, ¬ Item C vac q d x (Q * C + m % C) Y) → Uniq C vac' q' d') := by
  have hE' : ∀ p, p % C = m % C → vac p = true := fun p e => by rw [per_congr L.pvac e]; exact hm
  have hkn : ∀ p, p % C = m % C → key C q' d' p = Q * C + m % C := by
    intro p e; unfold key; rw [hq, hd, if_pos e, if_pos e, Nat.add_zero, e]
  have hko : ∀ p, p % C ≠ m % C → key C q' d' p = key C q d p := by
    intro p e; unfold key; rw [hq, hd, if_neg e, if_neg e]
  have hvo : ∀ p, p % C ≠ m % C → vac' p = vac p := fun p e => by rw [hvac, if_neg e]
  constructor
  · intro K Y
    constructor
    · rintro ⟨p, h1, h2, h3⟩
      by_cases e : p % C = m % C
      · exact Or.inr ⟨by rw [← h2, hkn p e], by rw [← h3, hx, if_pos e]⟩
      · exact Or.inl ⟨p, by rw [← hvo p e]; exact h1, by rw [← hko p e]; exact h2, by rw [hx, if_neg e] at h3; exact h3⟩
    · rintro (⟨p, h1, h2, h3⟩ | ⟨rfl, rfl⟩)
      · have e : p % C ≠ m % C := by intro e; rw [hE' p e] at h1; simp at h1
        exact ⟨p, by rw [hvo p e]; exact h1, by rw [hko p e]; exact h2, by rw [hx, if_neg e]; exact h3⟩
      · exact ⟨m, by rw [hvac, if_pos rfl], hkn m rfl, by rw [hx, if_pos rfl]⟩
  · intro hu ha p p' h1 h2 h3
    by_cases e : p % C = m % C <;> by_cases e' : p' % C = m % C
    · rw [e, e']
    · exfalso
      refine ha (x p') ⟨p', by rw [← hvo p' e']; exact h2, ?_, rfl⟩
      rw [← hko p' e', ← h3, hkn p e]
    · exfalso
      refine ha (x p) ⟨p, by rw [← hvo p e]; exact h1, ?_, rfl⟩
      rw [← hko p e, h3, hkn p' e']
    · exact hu p p' (by rw [← hvo p e]; exact h1) (by rw [← hvo p' e']; exact h2) (by rw [← hko p e, ← hko p' e']; exact h3)

/-- the items after an insertion with a shift -/
theorem Lay.items_shift (L : Lay C vac v c d) {a e m Q X : Nat} (hva : vac a = true)
    (hmC : m < a + C) (hrun : ∀ r, a < r → r ≤ m → vac r = false)
    (hae : a ≤ e) (hem : e ≤ m)
    (pq : ∀ p, q (p + C) = q p) (px : ∀ p, x (p + C) = x p)
    (pvac : ∀ p, vac' (p + C) = vac' p) (pd : ∀ p, d' (p + C) = d' p)
    (pq' : ∀ p, q' (p + C) = q' p) (px' : ∀ p, x' (p + C) = x' p)
    (hvac : ∀ p, a ≤ p → p < a + C → vac' p = if p = a then false else vac p)
    (hd : ∀ p, a ≤ p → p < a + C → d' p = if p < e then d (p + 1) + 1 else if p = e then m - e else d p)
    (hq : ∀ p, a ≤ p → p < a + C → q' p = if p < e then q (p + 1) else if p = e then Q else q p)
    (hx : ∀ p, a ≤ p → p < a + C → x' p = if p < e then x (p + 1) else if p = e then X else x p) :
    (∀ K Y, Item C vac' q' d' x' K Y ↔ Item C vac q d x K Y ∨ (K = Q * C + m % C ∧ Y = X)) ∧
    (Uniq C vac q d → (∀ Y, ¬ Item C vac q d x (Q * C + m % C) Y) → Uniq C vac' q' d') := by
  -- the old position of the item in `p`
  have hk : ∀ p, a ≤ p → p < a + C → vac' p = false →
      (p = e ∧ key C q' d' p = Q * C + m % C ∧ x' p = X) ∨
      (p ≠ e ∧ a < (if p < e then p + 1 else p) ∧ (if p < e then p + 1 else p) < a + C ∧
        vac (if p < e then p + 1 else p) = false ∧
        key C q' d' p = key C q d (if p < e then p + 1 else p) ∧ x' p = x (if p < e then p + 1 else p)) := by
    intro p p1 p2 h1
    have e1 := hd p p1 p2
    have e2 := hq p p1 p2
    have e3 := hx p p1 p2
    rcases Nat.lt_trichotomy p e with hlt | heq | hgt
    · rw [if_pos hlt] at e1 e2 e3
      rw [if_pos hlt]
      refine Or.inr ⟨by omega, by omega, by omega, hrun _ (by omega) (by omega), ?_, e3⟩
      unfold key
      rw [e1, e2, show p + (d (p + 1) + 1) = p + 1 + d (p + 1) by omega]
    · rw [if_neg (by omega), if_pos heq] at e1 e2 e3
      refine Or.inl ⟨heq, ?_, e3⟩
      unfold key
      rw [e1, e2, show p + (m - e) = m by omega]
    · rw [if_neg (by omega), if_neg (by omega)] at e1 e2 e3
      rw [if_neg (by omega)]
      refine Or.inr ⟨by omega, by omega, p2, ?_, ?_, e3⟩
      · rw [hvac p p1 p2, if_neg (by omega)] at h1; exact h1
      · unfold key; rw [e1, e2]
  have hkper := key_per pq' pd
  have hkper0 := key_per pq L.pd
  constructor
  · intro K Y
    constructor
    · rintro ⟨p, h1, h2, h3⟩
      obtain ⟨p', w1, w2, w3⟩ := window L.pos a p
      rw [← per_congr pvac w3] at h1
      rw [← per_congr hkper w3] at h2
      rw [← per_congr px' w3] at h3
      rcases hk p' w1 w2 h1 with ⟨_, r2, r3⟩ | ⟨_, _, _, r4, r5, r6⟩
      · exact Or.inr ⟨by rw [← h2, r2], by rw [← h3, r3]⟩
      · exact Or.inl ⟨_, r4, by rw [← r5]; exact h2, by rw [← r6]; exact h3⟩
    · rintro (⟨p, h1, h2, h3⟩ | ⟨rfl, rfl⟩)
      · obtain ⟨p', w1, w2, w3⟩ := window L.pos a p
        rw [← per_congr L.pvac w3] at h1
        rw [← per_congr hkper0 w3] at h2
        rw [← per_congr px w3] at h3
        have hne : p' ≠ a := by rintro rfl; rw [hva] at h1; simp at h1
        -- the new position
        by_cases hpe : p' ≤ e
        · have hv' : vac' (p' - 1) = false := by
            rw [hvac _ (by omega) (by omega)]
            split
            · rfl
            · exact hrun _ (by omega) (by omega)
          rcases hk (p' - 1) (by omega) (by omega) hv' with ⟨r1, _⟩ | ⟨_, _, _, _, r5, r6⟩
          · omega
          · rw [if_pos (by omega), show p' - 1 + 1 = p' by omega] at r5 r6
            exact ⟨p' - 1, hv', by rw [r5]; exact h2, by rw [r6]; exact h3⟩
        · have hv' : vac' p' = false := by rw [hvac _ w1 w2, if_neg hne]; exact h1
          rcases hk p' w1 w2 hv' with ⟨r1, _⟩ | ⟨_, _, _, _, r5, r6⟩
          · omega
          · rw [if_neg (by omega)] at r5 r6
            exact ⟨p', hv', by rw [r5]; exact h2, by rw [r6]; exact h3⟩
      · have hv' : vac' e = false := by
          rw [hvac e hae (by omega)]
          split
          · rfl
          · exact hrun _ (by omega) hem
        rcases hk e hae (by omega) hv' with ⟨_, r2, r3⟩ | ⟨r1, _⟩
        · exact ⟨e, hv', r2, r3⟩
        · omega
  · intro hu ha
    have main : ∀ p p', a ≤ p → p < a + C → a ≤ p' → p' < a + C → vac' p = false → vac' p' = false →
        key C q' d' p = key C q' d' p' → p = p' := by
      intro p p' p1 p2 p1' p2' h1 h2 h3
      rcases hk p p1 p2 h1 with ⟨r1, r2, _⟩ | ⟨r1, r2, r3, r4, r5, _⟩ <;>
        rcases hk p' p1' p2' h2 with ⟨s1, s2, _⟩ | ⟨s1, s2, s3, s4, s5, _⟩
      · omega
      · exact absurd ⟨_, s4, by rw [← s5, ← h3, r2], rfl⟩ (ha _)
      · exact absurd ⟨_, r4, by rw [← r5, h3, s2], rfl⟩ (ha _)
      · have := hu _ _ r4 s4 (by rw [← r5, ← s5]; exact h3)
        have := window_unique (C := C) (w := a) (by omega) r3 (by omega) s3 this
        split at this <;> split at this <;> omega
    intro p p' h1 h2 h3
    obtain ⟨y, w1, w2, w3⟩ := window L.pos a p
    obtain ⟨y', w1', w2', w3'⟩ := window L.pos a p'
    rw [← per_congr pvac w3] at h1
    rw [← per_congr pvac w3'] at h2
    rw [← per_congr hkper w3, ← per_congr hkper w3'] at h3
    rw [← w3, ← w3', main y y' w1 w2 w1' w2' h1 h2 h3]

end Poplar.CH
