import Verif.Proof.ChLayout
/-
  Inserting an item into a table with quotienting.
-/
namespace Poplar.CH
open Poplar

variable {C : Nat} {vac v c vac' v' c' : Nat → Bool} {d d' : Nat → Nat}

/-- the home slot is vacant -/
theorem Lay.insert_vacant (L : Lay C vac v c d) {m : Nat} (hm : vac m = true)
    (hvac : ∀ p, vac' p = if p % C = m % C then false else vac p)
    (hv : ∀ p, v' p = if p % C = m % C then true else v p)
    (hc : ∀ p, c' p = if p % C = m % C then true else c p)
    (hd : ∀ p, d' p = if p % C = m % C then 0 else d p)
    (room : ∃ p, vac p = true ∧ p % C ≠ m % C) : Lay C vac' v' c' d' := by
  have hE : ∀ p, vac p = false → p % C ≠ m % C := by
    intro p hp e
    rw [per_congr L.pvac e, hm] at hp; simp at hp
  have hE' : ∀ p, p % C = m % C → vac p = true := fun p e => by rw [per_congr L.pvac e]; exact hm
  have hnv : ∀ p, vac p = false → vac' p = false := fun p hp => by rw [hvac]; split <;> simp_all
  have hnv' : ∀ p, vac' p = false → p % C ≠ m % C → vac p = false := fun p hp e => by
    rw [hvac, if_neg e] at hp; exact hp
  have hvf : ∀ p, vac p = false → v p = false → v' p = false := fun p h1 h2 => by rw [hv, if_neg (hE p h1)]; exact h2
  refine { pos := L.pos, pvac := ?_, pv := ?_, pc := ?_, pd := ?_, room := ?_, run := ?_, home := ?_, blank := ?_, same := ?_, next := ?_, first := ?_ }
  · intro p; rw [hvac, hvac, mod_add_C, L.pvac]
  · intro p; rw [hv, hv, mod_add_C, L.pv]
  · intro p; rw [hc, hc, mod_add_C, L.pc]
  · intro p; rw [hd, hd, mod_add_C, L.pd]
  · obtain ⟨p, h1, h2⟩ := room
    exact ⟨p, by rw [hvac, if_neg h2]; exact h1⟩
  · intro p hp s hs
    by_cases e : p % C = m % C
    · rw [hd, if_pos e] at hs
      have : s = 0 := by omega
      subst this; exact hp
    · rw [hd, if_neg e] at hs
      exact hnv _ (L.run p (hnv' p hp e) s hs)
  · intro p hp
    by_cases e : p % C = m % C
    · rw [hd, if_pos e, Nat.add_zero, hv, if_pos e]
    · rw [hd, if_neg e, hv, L.home p (hnv' p hp e)]; split <;> rfl
  · intro p hp
    by_cases e : p % C = m % C
    · rw [hvac, if_pos e] at hp; simp at hp
    · rw [hvac, if_neg e] at hp
      rw [hv, hc, if_neg e, if_neg e]; exact L.blank p hp
  · intro p h1 h2 h3
    have e : ¬ (p + 1) % C = m % C := by
      intro e; rw [hc, if_pos e] at h3; simp at h3
    rw [hc, if_neg e] at h3
    have h2' := hnv' _ h2 e
    have e0 : ¬ p % C = m % C := by
      intro e0
      have := (L.first p (hE' p e0) h2').1
      rw [h3] at this; simp at this
    rw [hd, hd, if_neg e, if_neg e0]
    exact L.same p (hnv' _ h1 e0) h2' h3
  · intro p h1 h2 h3
    by_cases e : (p + 1) % C = m % C
    · have hd1 : d' (p + 1) = 0 := by rw [hd, if_pos e]
      have hdp : d' p = 0 := by
        by_cases e0 : p % C = m % C
        · rw [hd, if_pos e0]
        · rw [hd, if_neg e0]
          have := L.hlt (a := p + 1) (hE' _ e) (by omega) (hnv' p h1 e0)
          omega
      rw [hd1, hdp]
      exact ⟨by omega, fun s s1 s2 => by omega⟩
    · have h2' := hnv' _ h2 e
      rw [hc, if_neg e] at h3
      have hd1 : d' (p + 1) = d (p + 1) := by rw [hd, if_neg e]
      have hns : ∀ s, 0 < s → s < d (p + 1) + 1 → vac (p + s) = false := by
        intro s s1 s2
        have := L.run _ h2' (s - 1) (by omega)
        rwa [show p + 1 + (s - 1) = p + s by omega] at this
      by_cases e0 : p % C = m % C
      · have hdp : d' p = 0 := by rw [hd, if_pos e0]
        rw [hd1, hdp]
        exact ⟨by omega, fun s s1 s2 => hvf _ (hns s s1 s2) ((L.first p (hE' p e0) h2').2 s s1 s2)⟩
      · have hdp : d' p = d p := by rw [hd, if_neg e0]
        rw [hd1, hdp]
        obtain ⟨n1, n2⟩ := L.next p (hnv' _ h1 e0) h2' h3
        exact ⟨n1, fun s s1 s2 => hvf _ (hns s (by omega) s2) (n2 s s1 s2)⟩
  · intro p h1 h2
    have e0 : ¬ p % C = m % C := by
      intro e0; rw [hvac, if_pos e0] at h1; simp at h1
    rw [hvac, if_neg e0] at h1
    by_cases e : (p + 1) % C = m % C
    · rw [hc, if_pos e, hd, if_pos e]
      exact ⟨rfl, fun s s1 s2 => by omega⟩
    · have h2' := hnv' _ h2 e
      obtain ⟨f1, f2⟩ := L.first p h1 h2'
      rw [hc, if_neg e, hd, if_neg e]
      refine ⟨f1, fun s s1 s2 => hvf _ ?_ (f2 s s1 s2)⟩
      have := L.run _ h2' (s - 1) (by omega)
      rwa [show p + 1 + (s - 1) = p + s by omega] at this

/-- the items in `(a, e]` move to the left by one slot, the new one is put into slot `e` -/
theorem Lay.insert_shift (L : Lay C vac v c d) {a e m : Nat} {β : Bool} (ha1 : 1 ≤ a) (hva : vac a = true)
    (ham : a < m) (hmC : m + 1 < a + C) (hrun : ∀ r, a < r → r ≤ m → vac r = false)
    (hae : a ≤ e) (hem : e ≤ m) (hce : c (e + 1) = true)
    (hle : a < e → e + d e ≤ m)
    (hno : β = true → ∀ r, a < r → (a < e → e + d e < r) → r ≤ m → v r = false)
    (ht : β = true → v m = false) (hf : β = false → a < e ∧ e + d e = m)
    (pvac : ∀ p, vac' (p + C) = vac' p) (pv : ∀ p, v' (p + C) = v' p) (pc : ∀ p, c' (p + C) = c' p)
    (pd : ∀ p, d' (p + C) = d' p)
    (hvac : ∀ p, a ≤ p + 1 → p < a + C → vac' p = if p = a then false else vac p)
    (hv : ∀ p, a ≤ p + 1 → p < a + C → v' p = if p = m then true else v p)
    (hc : ∀ p, a ≤ p + 1 → p < a + C → c' p = if a ≤ p ∧ p < e then c (p + 1) else if p = e then β else c p)
    (hd : ∀ p, a ≤ p + 1 → p < a + C → d' p = if a ≤ p ∧ p < e then d (p + 1) + 1 else if p = e then m - e else d p)
    (room : ∃ p, a < p ∧ p < a + C ∧ vac p = true) : Lay C vac' v' c' d' := by
  have hvaC : vac (a + C) = true := by rw [L.pvac]; exact hva
  -- no home between the homes of the neighbours of the new item
  have hno' : ∀ r, a < r → (a < e → e + d e < r) → r < m → v r = false := by
    intro r h1 h2 h3
    cases hb : β with
    | true => exact hno hb r h1 h2 (by omega)
    | false =>
      obtain ⟨h4, h5⟩ := hf hb
      have := h2 h4
      omega
  -- the successor of the new item
  have hsucc : ∀ z, e < z → z < a + C → vac z = false → m < z + d z := by
    intro z z1 z2 hz
    rcases Nat.lt_or_ge m (z + d z) with h1 | h1
    · exact h1
    · exfalso
      have hvz := L.home z hz
      by_cases hea : a < e
      · have hve : vac e = false := hrun e hea hem
        have hlt := L.mono_lt hve hz (r := e + 1) (by omega) (by omega) hce
        rcases Nat.lt_or_ge (z + d z) m with h2 | h2
        · have := hno' (z + d z) (by omega) (fun _ => hlt) h2
          rw [hvz] at this; simp at this
        · have hzm : z + d z = m := by omega
          cases hb : β with
          | true => have := ht hb; rw [← hzm, hvz] at this; simp at this
          | false => have := (hf hb).2; omega
      · have hb : β = true := by
          cases hb : β with
          | true => rfl
          | false => exact absurd (hf hb).1 hea
        have := hno hb (z + d z) (by omega) (fun h => absurd h hea) h1
        rw [hvz] at this; simp at this
  have hnew : ∀ p, a ≤ p + 1 → p < a + C → vac' p = false → p ≠ a → vac p = false := by
    intro p p1 p2 h1 h2; rw [hvac p p1 p2, if_neg h2] at h1; exact h1
  have hold : ∀ p, a ≤ p + 1 → p < a + C → vac p = false → vac' p = false := by
    intro p p1 p2 h1; rw [hvac p p1 p2, h1]; split <;> rfl
  have hvac_a : vac' a = false := by rw [hvac a (by omega) (by omega), if_pos rfl]
  have hin : ∀ p, p < a + C → vac p = false → p + d p < a + C := fun p p2 h => L.hlt hvaC (by omega) h
  -- reduction to one window
  have red : ∀ P : Nat → Prop, (∀ p, P (p + C) ↔ P p) → (∀ p, a ≤ p + 1 → p + 1 < a + C → P p) → ∀ p, P p := by
    intro P hper hw p
    obtain ⟨p', w1, w2, w3⟩ := window L.pos (a - 1) p
    have h1 := hw p' (by omega) (by omega)
    have h2 : P p' = P p := per_congr (f := P) (fun q => propext (hper q)) w3
    rw [← h2]; exact h1
  -- homes after the insertion
  have hh : ∀ p, a ≤ p + 1 → p + 1 < a + C → vac' p = false →
      (a ≤ p ∧ p < e ∧ vac (p + 1) = false ∧ d' p = d (p + 1) + 1) ∨ (p = e ∧ d' p = m - e) ∨
      ((p < a ∨ e < p) ∧ vac p = false ∧ d' p = d p) := by
    intro p p1 p2 h1
    have hdp := hd p p1 (by omega)
    by_cases h2 : a ≤ p ∧ p < e
    · rw [if_pos h2] at hdp
      exact Or.inl ⟨h2.1, h2.2, hrun _ (by omega) (by omega), hdp⟩
    · rw [if_neg h2] at hdp
      by_cases h3 : p = e
      · rw [if_pos h3] at hdp
        exact Or.inr (Or.inl ⟨h3, hdp⟩)
      · rw [if_neg h3] at hdp
        exact Or.inr (Or.inr ⟨by omega, hnew p p1 (by omega) h1 (by omega), hdp⟩)
  have prun : ∀ p, vac' p = false → ∀ s ≤ d' p, vac' (p + s) = false := by
    refine red _ ?_ ?_
    · intro p
      rw [pvac, pd]
      constructor
      · intro h1 h2 s hs; rw [← pvac]; have := h1 h2 s hs; rwa [Nat.add_right_comm] at this
      · intro h1 h2 s hs; rw [Nat.add_right_comm, pvac]; exact h1 h2 s hs
    · intro p p1 p2 h1 s hs
      rcases hh p p1 p2 h1 with ⟨q1, q2, q3, q4⟩ | ⟨q1, q2⟩ | ⟨q1, q2, q3⟩
      · have hb := L.mono_le q3 (hrun e (by omega) (by omega)) (show p + 1 ≤ e by omega)
        have hb2 := hle (by omega)
        rcases Nat.eq_zero_or_pos s with rfl | hs0
        · exact h1
        · apply hold _ (by omega) (by omega)
          have := L.run _ q3 (s - 1) (by omega)
          rwa [show p + 1 + (s - 1) = p + s by omega] at this
      · subst q1
        rcases Nat.eq_zero_or_pos s with rfl | hs0
        · exact h1
        · exact hold _ (by omega) (by omega) (hrun _ (by omega) (by omega))
      · have hb := hin p (by omega) q2
        exact hold _ (by omega) (by omega) (L.run p q2 s (by omega))
  have hvt : ∀ p, a ≤ p + 1 → p < a + C → v p = true → v' p = true := by
    intro p p1 p2 h1; rw [hv p p1 p2, h1]; split <;> rfl
  have phome : ∀ p, vac' p = false → v' (p + d' p) = true := by
    refine red _ ?_ ?_
    · intro p; rw [pvac, pd, Nat.add_right_comm, pv]
    · intro p p1 p2 h1
      rcases hh p p1 p2 h1 with ⟨q1, q2, q3, q4⟩ | ⟨q1, q2⟩ | ⟨q1, q2, q3⟩
      · have hb := L.mono_le q3 (hrun e (by omega) (by omega)) (show p + 1 ≤ e by omega)
        have hb2 := hle (by omega)
        apply hvt _ (by omega) (by omega)
        rw [← L.home _ q3, q4]; congr 1; omega
      · rw [hv _ (by omega) (by omega), if_pos (by omega)]
      · have hb := hin p (by omega) q2
        apply hvt _ (by omega) (by omega)
        rw [q3]; exact L.home p q2
  have pblank : ∀ p, vac' p = true → v' p = false ∧ c' p = true := by
    refine red _ ?_ ?_
    · intro p; rw [pvac, pv, pc]
    · intro p p1 p2 h1
      have hne : p ≠ a := by rintro rfl; rw [hvac_a] at h1; simp at h1
      have hvp : vac p = true := by
        rw [hvac p p1 (by omega), if_neg hne] at h1; exact h1
      obtain ⟨b1, b2⟩ := L.blank p hvp
      have hout : p < a ∨ m < p := by
        rcases Nat.lt_or_ge p a with h2 | h2
        · exact Or.inl h2
        · rcases Nat.lt_or_ge m p with h3 | h3
          · exact Or.inr h3
          · rw [hrun p (by omega) h3] at hvp; simp at hvp
      rw [hv p p1 (by omega), if_neg (by omega), hc p p1 (by omega), if_neg (by omega), if_neg (by omega)]
      exact ⟨b1, b2⟩
  -- facts about the slot before `a`
  have hprev : ∀ p, p + 1 = a → vac p = false → d p = 0 := by
    intro p p1 h1
    have := L.hlt (a := a) (p := p) hva (by omega) h1
    omega
  have hca : c (a + 1) = true := (L.first a hva (hrun _ (by omega) (by omega))).1
  have hva0 : v a = false := (L.blank a hva).1
  -- the item that ends up in slot `a`
  have hstart : c' a = true ∧ ∀ r, a ≤ r → r < a + d' a → v' r = false := by
    by_cases hea : a < e
    · have h1 := hc a (by omega) (by omega)
      have h2 := hd a (by omega) (by omega)
      rw [if_pos ⟨Nat.le_refl _, hea⟩] at h1 h2
      refine ⟨h1.trans hca, ?_⟩
      intro r r1 r2
      have hb := L.mono_le (hrun (a + 1) (by omega) (by omega)) (hrun e (by omega) (by omega)) (show a + 1 ≤ e by omega)
      have hb2 := hle hea
      rw [hv r (by omega) (by omega), if_neg (by omega)]
      rcases Nat.lt_or_ge a r with h3 | h3
      · have := (L.first a hva (hrun _ (by omega) (by omega))).2 (r - a) (by omega) (by omega)
        rwa [show a + (r - a) = r by omega] at this
      · have : r = a := by omega
        subst this; exact hva0
    · have hea' : a = e := by omega
      have hb : β = true := by
        cases hb : β with
        | true => rfl
        | false => exact absurd (hf hb).1 hea
      have h1 := hc a (by omega) (by omega)
      have h2 := hd a (by omega) (by omega)
      rw [if_neg (by omega), if_pos hea'] at h1 h2
      refine ⟨h1.trans hb, ?_⟩
      intro r r1 r2
      rw [hv r (by omega) (by omega), if_neg (by omega)]
      rcases Nat.lt_or_ge a r with h3 | h3
      · exact hno' r h3 (fun h => absurd h hea) (by omega)
      · have : r = a := by omega
        subst this; exact hva0
  have psame : ∀ p, vac' p = false → vac' (p + 1) = false → c' (p + 1) = false → d' p = d' (p + 1) + 1 := by
    refine red _ ?_ ?_
    · intro p; rw [pvac, pd, Nat.add_right_comm, pvac, pc, pd]
    · intro p p1 p2 h1 h2 h3
      have hpa : p + 1 ≠ a := by
        intro e1; rw [e1, hstart.1] at h3; simp at h3
      have h3' := hc (p + 1) (by omega) (by omega)
      have hd1 := hd (p + 1) (by omega) (by omega)
      have hd0 := hd p (by omega) (by omega)
      rcases Nat.lt_trichotomy (p + 1) e with hlt | heq | hgt
      · rw [if_pos (by omega)] at h3' hd1 hd0
        rw [hd0, hd1, L.same (p + 1) (hrun _ (by omega) (by omega)) (hrun _ (by omega) (by omega)) (by rw [← h3']; exact h3)]
      · rw [if_neg (by omega), if_pos heq] at h3' hd1
        rw [if_pos (by omega)] at hd0
        have := (hf (by rw [← h3']; exact h3)).2
        rw [hd0, hd1, heq]; omega
      · rw [if_neg (by omega), if_neg (by omega)] at h3' hd1
        rcases Nat.lt_or_ge e p with h4 | h4
        · rw [if_neg (by omega), if_neg (by omega)] at hd0
          rw [hd0, hd1]
          exact L.same p (hnew p (by omega) (by omega) h1 (by omega)) (hnew _ (by omega) (by omega) h2 (by omega)) (by rw [← h3']; exact h3)
        · have : p = e := by omega
          subst this
          rw [h3', hce] at h3; simp at h3
  have pnext : ∀ p, vac' p = false → vac' (p + 1) = false → c' (p + 1) = true →
      d' p < d' (p + 1) + 1 ∧ ∀ s, d' p < s → s < d' (p + 1) + 1 → v' (p + s) = false := by
    refine red _ ?_ ?_
    · intro p
      have e1 : ∀ s, v' (p + C + s) = v' (p + s) := fun s => by rw [Nat.add_right_comm, pv]
      simp only [e1, Nat.add_right_comm p C 1, pvac, pc, pd]
    · intro p p1 p2 h1 h2 h3
      by_cases hpa : p + 1 = a
      · have hdp : d' p = 0 := by
          rw [hd p (by omega) (by omega), if_neg (by omega), if_neg (by omega)]
          exact hprev p hpa (hnew p (by omega) (by omega) h1 (by omega))
        rw [hdp, hpa]
        refine ⟨by omega, fun s s1 s2 => hstart.2 (p + s) (by omega) (by omega)⟩
      have h3' := hc (p + 1) (by omega) (by omega)
      have hd1 := hd (p + 1) (by omega) (by omega)
      have hd0 := hd p (by omega) (by omega)
      rcases Nat.lt_trichotomy (p + 1) e with hlt | heq | hgt
      · rw [if_pos (by omega)] at h3' hd1 hd0
        have hv1 := hrun (p + 1) (by omega) (by omega)
        have hv2 := hrun (p + 1 + 1) (by omega) (by omega)
        obtain ⟨n1, n2⟩ := L.next (p + 1) hv1 hv2 (by rw [← h3']; exact h3)
        rw [hd0, hd1]
        refine ⟨by omega, fun s s1 s2 => ?_⟩
        have hb := L.mono_le hv2 (hrun e (by omega) (by omega)) (show p + 1 + 1 ≤ e by omega)
        have hb2 := hle (by omega)
        rw [hv _ (by omega) (by omega), if_neg (by omega)]
        have := n2 (s - 1) (by omega) (by omega)
        rwa [show p + 1 + (s - 1) = p + s by omega] at this
      · rw [if_neg (by omega), if_pos heq] at h3' hd1
        rw [if_pos (by omega)] at hd0
        have hb : β = true := by rw [← h3']; exact h3
        have hvm := ht hb
        have hve := L.home e (hrun e (by omega) (by omega))
        have hb2 := hle (by omega)
        have hne : e + d e ≠ m := by intro e1; rw [e1, hvm] at hve; simp at hve
        rw [hd0, hd1, heq]
        refine ⟨by omega, fun s s1 s2 => ?_⟩
        rw [hv _ (by omega) (by omega), if_neg (by omega)]
        exact hno' _ (by omega) (fun _ => by omega) (by omega)
      · rw [if_neg (by omega), if_neg (by omega)] at h3' hd1
        have hv1 : vac (p + 1) = false := hnew _ (by omega) (by omega) h2 (by omega)
        have hb := hin (p + 1) (by omega) hv1
        rcases Nat.lt_or_ge e p with h4 | h4
        · rw [if_neg (by omega), if_neg (by omega)] at hd0
          have hv0 := hnew p (by omega) (by omega) h1 (by omega)
          rw [hd0, hd1]
          obtain ⟨n1, n2⟩ := L.next p hv0 hv1 (by rw [← h3']; exact h3)
          refine ⟨n1, fun s s1 s2 => ?_⟩
          have := hsucc p h4 (by omega) hv0
          rw [hv _ (by omega) (by omega), if_neg (by omega)]
          exact n2 s s1 s2
        · have hpe : p = e := by omega
          subst hpe
          rw [if_neg (by omega), if_pos rfl] at hd0
          have hs := hsucc (p + 1) (by omega) (by omega) hv1
          rw [hd0, hd1]
          refine ⟨by omega, fun s s1 s2 => ?_⟩
          rw [hv _ (by omega) (by omega), if_neg (by omega)]
          by_cases hea : a < p
          · have hb2 := hle hea
            exact (L.next p (hrun p hea hem) hv1 hce).2 s (by omega) (by omega)
          · have : p = a := by omega
            subst this
            exact (L.first p hva hv1).2 s (by omega) (by omega)
  have pfirst : ∀ p, vac' p = true → vac' (p + 1) = false →
      c' (p + 1) = true ∧ ∀ s, 0 < s → s < d' (p + 1) + 1 → v' (p + s) = false := by
    refine red _ ?_ ?_
    · intro p
      have e1 : ∀ s, v' (p + C + s) = v' (p + s) := fun s => by rw [Nat.add_right_comm, pv]
      simp only [e1, Nat.add_right_comm p C 1, pvac, pc, pd]
    · intro p p1 p2 h1 h2
      by_cases hpa : p + 1 = a
      · rw [hpa]
        exact ⟨hstart.1, fun s s1 s2 => hstart.2 (p + s) (by omega) (by omega)⟩
      have hne : p ≠ a := by rintro rfl; rw [hvac_a] at h1; simp at h1
      have hvp : vac p = true := by
        rw [hvac p p1 (by omega), if_neg hne] at h1; exact h1
      have hmp : m < p := by
        rcases Nat.lt_or_ge m p with h3 | h3
        · exact h3
        · rw [hrun p (by omega) h3] at hvp; simp at hvp
      have hv1 : vac (p + 1) = false := hnew _ (by omega) (by omega) h2 (by omega)
      have hb := hin (p + 1) (by omega) hv1
      obtain ⟨f1, f2⟩ := L.first p hvp hv1
      rw [hc _ (by omega) (by omega), hd _ (by omega) (by omega), if_neg (by omega), if_neg (by omega), if_neg (by omega), if_neg (by omega)]
      refine ⟨f1, fun s s1 s2 => ?_⟩
      rw [hv _ (by omega) (by omega), if_neg (by omega)]
      exact f2 s s1 s2
  refine { pos := L.pos, pvac := pvac, pv := pv, pc := pc, pd := pd, room := ?_, run := prun, home := phome, blank := pblank, same := psame, next := pnext, first := pfirst }
  obtain ⟨p, h1, h2, h3⟩ := room
  exact ⟨p, by rw [hvac p (by omega) h2, if_neg (by omega)]; exact h3⟩

end Poplar.CH
