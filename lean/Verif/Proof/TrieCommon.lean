import Verif.Proof.TrieSpec
/-
  Load-factor arithmetic, keys, and slot lookup shared by the tries.
-/
namespace Poplar

/-- side conditions on `min_capa_bits` and `MaxFactor` -/
def FactorOK (minCapa mf : Nat) : Prop :=
  mf < 100 ∧ 2 ≤ maxSize (2 ^ minCapa) mf ∧ maxSize (2 ^ minCapa) mf + 2 ≤ 2 ^ minCapa

theorem maxSize_double (c mf : Nat) : 2 * maxSize c mf ≤ maxSize (2 * c) mf ∧ maxSize (2 * c) mf ≤ 2 * maxSize c mf + 1 := by
  unfold maxSize
  rw [Nat.mul_assoc]
  generalize c * mf = x
  omega

theorem FactorOK.at {minCapa mf : Nat} (h : FactorOK minCapa mf) :
    ∀ cb, minCapa ≤ cb → 2 ≤ maxSize (2 ^ cb) mf ∧ maxSize (2 ^ cb) mf + 2 ≤ 2 ^ cb := by
  intro cb hcb
  obtain ⟨d, rfl⟩ : ∃ d, cb = minCapa + d := ⟨cb - minCapa, by omega⟩
  clear hcb
  induction d with
  | zero => exact h.2
  | succ d ih =>
    have hd := maxSize_double (2 ^ (minCapa + d)) mf
    have he : 2 ^ (minCapa + (d + 1)) = 2 * 2 ^ (minCapa + d) := by
      rw [← Nat.add_assoc, Nat.pow_succ, Nat.mul_comm]
    rw [he]
    omega

theorem maxSize_mono {a b mf : Nat} (h : a ≤ b) : maxSize a mf ≤ maxSize b mf := by
  unfold maxSize
  exact Nat.div_le_div_right (Nat.mul_le_mul_right _ h)

theorem maxSize_mono_factor {a m m' : Nat} (h : m ≤ m') : maxSize a m ≤ maxSize a m' := by
  unfold maxSize
  exact Nat.div_le_div_right (Nat.mul_le_mul_left _ h)

/-- `make_key_` is `node * 2^sb + symb` -/
theorem key_eq {v s cb sb : Nat} (hv : v < 2 ^ cb) (hs : s < 2 ^ sb) (h : cb + sb < 64) :
    (shl64 v sb ||| s) = v * 2 ^ sb + s := by
  have h1 : v * 2 ^ sb < 2 ^ 64 := by
    have : v * 2 ^ sb < 2 ^ cb * 2 ^ sb := Nat.mul_lt_mul_of_pos_right hv (Nat.two_pow_pos _)
    rw [← Nat.pow_add] at this
    exact Nat.lt_trans this (Nat.pow_lt_pow_right (by decide) h)
  rw [shl64_eq h1, ← Nat.shiftLeft_eq, Nat.shiftLeft_add_eq_or_of_lt hs]

theorem key_lt {v s cb sb : Nat} (hv : v < 2 ^ cb) (hs : s < 2 ^ sb) : v * 2 ^ sb + s < 2 ^ (cb + sb) := by
  rw [Nat.pow_add]
  have : (v + 1) * 2 ^ sb ≤ 2 ^ cb * 2 ^ sb := Nat.mul_le_mul_right _ hv
  rw [Nat.succ_mul] at this
  omega

theorem key_div {v s sb : Nat} (hs : s < 2 ^ sb) : (v * 2 ^ sb + s) / 2 ^ sb = v := by
  rw [Nat.mul_comm, Nat.mul_add_div (Nat.two_pow_pos _), Nat.div_eq_of_lt hs, Nat.add_zero]

theorem key_mod {v s sb : Nat} (hs : s < 2 ^ sb) : (v * 2 ^ sb + s) % 2 ^ sb = s := by
  rw [Nat.add_comm, Nat.add_mul_mod_self_right, Nat.mod_eq_of_lt hs]

theorem key_inj {v s v' s' sb : Nat} (hs : s < 2 ^ sb) (hs' : s' < 2 ^ sb)
    (h : v * 2 ^ sb + s = v' * 2 ^ sb + s') : v = v' ∧ s = s' := by
  constructor
  · rw [← key_div (v := v) hs, h, key_div hs']
  · rw [← key_mod (v := v) hs, h, key_mod hs']

/-- the slot that stores a key -/
def slotOf (C : Nat) (occ : Nat → Option Nat) (k : Nat) : Option Nat :=
  (List.range C).find? (fun i => occ i == some k)

theorem slotOf_some {C : Nat} {occ : Nat → Option Nat} {k i : Nat} (h : slotOf C occ k = some i) :
    i < C ∧ occ i = some k := by
  unfold slotOf at h
  have h1 := List.mem_of_find?_eq_some h
  have h2 := List.find?_some h
  exact ⟨by simpa using h1, by simpa using h2⟩

theorem slotOf_none {C : Nat} {occ : Nat → Option Nat} {k : Nat} :
    slotOf C occ k = none ↔ ∀ i < C, occ i ≠ some k := by
  unfold slotOf
  rw [List.find?_eq_none]
  simp

theorem slotOf_eq {C : Nat} {occ : Nat → Option Nat} {k i : Nat}
    (inj : ∀ i < C, ∀ j < C, ∀ k, occ i = some k → occ j = some k → i = j)
    (hi : i < C) (h : occ i = some k) : slotOf C occ k = some i := by
  cases e : slotOf C occ k with
  | none => exact absurd h (slotOf_none.mp e i hi)
  | some j =>
    obtain ⟨h1, h2⟩ := slotOf_some e
    rw [inj j h1 i hi k h2 h]

/-- children as stored in a hash table keyed by `node * 2^sb + symb` -/
def childOf (sb : Nat) (look : Nat → Option Nat) (v s : Nat) : Option Nat :=
  if s < 2 ^ sb then look (v * 2 ^ sb + s) else none

theorem childOf_some {sb v s i : Nat} {look : Nat → Option Nat} :
    childOf sb look v s = some i ↔ s < 2 ^ sb ∧ look (v * 2 ^ sb + s) = some i := by
  unfold childOf
  by_cases h : s < 2 ^ sb <;> simp [h]

theorem childOf_add {sb v s i : Nat} {look look' : Nat → Option Nat} (hs : s < 2 ^ sb)
    (h : ∀ k, look' k = if k = v * 2 ^ sb + s then some i else look k) (v' s' : Nat) :
    childOf sb look' v' s' = if v' = v ∧ s' = s then some i else childOf sb look v' s' := by
  unfold childOf
  by_cases h1 : s' < 2 ^ sb
  · rw [if_pos h1, h, if_pos h1]
    by_cases h2 : v' = v ∧ s' = s
    · rw [if_pos h2, if_pos (by rw [h2.1, h2.2])]
    · rw [if_neg h2, if_neg]
      intro e; exact h2 (key_inj h1 hs e)
  · rw [if_neg h1, if_neg, if_neg h1]
    rintro ⟨_, rfl⟩; exact h1 hs

/-- a tree without children -/
theorem Tree.empty {r : Nat} {child : Nat → Nat → Option Nat} (h : ∀ v s, child v s = none) :
    Tree r child ∧ ∀ p, tpath (some r) child p = if p = [] then some r else none := by
  refine ⟨⟨?_, ?_, ?_⟩, ?_⟩
  · intro v s; rw [h]; simp
  · intro v s v' s' i h1; rw [h] at h1; simp at h1
  · intro v s i h1; rw [h] at h1; simp at h1
  · intro p
    cases p with
    | nil => rfl
    | cons s p =>
      rw [if_neg (by simp), tpath]
      cases tpath (some r) child p with
      | none => rfl
      | some v => simp [h]

end Poplar
