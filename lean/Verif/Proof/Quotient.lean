import Verif.Proof.DspTable
import Verif.Proof.BijectiveHash
import Verif.Proof.TrieCommon
/-
  Quotienting: the pair (quotient, displacement) stored in a slot determines the key.
-/
namespace Poplar

/-- the initial slot of a key found at distance `dist` from it -/
def homeOf (C i dist : Nat) : Nat := (i + C - dist) % C

theorem homeOf_lt {C i dist : Nat} (hC : 0 < C) : homeOf C i dist < C := Nat.mod_lt _ hC

theorem homeOf_eq {C i dist : Nat} (hi : i < C) (hd : dist < C) :
    homeOf C i dist = if dist ≤ i then i - dist else C - (dist - i) := by
  unfold homeOf
  split
  · rw [show i + C - dist = i - dist + C by omega, Nat.add_mod_right, Nat.mod_eq_of_lt (by omega)]
  · rw [Nat.mod_eq_of_lt (by omega)]; omega

theorem homeOf_add {C i dist : Nat} (hi : i < C) (hd : dist < C) : (homeOf C i dist + dist) % C = i := by
  rw [homeOf_eq hi hd]
  split
  · rw [Nat.sub_add_cancel (by assumption), Nat.mod_eq_of_lt hi]
  · rw [show C - (dist - i) + dist = i + C by omega, Nat.add_mod_right, Nat.mod_eq_of_lt hi]

theorem homeOf_slot {C h s : Nat} (hC : 0 < C) (hs : s < C) : homeOf C ((h + s) % C) s = h % C := by
  have h1 := homeOf_add (C := C) (i := (h + s) % C) (dist := s) (Nat.mod_lt _ hC) hs
  have h2 : (homeOf C ((h + s) % C) s + s) % C = (h % C + s) % C := by
    rw [h1, Nat.mod_add_mod]
  have e : (s + homeOf C ((h + s) % C) s) % C = (s + h % C) % C := by rw [Nat.add_comm s, Nat.add_comm s, h2]
  exact LP.dist_unique (homeOf_lt hC) (Nat.mod_lt _ hC) e

theorem homeOf_iff {C h s dist : Nat} (hs : s < C) (hd : dist < C) :
    homeOf C ((h + s) % C) dist = h % C ↔ dist = s := by
  have hC : 0 < C := by omega
  constructor
  · intro e
    have h1 := homeOf_add (C := C) (i := (h + s) % C) (dist := dist) (Nat.mod_lt _ hC) hd
    rw [e, Nat.add_mod, Nat.mod_mod, ← Nat.add_mod] at h1
    exact LP.dist_unique hd hs h1
  · rintro rfl; exact homeOf_slot hC hs

namespace DspTable

/-- the key stored in slot `i` at distance `dist` from its initial slot -/
def keyAt (c : DspCfg) (cb sb : Nat) (d : DspTable) (i dist : Nat) : Nat :=
  SplitMix.Hi (cb + sb) (d.quo c i * 2 ^ cb + homeOf (2 ^ cb) i dist)

variable {c : DspCfg} {cb sb : Nat} {d : DspTable}

theorem OK.arg_lt (h : OK c cb sb d) {i dist : Nat} (hi : i < 2 ^ cb) :
    d.quo c i * 2 ^ cb + homeOf (2 ^ cb) i dist < 2 ^ (cb + sb) := by
  rw [Nat.add_comm cb]
  exact key_lt (h.quo_lt hi) (homeOf_lt (Nat.two_pow_pos _))

theorem OK.keyAt_lt (h : OK c cb sb d) (hu : cb + sb < 64) (hu0 : 0 < cb + sb) {i dist : Nat} (hi : i < 2 ^ cb) :
    keyAt c cb sb d i dist < 2 ^ (cb + sb) := SplitMix.Hi_lt hu0 hu (h.arg_lt hi)

/-- a slot on the probe path of `k` holds `k` iff its displacement and its quotient match -/
theorem OK.match_iff (h : OK c cb sb d) (hu : cb + sb < 64) (hu0 : 0 < cb + sb) {k s dist : Nat} (hk : k < 2 ^ (cb + sb))
    (hs : s < 2 ^ cb) (hd : dist < 2 ^ cb) :
    keyAt c cb sb d ((SplitMix.H (cb + sb) k + s) % 2 ^ cb) dist = k ↔
      dist = s ∧ SplitMix.H (cb + sb) k / 2 ^ cb = d.quo c ((SplitMix.H (cb + sb) k + s) % 2 ^ cb) := by
  have hC := Nat.two_pow_pos cb
  have hi : (SplitMix.H (cb + sb) k + s) % 2 ^ cb < 2 ^ cb := Nat.mod_lt _ hC
  generalize hq : d.quo c ((SplitMix.H (cb + sb) k + s) % 2 ^ cb) = q
  have harg := h.arg_lt (dist := dist) hi
  have hiff := homeOf_iff (C := 2 ^ cb) (h := SplitMix.H (cb + sb) k) hs hd
  have hlt := homeOf_lt (C := 2 ^ cb) (i := (SplitMix.H (cb + sb) k + s) % 2 ^ cb) (dist := dist) hC
  unfold keyAt
  rw [hq] at harg ⊢
  generalize homeOf (2 ^ cb) ((SplitMix.H (cb + sb) k + s) % 2 ^ cb) dist = ho at *
  constructor
  · intro e
    have := congrArg (SplitMix.H (cb + sb)) e
    rw [SplitMix.H_Hi hu0 hu harg] at this
    rw [← this, key_div hlt]
    rw [← this, key_mod hlt] at hiff
    exact ⟨hiff.mp rfl, rfl⟩
  · rintro ⟨e1, e2⟩
    rw [hiff.mpr e1, ← e2, Nat.mul_comm, Nat.div_add_mod, SplitMix.Hi_H hu0 hu hk]

theorem OK.restoreKey_ok (h : OK c cb sb d) (hu : cb + sb < 64) (hu0 : 0 < cb + sb) {i dist : Nat} (hi : i < 2 ^ cb) (hd : dist < 2 ^ cb) :
    restoreKey c (SplitMix.std (cb + sb)) { bits := cb, mask := 2 ^ cb - 1 } d i dist = .ok (keyAt c cb sb d i dist) := by
  have hts : d.table.size = 2 ^ cb := by obtain ⟨Mc, h⟩ := h; exact h.tsize
  have hcb64 : (2 : Nat) ^ cb < 2 ^ 64 := Nat.pow_lt_pow_right (by decide) (by omega)
  unfold restoreKey
  rw [h.getQuo_ok hi, R.bind_ok, hts]
  have hinit : (if dist ≤ i then i - dist else sub64 (2 ^ cb) (dist - i)) = homeOf (2 ^ cb) i dist := by
    rw [homeOf_eq hi hd]
    split
    · rfl
    · unfold sub64
      rw [show 2 ^ cb + (2 ^ 64 - (dist - i)) = 2 ^ cb - (dist - i) + 2 ^ 64 by omega, Nat.add_mod_right, Nat.mod_eq_of_lt (by omega)]
  dsimp only
  rw [hinit, key_eq (cb := sb) (sb := cb) (h.quo_lt hi) (homeOf_lt (Nat.two_pow_pos _)) (by omega), SplitMix.hashInv_eq hu0 hu (h.arg_lt hi)]
  rfl

end DspTable
end Poplar
