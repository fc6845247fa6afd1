import Verif.Proof.BijectiveHash
import Verif.Proof.VignaHash
/-
  C18: `split_mix_hasher` is a bijection. C41: `vigna_hasher` is a bijection.
-/
namespace Poplar.Props
open Poplar

/-- **C18.** For every universe width `1..63` the hasher can be constructed, `hash` and `hash_inv`
return normally on every `x < 2^u`, stay in the universe, and are inverse to each other. -/
theorem C18_split_mix_bijection (u : Nat) (h0 : 0 < u) (h1 : u < 64) :
    ∃ hs, SplitMix.make u = .ok hs ∧ ∀ x < 2 ^ u,
      (∃ y, hs.hash x = .ok y ∧ y < 2 ^ u ∧ hs.hashInv y = .ok x) ∧
      (∃ y, hs.hashInv x = .ok y ∧ y < 2 ^ u ∧ hs.hash y = .ok x) := by
  refine ⟨_, SplitMix.make_ok h0 h1, fun x hx => ⟨⟨_, SplitMix.hash_eq h0 h1 hx, SplitMix.H_lt h0 h1 hx, ?_⟩,
    ⟨_, SplitMix.hashInv_eq h0 h1 hx, SplitMix.Hi_lt h0 h1 hx, ?_⟩⟩⟩
  · rw [SplitMix.hashInv_eq h0 h1 (SplitMix.H_lt h0 h1 hx), SplitMix.Hi_H h0 h1 hx]
  · rw [SplitMix.hash_eq h0 h1 (SplitMix.Hi_lt h0 h1 hx), SplitMix.H_Hi h0 h1 hx]

/-- outside the universe the call is an assertion failure, and widths 0 and 64 are rejected -/
theorem C18_split_mix_domain (u : Nat) :
    (u = 0 ∨ 64 ≤ u → SplitMix.make u = .error .assertion) ∧
    ∀ hs x, SplitMix.make u = .ok hs → 2 ^ u ≤ x →
      hs.hash x = .error .assertion ∧ hs.hashInv x = .error .assertion := by
  constructor
  · intro h
    have : ¬ (0 < u ∧ u < 64) := by omega
    simp [SplitMix.make, R.assert, this]
  · intro hs x hm hx
    by_cases h : 0 < u ∧ u < 64
    · rw [SplitMix.make_ok h.1 h.2] at hm
      injection hm with hm
      subst hm
      have : ¬ x < (SplitMix.std u).univ.size := by
        simp [SplitMix.std, SizeP2.size]
        have := Nat.two_pow_pos u; omega
      simp [SplitMix.hash, SplitMix.hashInv, R.assert, this]
    · simp [SplitMix.make, R.assert, h] at hm

/-- non-vacuity: a concrete width and value -/
example : (do let h ← SplitMix.make 24; let y ← h.hash 123456; pure (y, ← h.hashInv y)) =
    (do let h ← SplitMix.make 24; let y ← h.hash 123456; pure (y, 123456)) ∧
    (do let h ← SplitMix.make 24; h.hash 123456) ≠ .ok 123456 ∧
    (SplitMix.make 24).isOk := by decide +kernel

/-- **C41** The hash function of the plain tables is a bijection of the 64-bit words, whatever the seed: distinct keys never have
the same hash value, and every hash value occurs. -/
theorem C41_vigna_bijection (seed : Nat) :
    (∀ x, vignaHashSeeded seed x < 2 ^ 64) ∧
    (∀ x < 2 ^ 64, ∀ y < 2 ^ 64, vignaHashSeeded seed x = vignaHashSeeded seed y → x = y) ∧
    (∀ y < 2 ^ 64, ∃ x < 2 ^ 64, vignaHashSeeded seed x = y) :=
  ⟨fun _ => vignaHash_lt, fun _ hx _ hy h => vignaHashSeeded_inj hx hy h,
    surj_of_inj (fun _ _ => vignaHash_lt) (fun _ hx _ hy h => vignaHashSeeded_inj hx hy h)⟩

/-- **C41** ... and so is the static member without seed. -/
theorem C41_vigna_static_bijection :
    (∀ x, vignaHash x < 2 ^ 64) ∧
    (∀ x < 2 ^ 64, ∀ y < 2 ^ 64, vignaHash x = vignaHash y → x = y) ∧
    (∀ y < 2 ^ 64, ∃ x < 2 ^ 64, vignaHash x = y) :=
  ⟨fun _ => vignaHash_lt, fun _ hx _ hy h => vignaHash_inj hx hy h,
    surj_of_inj (fun _ _ => vignaHash_lt) (fun _ hx _ hy h => vignaHash_inj hx hy h)⟩

/-- computed values -/
example : vignaHash 0 = 0 ∧ vignaHash 1 = 6238072747940578789 ∧ vignaHashSeeded 0x9e3779b97f4a7c15 5 = 7134611160154358618 := by decide

end Poplar.Props
