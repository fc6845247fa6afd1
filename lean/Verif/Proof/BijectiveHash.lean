import Verif.Model.BijectiveHash
import Verif.Proof.Basic
/-
  `split_mix_hasher` is a bijection on `[0, 2^u)` for every `u` in `1..63`.
-/
namespace Poplar.SplitMix
open Poplar

theorem table_size : primeTable.size = 64 := by decide

/-- every row `1..63` of the table holds multiplicative inverses modulo `2^u` -/
theorem table_inverse : ∀ u < 64, u ≠ 0 → ∀ n < 3, ∃ p q, prime u n = .ok p ∧ primeInv u n = .ok q ∧
    p * q % 2 ^ u = 1 % 2 ^ u := by
  have key : ∀ u < 64, u ≠ 0 → ∀ n < 3,
      (match prime u n, primeInv u n with
        | .ok p, .ok q => p * q % 2 ^ u == 1 % 2 ^ u
        | _, _ => false) = true := by
    decide +kernel
  intro u hu h0 n hn
  have := key u hu h0 n hn
  split at this
  · rename_i p q e1 e2
    exact ⟨p, q, e1, e2, by simpa using this⟩
  · simp at this

/-- the well-formed hasher of width `u` -/
def std (u : Nat) : SplitMix := { shift := u / 2 + 1, univ := { bits := u, mask := 2 ^ u - 1 } }

theorem make_ok {u : Nat} (h0 : 0 < u) (h1 : u < 64) : make u = .ok (std u) := by
  simp [make, SizeP2.make_ok h1, R.assert, h0, h1, std]

theorem xorshift_lt {x t u : Nat} (hx : x < 2 ^ u) : x ^^^ (x >>> t) < 2 ^ u := by
  apply Nat.xor_lt_two_pow hx
  rw [Nat.shiftRight_eq_div_pow]
  exact Nat.lt_of_le_of_lt (Nat.div_le_self _ _) hx

theorem xorshift_invol {x t u : Nat} (hx : x < 2 ^ u) (ht : u ≤ 2 * t) :
    (x ^^^ (x >>> t)) ^^^ ((x ^^^ (x >>> t)) >>> t) = x := by
  apply Nat.eq_of_testBit_eq
  intro i
  simp only [Nat.testBit_xor, Nat.testBit_shiftRight]
  have : x.testBit (t + (t + i)) = false := by
    apply Nat.testBit_lt_two_pow
    exact Nat.lt_of_lt_of_le hx (Nat.pow_le_pow_right (by decide) (by omega))
  rw [this]
  cases x.testBit i <;> cases x.testBit (t + i) <;> rfl

theorem mul64_and {x p u : Nat} (hu : u < 64) : mul64 x p &&& (2 ^ u - 1) = x * p % 2 ^ u := by
  rw [and_mask, mul64]
  exact Nat.mod_mod_of_dvd _ (Nat.pow_dvd_pow 2 (by omega))

theorem mul_cancel {x p q u : Nat} (hx : x < 2 ^ u) (h : p * q % 2 ^ u = 1 % 2 ^ u) :
    (x * p % 2 ^ u) * q % 2 ^ u = x := by
  rw [Nat.mod_mul_mod, Nat.mul_assoc, Nat.mul_mod, h, ← Nat.mul_mod, Nat.mul_one]
  exact Nat.mod_eq_of_lt hx

/-- Each round is invertible both ways. -/
theorem round {u n : Nat} (h0 : 0 < u) (h1 : u < 64) (hn : n < 3) :
    ∃ f g : Nat → Nat, (∀ x, (std u).hashN n x = .ok (f x)) ∧ (∀ x, (std u).hashInvN n x = .ok (g x)) ∧
      (∀ x < 2 ^ u, f x < 2 ^ u ∧ g x < 2 ^ u ∧ g (f x) = x ∧ f (g x) = x) := by
  obtain ⟨p, q, hp, hq, hpq⟩ := table_inverse u h1 (by omega) n hn
  have hqp : q * p % 2 ^ u = 1 % 2 ^ u := by rw [Nat.mul_comm]; exact hpq
  have hpos : 0 < 2 ^ u := Nat.two_pow_pos u
  refine ⟨fun x => (x ^^^ (x >>> (u / 2 + 1 + n))) * p % 2 ^ u,
    fun x => (x * q % 2 ^ u) ^^^ ((x * q % 2 ^ u) >>> (u / 2 + 1 + n)), ?_, ?_, ?_⟩
  · intro x
    simp only [hashN, std, hp, R.bind_ok, R.pure_eq, mul64_and h1]
  · intro x
    simp only [hashInvN, std, hq, R.bind_ok, R.pure_eq, mul64_and h1]
  · intro x hx
    refine ⟨Nat.mod_lt _ hpos, xorshift_lt (Nat.mod_lt _ hpos), ?_, ?_⟩
    · simp only [mul_cancel (xorshift_lt hx) hpq]
      exact xorshift_invol hx (by omega)
    · simp only [xorshift_invol (Nat.mod_lt _ hpos : x * q % 2 ^ u < 2 ^ u) (show u ≤ 2 * (u / 2 + 1 + n) by omega)]
      exact mul_cancel hx hqp

/-- `hash` and `hash_inv` are total on `[0,2^u)` and mutually inverse. -/
theorem bijection {u : Nat} (h0 : 0 < u) (h1 : u < 64) :
    ∃ f g : Nat → Nat, (∀ x < 2 ^ u, (std u).hash x = .ok (f x) ∧ (std u).hashInv x = .ok (g x) ∧
      f x < 2 ^ u ∧ g x < 2 ^ u ∧ g (f x) = x ∧ f (g x) = x) := by
  obtain ⟨f0, g0, a0, b0, c0⟩ := round h0 h1 (show 0 < 3 by decide)
  obtain ⟨f1, g1, a1, b1, c1⟩ := round h0 h1 (show 1 < 3 by decide)
  obtain ⟨f2, g2, a2, b2, c2⟩ := round h0 h1 (show 2 < 3 by decide)
  refine ⟨fun x => f2 (f1 (f0 x)), fun x => g0 (g1 (g2 x)), fun x hx => ?_⟩
  have hsz : (std u).univ.size = 2 ^ u := by
    simp [std, SizeP2.size]; have := Nat.two_pow_pos u; omega
  obtain ⟨p0, _, q0, _⟩ := c0 x hx
  obtain ⟨p1, _, q1, _⟩ := c1 _ p0
  obtain ⟨p2, _, q2, _⟩ := c2 _ p1
  obtain ⟨_, r2, _, s2⟩ := c2 x hx
  obtain ⟨_, r1, _, s1⟩ := c1 _ r2
  obtain ⟨_, r0, _, s0⟩ := c0 _ r1
  refine ⟨?_, ?_, p2, r0, ?_, ?_⟩
  · simp [hash, hsz, R.assert_dec hx, a0, a1, a2]
  · simp [hashInv, hsz, R.assert_dec hx, b0, b1, b2]
  · simp only [q2, q1, q0]
  · simp only [s0, s1, s2]

end Poplar.SplitMix

namespace Poplar.SplitMix
/-- value of `hash` as a total function -/
def H (u x : Nat) : Nat := match (std u).hash x with | .ok y => y | .error _ => 0
/-- value of `hash_inv` as a total function -/
def Hi (u x : Nat) : Nat := match (std u).hashInv x with | .ok y => y | .error _ => 0

variable {u x : Nat}
theorem hash_eq (h0 : 0 < u) (h1 : u < 64) (hx : x < 2 ^ u) : (std u).hash x = .ok (H u x) := by
  obtain ⟨f, g, h⟩ := bijection h0 h1
  simp [H, (h x hx).1]
theorem hashInv_eq (h0 : 0 < u) (h1 : u < 64) (hx : x < 2 ^ u) : (std u).hashInv x = .ok (Hi u x) := by
  obtain ⟨f, g, h⟩ := bijection h0 h1
  simp [Hi, (h x hx).2.1]
theorem H_lt (h0 : 0 < u) (h1 : u < 64) (hx : x < 2 ^ u) : H u x < 2 ^ u := by
  obtain ⟨f, g, h⟩ := bijection h0 h1
  simpa [H, (h x hx).1] using (h x hx).2.2.1
theorem Hi_lt (h0 : 0 < u) (h1 : u < 64) (hx : x < 2 ^ u) : Hi u x < 2 ^ u := by
  obtain ⟨f, g, h⟩ := bijection h0 h1
  simpa [Hi, (h x hx).2.1] using (h x hx).2.2.2.1
theorem Hi_H (h0 : 0 < u) (h1 : u < 64) (hx : x < 2 ^ u) : Hi u (H u x) = x := by
  obtain ⟨f, g, h⟩ := bijection h0 h1
  have h2 := h x hx
  simpa [Hi, H, h2.1, (h _ h2.2.2.1).2.1] using h2.2.2.2.2.1
theorem H_Hi (h0 : 0 < u) (h1 : u < 64) (hx : x < 2 ^ u) : H u (Hi u x) = x := by
  obtain ⟨f, g, h⟩ := bijection h0 h1
  have h2 := h x hx
  simpa [Hi, H, h2.2.1, (h _ h2.2.2.2.1).1] using h2.2.2.2.2.2
end Poplar.SplitMix
