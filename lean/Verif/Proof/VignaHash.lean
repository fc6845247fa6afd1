import Mathlib.Data.Fintype.EquivFin
import Mathlib.Data.Nat.ModEq
import Mathlib.Data.Nat.Bitwise
import Verif.Proof.BijectiveHash
/-
  `vigna_hasher` is a bijection on the 64-bit words.
-/
namespace Poplar
open SplitMix

theorem xorshift_inj {x y t : Nat} (ht : 0 < t) (h : x ^^^ (x >>> t) = y ^^^ (y >>> t)) : x = y := by
  have hz : x ^^^ y = (x ^^^ y) >>> t := by
    apply Nat.eq_of_testBit_eq
    intro i
    have := congrArg (fun z => Nat.testBit z i) h
    simp only [Nat.testBit_xor, Nat.testBit_shiftRight] at this ⊢
    generalize x.testBit i = a at *
    generalize y.testBit i = b at *
    generalize x.testBit (t + i) = c at *
    generalize y.testBit (t + i) = d at *
    cases a <;> cases b <;> cases c <;> cases d <;> simp_all
  by_contra hne
  have h0 : x ^^^ y ≠ 0 := fun h => hne (by simpa using h)
  rw [Nat.shiftRight_eq_div_pow] at hz
  have : (x ^^^ y) / 2 ^ t < x ^^^ y := Nat.div_lt_self (by omega) (Nat.one_lt_two_pow (by omega))
  omega

theorem mul64_inj {x y p q : Nat} (hx : x < 2 ^ 64) (hy : y < 2 ^ 64) (hp : p * q % 2 ^ 64 = 1 % 2 ^ 64)
    (h : mul64 x p = mul64 y p) : x = y := by
  rw [← mul_cancel hx hp, ← mul_cancel hy hp]
  simp only [mul64] at h
  rw [h]

theorem vignaHash_lt {x : Nat} : vignaHash x < 2 ^ 64 :=
  xorshift_lt (Nat.mod_lt _ (by decide))

theorem vignaHash_inj {x y : Nat} (hx : x < 2 ^ 64) (hy : y < 2 ^ 64) (h : vignaHash x = vignaHash y) : x = y := by
  have h := xorshift_inj (by decide) h
  have h := mul64_inj (q := 0x319642b2d24d8ec3) (xorshift_lt (Nat.mod_lt _ (by decide))) (xorshift_lt (Nat.mod_lt _ (by decide)))
    (by decide) h
  have h := xorshift_inj (by decide) h
  have h := mul64_inj (q := 0x96de1b173f119089) (xorshift_lt hx) (xorshift_lt hy) (by decide) h
  exact xorshift_inj (by decide) h

theorem vignaHashSeeded_inj {s x y : Nat} (hx : x < 2 ^ 64) (hy : y < 2 ^ 64) (h : vignaHashSeeded s x = vignaHashSeeded s y) : x = y := by
  have h := vignaHash_inj (Nat.mod_lt _ (by decide)) (Nat.mod_lt _ (by decide)) h
  have : Nat.ModEq (2 ^ 64) x y := Nat.ModEq.add_right_cancel' s h
  rwa [Nat.ModEq, Nat.mod_eq_of_lt hx, Nat.mod_eq_of_lt hy] at this

theorem surj_of_inj {n : Nat} {f : Nat → Nat} (hf : ∀ x < n, f x < n) (hi : ∀ x < n, ∀ y < n, f x = f y → x = y) :
    ∀ y < n, ∃ x < n, f x = y := by
  intro y hy
  have : Function.Injective (fun x : Fin n => (⟨f x.1, hf _ x.2⟩ : Fin n)) := by
    intro a b h
    exact Fin.ext (hi _ a.2 _ b.2 (by simpa using h))
  obtain ⟨x, hx⟩ := Finite.injective_iff_surjective.1 this ⟨y, hy⟩
  exact ⟨x.1, x.2, by simpa using congrArg Fin.val hx⟩

end Poplar
