import Verif.Model.Basic
/-
  Helper lemmas about the foundations.
-/
namespace Poplar

@[simp] theorem R.bind_ok {α β : Type} (a : α) (f : α → R β) :
    (Bind.bind (Except.ok a : R α) f) = f a := rfl
@[simp] theorem R.bind_error {α β : Type} (e : Fault) (f : α → R β) :
    (Bind.bind (Except.error e : R α) f) = Except.error e := rfl
@[simp] theorem R.pure_eq {α : Type} (a : α) : (Pure.pure a : R α) = Except.ok a := rfl

@[simp] theorem R.assert_true : R.assert true = .ok () := rfl
theorem R.assert_of {b : Bool} (h : b = true) : R.assert b = .ok () := by subst h; rfl
theorem R.assert_dec {p : Prop} [Decidable p] (h : p) : R.assert (decide p) = .ok () := by
  simp [R.assert, h]

/-- inversion of bind -/
theorem R.bind_eq_ok {α β : Type} {x : R α} {f : α → R β} {b : β}
    (h : (x >>= f) = .ok b) : ∃ a, x = .ok a ∧ f a = .ok b := by
  cases x with
  | error e => simp at h
  | ok a => exact ⟨a, rfl, h⟩

theorem rd_of_lt {α : Type} {a : Array α} {i : Nat} (h : i < a.size) : rd a i = .ok a[i] := by
  simp [rd, h]

theorem rd_of_some {α : Type} {a : Array α} {i : Nat} {x : α} (h : a[i]? = some x) :
    rd a i = .ok x := by
  simp [rd, h]

theorem wr_of_lt {α : Type} {a : Array α} {i : Nat} {x : α} (h : i < a.size) :
    wr a i x = .ok (a.setIfInBounds i x) := by
  simp [wr, h]

theorem testBit_shl64 (x s i : Nat) :
    (shl64 x s).testBit i = (decide (i < 64) && decide (s ≤ i) && x.testBit (i - s)) := by
  rw [shl64, Nat.testBit_mod_two_pow, Nat.testBit_shiftLeft]; simp [Bool.and_assoc]

theorem testBit_not64 (x i : Nat) (h : i < 64) : (not64 x).testBit i = !x.testBit i := by
  have : (2 ^ 64 - 1 : Nat).testBit i = decide (i < 64) := Nat.testBit_two_pow_sub_one 64 i
  rw [not64, Nat.testBit_xor, this]; simp [h]

theorem not64_lt {x : Nat} (h : x < 2 ^ 64) : not64 x < 2 ^ 64 :=
  Nat.xor_lt_two_pow h (by decide)

theorem shl64_lt (x s : Nat) : shl64 x s < 2 ^ 64 := Nat.mod_lt _ (by decide)

theorem shl64_eq {x s : Nat} (h : x * 2 ^ s < 2 ^ 64) : shl64 x s = x * 2 ^ s := by
  simp [shl64, Nat.shiftLeft_eq, Nat.mod_eq_of_lt h]

theorem and_mask (x b : Nat) : x &&& (2 ^ b - 1) = x % 2 ^ b := Nat.and_two_pow_sub_one_eq_mod x b

theorem SizeP2.make_ok {b : Nat} (h : b < 64) :
    SizeP2.make b = .ok { bits := b, mask := 2 ^ b - 1 } := by simp [SizeP2.make, h]

theorem SizeP2.make_eq_ok {b : Nat} {s : SizeP2} (h : SizeP2.make b = .ok s) :
    b < 64 ∧ s = { bits := b, mask := 2 ^ b - 1 } := by
  unfold SizeP2.make at h; split at h
  · exact ⟨by assumption, by simpa using h.symm⟩
  · simp at h

end Poplar
