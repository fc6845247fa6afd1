/-
  Specification: the capacity. Independent of the model.
-/
namespace Poplar.Spec

/-- the least number with a property -/
def Least (P : Nat → Prop) (r : Nat) : Prop := P r ∧ ∀ j < r, ¬ P j

theorem Least.unique {P : Nat → Prop} {r s : Nat} (h : Least P r) (h' : Least P s) : r = s := by
  rcases Nat.lt_trichotomy r s with g | g | g
  · exact absurd h.1 (h'.2 r g)
  · exact g
  · exact absurd h'.1 (h.2 s g)

/-- `MaxFactor` per cent of `c0` slots, doubled `j` times -/
def load (mf c0 j : Nat) : Nat := mf * (c0 * 2 ^ j) / 100

/-- how often `c0` slots have to be doubled until they hold `n` nodes at a load of less than `mf` per cent -/
def DoublingsBelow (mf c0 n : Nat) : Nat → Prop := Least fun j => n < load mf c0 j

/-- how often `c0` slots have to be doubled until they hold `n` nodes at a load of at most `mf` per cent -/
def DoublingsUpTo (mf c0 n : Nat) : Nat → Prop := Least fun j => n ≤ load mf c0 j

end Poplar.Spec
