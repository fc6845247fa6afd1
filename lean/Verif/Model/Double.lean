import Verif.Model.Basic
/-
  The floating-point computation of the maximal table size, in IEEE 754 binary64 with rounding to nearest,
  ties to even. (The model of the tables uses exact floor division, `Poplar.maxSize`; `maxSizeDouble_eq` in
  Proof/Double.lean shows that this is the same.)
-/
namespace Poplar

/-- the integer nearest to `a / b`, ties to even -/
def roundDiv (a b : Nat) : Nat :=
  if 2 * (a % b) < b ∨ (2 * (a % b) = b ∧ a / b % 2 = 0) then a / b else a / b + 1

/-- `static_cast<uint64_t>(x / y)` for the doubles `x = n`, `y = d` (integers representable as doubles, 0 < d ≤ 2^64).
The quotient `n / d`, scaled by `2^128`, is rounded to 53 significant bits; the result is truncated. -/
def truncDivDouble (n d : Nat) : Nat :=
  if n = 0 then 0 else
    let ulp := 2 ^ (Nat.log2 (n * 2 ^ 128 / d) - 52)
    roundDiv (n * 2 ^ 128) (d * ulp) * ulp / 2 ^ 128

/-- `static_cast<uint64_t>(capa_size_.size() * MaxFactor / 100.0)` (plain_bonsai_trie.hpp:51, plain_fkhash_trie.hpp:55,
compact_bonsai_trie.hpp:63, compact_fkhash_trie.hpp:62, standard_hash_table.hpp:47, compact_hash_table.hpp:59): the product is
a `uint64_t`, which is converted to `double` (exactly, when it is below `2^53`) and divided by the double 100. -/
def maxSizeDouble (capa maxFactor : Nat) : Nat := truncDivDouble (capa * maxFactor % 2 ^ 64) 100

end Poplar
