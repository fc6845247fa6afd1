/-
  Foundations of the model: faults, 64-bit helpers, `include/poplar/basics.hpp`.

  `uint64_t` values are `Nat`s; every operation that can wrap is written with an explicit
  reduction modulo `2^64`.
-/
namespace Poplar

/-- Outcomes of a C++ call other than a normal return.
* `oob`       : read or write outside an allocated block, or null dereference (undefined behaviour);
* `assertion` : a failed `assert` (abort in debug builds);
* `diverge`   : an infinite loop;
* `throw`     : a `poplar::exception` escapes (exception.hpp:46-47) and the object is not used further;
* `limit`     : undefined behaviour because a shift count or a capacity exceeds its limit
                (`1ULL << bits` with `bits >= 64`, basics.hpp:98, or a compact_hash_table whose
                capacity exceeds its universe, compact_hash_table.hpp:53-55). -/
inductive Fault where
  | oob | assertion | diverge | throw | limit
deriving DecidableEq, Repr

/-- Result of a C++ call. -/
abbrev R (α : Type) := Except Fault α

/-- `Except Fault α` has decidable equality (used by closed examples only). -/
instance {α : Type} [DecidableEq α] : DecidableEq (R α) := fun a b =>
  match a, b with
  | .ok x, .ok y => if h : x = y then isTrue (by rw [h]) else isFalse (by simp [h])
  | .error x, .error y => if h : x = y then isTrue (by rw [h]) else isFalse (by simp [h])
  | .ok _, .error _ => isFalse (by simp)
  | .error _, .ok _ => isFalse (by simp)

/-- `assert(b)` of `<cassert>`. -/
def R.assert (b : Bool) : R Unit := if b then .ok () else .error .assertion

/-- `UINT64_MAX`; also `nil_id` of the tries and `nil` of the hash tables
(plain_bonsai_trie.hpp:40, compact_hash_table.hpp:44, standard_hash_table.hpp:40). -/
def u64max : Nat := 2 ^ 64 - 1

/-- `x << s` on `uint64_t` (callers guarantee `s < 64`). -/
def shl64 (x s : Nat) : Nat := (x <<< s) % 2 ^ 64

/-- `x * y` on `uint64_t`. -/
def mul64 (x y : Nat) : Nat := (x * y) % 2 ^ 64

/-- `x - y` on `uint64_t`, for operands below `2^64`. -/
def sub64 (x y : Nat) : Nat := (x + (2 ^ 64 - y)) % 2 ^ 64

/-- `~x` on `uint64_t`. -/
def not64 (x : Nat) : Nat := x ^^^ (2 ^ 64 - 1)

/-- `std::vector::operator[]` read; out of range is undefined behaviour. -/
def rd {α : Type} (a : Array α) (i : Nat) : R α :=
  match a[i]? with
  | some x => .ok x
  | none => .error .oob

/-- `std::vector::operator[]` write; out of range is undefined behaviour. -/
def wr {α : Type} (a : Array α) (i : Nat) (x : α) : R (Array α) :=
  if i < a.size then .ok (a.setIfInBounds i x) else .error .oob

/-- basics.hpp:94-113, class `size_p2` (`bits_`, `mask_`). -/
structure SizeP2 where
  bits : Nat := 0
  mask : Nat := 0
deriving DecidableEq, Repr

/-- basics.hpp:98, `size_p2{bits}`: `mask_ = (1ULL << bits) - 1`; shifting by 64 or more is
undefined behaviour. -/
def SizeP2.make (bits : Nat) : R SizeP2 :=
  if bits < 64 then .ok { bits := bits, mask := 2 ^ bits - 1 } else .error .limit

/-- basics.hpp:106-108, `size_p2::size`. -/
def SizeP2.size (s : SizeP2) : Nat := s.mask + 1

/-- basics.hpp:71-73, `is_power2`. -/
def isPower2 (n : Nat) : Bool := n != 0 && (n &&& (n - 1)) == 0

/-- basics.hpp:75-80, `bits_to_bytes`. -/
def bitsToBytes (bits : Nat) : Nat :=
  if bits = 0 then 0 else bits / 8 + (if bits % 8 = 0 then 0 else 1)

/-- `max_size_ = static_cast<uint64_t>(capa_size_.size() * MaxFactor / 100.0)`
(plain_bonsai_trie.hpp:51, plain_fkhash_trie.hpp:55, compact_bonsai_trie.hpp:63,
compact_fkhash_trie.hpp:62, standard_hash_table.hpp:47, compact_hash_table.hpp:59).
Simplification: the double division and truncation are modelled as exact floor division, which
agrees with the computation in IEEE doubles for all capacities up to `2^45` (`maxSizeDouble` in
Model/Double.lean, `C17_max_size_double`). -/
def maxSize (capa maxFactor : Nat) : Nat := capa * maxFactor / 100

/-- bit_tools.hpp:332-336, `words_for<uint64_t>`: `(bits + 63) / 64` (simplification: no wrap for
`bits > 2^64 - 64`, an array that cannot exist). -/
def wordsFor (bits : Nat) : Nat := (bits + 64 - 1) / 64

end Poplar
