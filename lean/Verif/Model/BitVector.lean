import Verif.Model.BitTools
/-
  Model of `include/poplar/bit_vector.hpp`.
-/
namespace Poplar
open BitTools

/-- bit_vector.hpp:113-114, data members of `bit_vector`. -/
structure BitVector where
  chunks : Array Nat := #[]
  size : Nat := 0
deriving Repr, DecidableEq

namespace BitVector

/-- bit_vector.hpp:37-40, `bit_vector(size)`. -/
def make (size : Nat) : BitVector := { chunks := Array.replicate (wordsFor size) 0, size := size }

/-- bit_vector.hpp:51-54, `get` (and `operator[]`, lines 48-50). -/
def get (v : BitVector) (i : Nat) : R Bool := do
  R.assert (i < v.size)
  getBit 64 (← rd v.chunks (i / 64)) (i % 64)

/-- bit_vector.hpp:55-58, `set`. -/
def set (v : BitVector) (i : Nat) (bit : Bool := true) : R BitVector := do
  R.assert (i < v.size)
  let w ← setBit 64 (← rd v.chunks (i / 64)) (i % 64) bit
  pure { v with chunks := ← wr v.chunks (i / 64) w }

/-- bit_vector.hpp:60-73, `get_bits`. `1ULL << len` is undefined for `len == 64`. -/
def getBits (v : BitVector) (pos len : Nat) : R Nat := do
  R.assert (pos + len ≤ v.size)
  if len = 0 then pure 0
  else
    if 64 ≤ len then .error .limit
    let c := pos / 64
    let p := pos % 64
    let mask := 2 ^ len - 1
    if p + len ≤ 64 then
      pure (((← rd v.chunks c) >>> p) &&& mask)
    else
      pure (((← rd v.chunks c) >>> p) ||| (shl64 (← rd v.chunks (c + 1)) (64 - p) &&& mask))

/-- `chunks_.back() |= x`; undefined on an empty vector. -/
def orBack (a : Array Nat) (x : Nat) : R (Array Nat) := do
  if a.size = 0 then .error .oob
  else wr a (a.size - 1) ((← rd a (a.size - 1)) ||| x)

/-- bit_vector.hpp:75-82, `append_bit`. -/
def appendBit (v : BitVector) (bit : Bool) : R BitVector := do
  let p := v.size % 64
  let chunks := if p = 0 then v.chunks.push 0 else v.chunks
  let chunks ← orBack chunks (shl64 (if bit then 1 else 0) p)
  pure { chunks := chunks, size := v.size + 1 }

/-- bit_vector.hpp:83-100, `append_bits`. For `len > 64` the assertion `bits >> len` is an undefined
shift. -/
def appendBits (v : BitVector) (bits len : Nat) : R BitVector := do
  if 64 < len then .error .limit
  R.assert (len = 64 ∨ bits >>> len = 0)
  if len = 0 then pure v
  else
    let p := v.size % 64
    if p = 0 then
      pure { chunks := v.chunks.push bits, size := v.size + len }
    else
      let chunks ← orBack v.chunks (shl64 bits p)
      if 64 - p < len then
        pure { chunks := chunks.push (bits >>> (64 - p)), size := v.size + len }
      else
        pure { chunks := chunks, size := v.size + len }

end BitVector
end Poplar
