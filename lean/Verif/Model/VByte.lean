import Verif.Model.Basic
/-
  Model of `include/poplar/vbyte.hpp`. Memory is a list of bytes; a pointer into it is the suffix
  of the list that starts at the pointer.
-/
namespace Poplar.VByte
open Poplar

/-- Iteration bound of the encoding loops: a `uint64_t` is at most 127 after 9 shifts by 7. -/
def fuel : Nat := 9

/-- vbyte.hpp:35-38, the loop of `size`. -/
def sizeGo : Nat → Nat → Nat → Nat
  | 0, n, _ => n
  | k + 1, n, val => if 127 < val then sizeGo k (n + 1) (val >>> 7) else n

/-- vbyte.hpp:33-40, `size`. -/
def size (val : Nat) : Nat := sizeGo fuel 1 val

/-- vbyte.hpp:44-48 and 54-58: the bytes written by the loops of `append` and `encode`. -/
def bytesGo : Nat → Nat → List UInt8
  | 0, val => [UInt8.ofNat (val &&& 127)]
  | k + 1, val =>
    if 127 < val then UInt8.ofNat ((val &&& 127) ||| 0x80) :: bytesGo k (val >>> 7)
    else [UInt8.ofNat (val &&& 127)]

/-- vbyte.hpp:42-50, `append`: returns the extended vector and the number of bytes appended. -/
def append (vec : List UInt8) (val : Nat) : List UInt8 × Nat :=
  let out := vec ++ bytesGo fuel val
  (out, out.length - vec.length)

/-- vbyte.hpp:52-60, `encode(codes, val)` with `codes` pointing at offset `off` of a block:
overwrites the block from `off` on and returns the number of bytes written. Writing past the end
of the block is undefined behaviour. -/
def encode (blk : List UInt8) (off val : Nat) : R (List UInt8 × Nat) :=
  let bs := bytesGo fuel val
  if off + bs.length ≤ blk.length then
    .ok (blk.take off ++ bs ++ blk.drop (off + bs.length), bs.length)
  else .error .oob

/-- vbyte.hpp:64-70, the loop of `decode`: `i`, `shift`, `val` are the local variables, the list is
the memory from `codes + i` on. A shift by 64 or more is undefined behaviour. Returns `(i, val)`. -/
def decodeGo : List UInt8 → Nat → Nat → Nat → R (Nat × Nat)
  | [], _, _, _ => .error .oob
  | b :: bs, i, shift, val =>
    if 64 ≤ shift then .error .limit
    else if b.toNat &&& 0x80 ≠ 0 then
      decodeGo bs (i + 1) (shift + 7) (val ||| shl64 (b.toNat &&& 127) shift)
    else .ok (i + 1, val ||| shl64 (b.toNat &&& 127) shift)

/-- vbyte.hpp:62-71, `decode(codes, val)`: returns (number of bytes read, value). -/
def decode (mem : List UInt8) : R (Nat × Nat) := decodeGo mem 0 0 0

end Poplar.VByte
