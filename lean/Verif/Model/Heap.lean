import Verif.Model.Interfaces
import Verif.Model.VByte
/-
  The C++ heap as far as the node label maps use it: blocks obtained with
  `std::make_unique<uint8_t[]>(n)` and released by `std::unique_ptr`.
-/
namespace Poplar

/-- Block `a` is `blocks[a]`; `none` once it has been released. Addresses are never reused (a
simplification that makes every access through a stale pointer visible as a fault). -/
structure Heap where
  blocks : Array (Option (List UInt8)) := #[]
deriving DecidableEq, Repr

namespace Heap

/-- `std::make_unique<uint8_t[]>(n)`: a fresh, value-initialised (zeroed) block. -/
def alloc (h : Heap) (n : Nat) : Heap × Nat :=
  ({ blocks := h.blocks.push (some (List.replicate n 0)) }, h.blocks.size)

/-- the bytes of a live block -/
def block (h : Heap) (a : Nat) : R (List UInt8) :=
  match h.blocks[a]? with
  | some (some b) => .ok b
  | _ => .error .oob

/-- replace the bytes of a live block -/
def put (h : Heap) (a : Nat) (b : List UInt8) : R Heap := do
  let _ ← h.block a
  pure { blocks := h.blocks.setIfInBounds a (some b) }

/-- `delete[]` on a live block -/
def free (h : Heap) (a : Nat) : R Heap := do
  let _ ← h.block a
  pure { blocks := h.blocks.setIfInBounds a none }

/-- release whatever a `unique_ptr` owns -/
def freeOpt (h : Heap) : Option Nat → R Heap
  | none => .ok h
  | some a => h.free a

/-- read the byte at `a + off` -/
def read (h : Heap) (a off : Nat) : R UInt8 := do
  let b ← h.block a
  match b[off]? with
  | some x => .ok x
  | none => .error .oob

/-- write the byte at `a + off` -/
def write (h : Heap) (a off : Nat) (x : UInt8) : R Heap := do
  let b ← h.block a
  if off < b.length then h.put a (b.set off x) else .error .oob

/-- basics.hpp:82-86, `copy_bytes(a + off, src, n)` where the `n` source bytes are `src` -/
def copyIn (h : Heap) (a off : Nat) : List UInt8 → R Heap
  | [] => .ok h
  | x :: xs => do
    let h ← h.write a off x
    copyIn h a (off + 1) xs

/-- basics.hpp:82-86, `copy_bytes(dst + doff, src + soff, n)` between two blocks -/
def copyBytes (h : Heap) (dst doff src soff : Nat) : Nat → R Heap
  | 0 => .ok h
  | n + 1 => do
    let x ← h.read src soff
    let h ← h.write dst doff x
    copyBytes h dst (doff + 1) src (soff + 1) n

/-- vbyte.hpp:52-60, `vbyte::encode(a + off, val)`; returns the number of bytes written -/
def encode (h : Heap) (a off val : Nat) : R (Heap × Nat) := do
  let b ← h.block a
  let (b, n) ← VByte.encode b off val
  let h ← h.put a b
  pure (h, n)

/-- vbyte.hpp:62-71, `vbyte::decode(a + off, val)`; returns (bytes read, value) -/
def decode (h : Heap) (a off : Nat) : R (Nat × Nat) := do
  let b ← h.block a
  VByte.decode (b.drop off)

/-- read a value of `vs` bytes through a pointer -/
def load (h : Heap) (a off vs : Nat) : R (List UInt8) := do
  let b ← h.block a
  if off + vs ≤ b.length then .ok ((b.drop off).take vs) else .error .oob

end Heap

/-- basics.hpp:51-53, `char_range::operator[]`; reading past `end` counts as out of bounds. -/
def keyAt (key : List UInt8) (i : Nat) : R UInt8 :=
  match key[i]? with
  | some x => .ok x
  | none => .error .oob

end Poplar
