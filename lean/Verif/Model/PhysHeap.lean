import Verif.Model.Heap
/-
  A second model of the C++ heap, closer to the machine than `Heap` (Model/Heap.lean): one flat byte-addressed memory, in which
  an allocator places the blocks. It is used to show that nothing depends on the allocator, in particular that the
  simplification of `Heap`, addresses are never reused, is harmless.
-/
namespace Poplar.Phys
open Poplar

/-- `[a, a+n)` does not meet `[b, b+k)`, and the two do not start at the same address (`new uint8_t[0]` returns an address
different from that of every other block) -/
def Apart (e e' : Nat × Nat) : Prop := e.1 ≠ e'.1 ∧ (e.1 + e.2 ≤ e'.1 ∨ e'.1 + e'.2 ≤ e.1)

/-- What the environment decides: where the allocator puts a block, given the number of calls of `new[]` and `delete[]` so far,
the blocks that are in use (address and size) and the size wanted (everything is allowed but to overlap a block in use); what the memory contains at first; and
what becomes, at a call of `new[]` or `delete[]`, of the bytes that belong to no block (the allocator and the rest of the program may use
them). -/
structure Env where
  pick : Nat → List (Nat × Nat) → Nat → Nat
  junk : Nat → UInt8
  scribble : Nat → Nat → UInt8
  pick_ok : ∀ calls live n, ∀ e ∈ live, Apart (pick calls live n, n) e

/-- the memory, and the allocator's list of the blocks in use (address and size) -/
structure Heap where
  env : Env
  bytes : Nat → UInt8
  live : List (Nat × Nat) := []
  calls : Nat := 0

namespace Heap

/-- nothing is allocated -/
def init (E : Env) : Heap := { env := E, bytes := E.junk }

/-- the address belongs to one of the blocks -/
def inside (live : List (Nat × Nat)) (x : Nat) : Bool := live.any (fun e => e.1 ≤ x && x < e.1 + e.2)

/-- `n` bytes from address `a` on -/
def slice (m : Nat → UInt8) (a n : Nat) : List UInt8 := (List.range n).map (fun i => m (a + i))

/-- `std::make_unique<uint8_t[]>(n)`: a value-initialised (zeroed) block at an address chosen by the allocator. -/
def alloc (h : Heap) (n : Nat) : Heap × Nat :=
  let a := h.env.pick h.calls h.live n
  ({ h with
    bytes := fun x => if a ≤ x ∧ x < a + n then 0 else if inside h.live x then h.bytes x else h.env.scribble h.calls x
    live := (a, n) :: h.live
    calls := h.calls + 1 }, a)

/-- the size of the block in use that starts at `a` -/
def sizeAt (h : Heap) (a : Nat) : Option Nat := (h.live.find? (fun e => e.1 == a)).map (·.2)

/-- the bytes in memory from `a` on, for the size of the block in use that starts there -/
def block (h : Heap) (a : Nat) : R (List UInt8) :=
  match h.sizeAt a with
  | some n => .ok (slice h.bytes a n)
  | none => .error .oob

/-- overwrite the bytes of a block in use -/
def put (h : Heap) (a : Nat) (b : List UInt8) : R Heap :=
  match h.sizeAt a with
  | some n =>
    if b.length = n then
      .ok { h with bytes := fun x => if a ≤ x ∧ x < a + n then b.getD (x - a) 0 else h.bytes x }
    else .error .oob
  | none => .error .oob

/-- `delete[]` on the address of a block in use; the address may be given out again by the next `alloc` -/
def free (h : Heap) (a : Nat) : R Heap :=
  match h.sizeAt a with
  | some _ =>
    let live := h.live.filter (fun e => e.1 != a)
    .ok { h with
      bytes := fun x => if inside live x then h.bytes x else h.env.scribble h.calls x
      live := live
      calls := h.calls + 1 }
  | none => .error .oob

/-- release whatever a `unique_ptr` owns -/
def freeOpt (h : Heap) : Option Nat → R Heap
  | none => .ok h
  | some a => h.free a

/-- read the byte at `a + off` -/
def read (h : Heap) (a off : Nat) : R UInt8 := do
  let b ← h.block a
  match b[off]? with
  | some x => .ok x
  | none => .error .oob

/-- write the byte at `a + off` -/
def write (h : Heap) (a off : Nat) (x : UInt8) : R Heap := do
  let b ← h.block a
  if off < b.length then h.put a (b.set off x) else .error .oob

/-- basics.hpp:82-86, `copy_bytes(a + off, src, n)` where the `n` source bytes are `src` -/
def copyIn (h : Heap) (a off : Nat) : List UInt8 → R Heap
  | [] => .ok h
  | x :: xs => do
    let h ← h.write a off x
    copyIn h a (off + 1) xs

/-- basics.hpp:82-86, `copy_bytes(dst + doff, src + soff, n)` between two blocks -/
def copyBytes (h : Heap) (dst doff src soff : Nat) : Nat → R Heap
  | 0 => .ok h
  | n + 1 => do
    let x ← h.read src soff
    let h ← h.write dst doff x
    copyBytes h dst (doff + 1) src (soff + 1) n

/-- vbyte.hpp:52-60, `vbyte::encode(a + off, val)`; returns the number of bytes written -/
def encode (h : Heap) (a off val : Nat) : R (Heap × Nat) := do
  let b ← h.block a
  let (b, n) ← VByte.encode b off val
  let h ← h.put a b
  pure (h, n)

/-- read a value of `vs` bytes through a pointer -/
def load (h : Heap) (a off vs : Nat) : R (List UInt8) := do
  let b ← h.block a
  if off + vs ≤ b.length then .ok ((b.drop off).take vs) else .error .oob

end Heap

/-- The comparison loop of plain_bonsai_nlm.hpp:59-63 and plain_fkhash_nlm.hpp:60-64; the list is
the rest of the key from index `i` on; returns the mismatch position, if any. -/
def cmpPlain (h : Heap) (a : Nat) : List UInt8 → Nat → R (Option Nat)
  | [], _ => .ok none
  | k :: ks, i => do
    if k ≠ (← h.read a i) then pure (some i)
    else cmpPlain h a ks (i + 1)

end Poplar.Phys
