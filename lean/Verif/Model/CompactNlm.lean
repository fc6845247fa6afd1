import Verif.Model.Heap
import Verif.Model.BitTools
/-
  Models of `include/poplar/compact_bonsai_nlm.hpp` and `include/poplar/compact_fkhash_nlm.hpp`.
  `vs` is `sizeof(value_type)`, `W` is `ChunkSize` (8, 16, 32 or 64). `label_bytes_`,
  `max_length_` and `sum_length_` are natural numbers (their wrap-around at 2^64 is not modelled). `maxLength` and
  `sumLength` exist in the code with POPLAR_EXTRA_STATS only.
-/
namespace Poplar

/-- The loops `for (i = 0; i < n; ++i) { ptr += vbyte::decode(ptr, alloc); ptr += alloc; }` of
compact_bonsai_nlm.hpp:61-64,261-264 and compact_fkhash_nlm.hpp:68-71. `mem` is the block `ptr`
points into, `off` the offset of `ptr`. -/
def skipEntries (mem : List UInt8) : (n off : Nat) → R Nat
  | 0, off => .ok off
  | n + 1, off => do
    let (d, alloc) ← VByte.decode (mem.drop off)
    skipEntries mem n (off + d + alloc)

/-- The loops of compact_bonsai_nlm.hpp:72-76 and compact_fkhash_nlm.hpp:81-85; `n` iterations are
left, the next index is `i`; returns the mismatch position, if any. -/
def cmpCompact (mem : List UInt8) (off : Nat) (key : List UInt8) : (n i : Nat) → R (Option Nat)
  | 0, _ => .ok none
  | n + 1, i => do
    if (← keyAt key i) ≠ (← keyAt mem (off + i)) then pure (some i)
    else cmpCompact mem off key n (i + 1)

/-- compact_bonsai_nlm.hpp:60-84 and compact_fkhash_nlm.hpp:67-93: the common part of `compare`
after the entry number and its block are known. Returns the offset of the value in the block, if
the labels are equal, and the match length. `chk`: with the assertion of compact_fkhash_nlm.hpp:78,
which compact_bonsai_nlm.hpp lacks. -/
def compareMem (chk : Bool) (vs : Nat) (mem : List UInt8) (idx : Nat) (key : List UInt8) : R (Option Nat × Nat) := do
  let off ← skipEntries mem idx 0
  let (d, alloc) ← VByte.decode (mem.drop off)
  let off := off + d
  if key.isEmpty then pure (some off, 0)
  else
    R.assert (!chk || vs ≤ alloc)
    let length := sub64 alloc vs
    match ← cmpCompact mem off key length 0 with
    | some i => pure (none, i)
    | none =>
      if (← keyAt key length) ≠ 0 then pure (none, length)
      else pure (some (off + length), length + 1)

/-- compact_bonsai_nlm.hpp:212-220, data members, and the heap blocks owned by the object. -/
structure CompactBonsaiNlm where
  ptrs : Array (Option Nat) := #[]
  chunks : Array Nat := #[]
  heap : Heap := {}
  size : Nat := 0
  labelBytes : Nat := 0
  maxLength : Nat := 0
  sumLength : Nat := 0
deriving DecidableEq, Repr

namespace CompactBonsaiNlm

/-- compact_bonsai_nlm.hpp:47, constructor. -/
def make (W capaBits : Nat) : R CompactBonsaiNlm :=
  if capaBits < 64 then
    .ok { ptrs := Array.replicate (2 ^ capaBits / W) none, chunks := Array.replicate (2 ^ capaBits / W) 0 }
  else .error .limit

/-- compact_bonsai_nlm.hpp:51-84, `compare`. -/
def compare (W vs : Nat) (m : CompactBonsaiNlm) (pos : Nat) (key : List UInt8) : R (Option Loc × Nat) := do
  let c := pos / W
  let p := pos % W
  match ← rd m.ptrs c with
  | none => .error .assertion
  | some a =>
    let w ← rd m.chunks c
    R.assert (← BitTools.getBit W w p)
    let offset ← BitTools.popcntMask W w p
    let mem ← m.heap.block a
    let (r, match') ← compareMem false vs mem offset key
    pure (r.map (fun o => ⟨.heap a, o⟩), match')

/-- compact_bonsai_nlm.hpp:234-243, the loop of `get_allocs_`. (`len += vbyte::decode(ptr, len)`
evaluates its right operand first since C++17, so `len` becomes the decoded value plus the size of
its code.) -/
def allocsLoop (mem : List UInt8) (offset : Nat) : (n i off front back : Nat) → R (Nat × Nat)
  | 0, _, _, front, back => .ok (front, back)
  | n + 1, i, off, front, back => do
    let (d, v) ← VByte.decode (mem.drop off)
    let len := v + d
    if i < offset then allocsLoop mem offset n (i + 1) (off + len) (front + len) back
    else allocsLoop mem offset n (i + 1) (off + len) front (back + len)

/-- compact_bonsai_nlm.hpp:222-246, `get_allocs_`, for the chunk word `w` and the block `a`. -/
def getAllocs (W : Nat) (h : Heap) (a w p : Nat) : R (Nat × Nat) := do
  R.assert (← BitTools.getBit W w p)
  let num ← BitTools.popcnt W w
  let offset ← BitTools.popcntMask W w p
  let mem ← h.block a
  allocsLoop mem offset (sub64 num 1) 0 0 0 0

/-- compact_bonsai_nlm.hpp:86-148, `insert`. -/
def insert (W vs : Nat) (m : CompactBonsaiNlm) (pos : Nat) (key : List UInt8) : R (CompactBonsaiNlm × Loc) := do
  let c := pos / W
  let p := pos % W
  let w ← rd m.chunks c
  R.assert (!(← BitTools.getBit W w p))
  let w ← BitTools.setBit W w p
  let chunks ← wr m.chunks c w
  let length := if key.isEmpty then 0 else key.length - 1
  let newAlloc := VByte.size (length + vs) + length + vs
  match ← rd m.ptrs c with
  | none =>
    let (h, a) := m.heap.alloc newAlloc
    let ptrs ← wr m.ptrs c (some a)
    let (h, d) ← h.encode a 0 (length + vs)
    let h ← h.copyIn a d (key.take length)
    let h ← h.copyIn a (d + length) (List.replicate vs 0)
    pure ({ ptrs := ptrs, chunks := chunks, heap := h, size := m.size + 1, labelBytes := m.labelBytes + newAlloc,
            maxLength := max m.maxLength key.length, sumLength := m.sumLength + key.length },
      ⟨.heap a, d + length⟩)
  | some a =>
    let (front, back) ← getAllocs W m.heap a w p
    let (h, n) := m.heap.alloc (front + newAlloc + back)
    let h ← h.copyBytes n 0 a 0 front
    let (h, d) ← h.encode n front (length + vs)
    let h ← h.copyIn n (front + d) (key.take length)
    let h ← h.copyIn n (front + d + length) (List.replicate vs 0)
    let h ← h.copyBytes n (front + d + length + vs) a front back
    let h ← h.free a
    let ptrs ← wr m.ptrs c (some n)
    pure ({ ptrs := ptrs, chunks := chunks, heap := h, size := m.size + 1, labelBytes := m.labelBytes + newAlloc,
            maxLength := max m.maxLength key.length, sumLength := m.sumLength + key.length },
      ⟨.heap n, front + d + length⟩)

/-- compact_bonsai_nlm.hpp:248-268, `get_slice_`: block, begin and length, or `none` for the empty
range of a step node. -/
def getSlice (W : Nat) (m : CompactBonsaiNlm) (h : Heap) (c p : Nat) : R (Option (Nat × Nat × Nat)) := do
  let w ← rd m.chunks c
  if !(← BitTools.getBit W w p) then pure none
  else
    match ← rd m.ptrs c with
    | none => .error .assertion
    | some a =>
      let offset ← BitTools.popcntMask W w p
      let mem ← h.block a
      let off ← skipEntries mem offset 0
      let (vsize, len) ← VByte.decode (mem.drop off)
      pure (some (a, off, vsize + len))

/-- compact_bonsai_nlm.hpp:270-301, `set_slice_`; the slice is `len` bytes at `src + soff`. -/
def setSlice (W : Nat) (m : CompactBonsaiNlm) (c p src soff len : Nat) : R CompactBonsaiNlm := do
  let w ← rd m.chunks c
  R.assert (!(← BitTools.getBit W w p))
  let w ← BitTools.setBit W w p
  let chunks ← wr m.chunks c w
  match ← rd m.ptrs c with
  | none =>
    let (h, n) := m.heap.alloc len
    let ptrs ← wr m.ptrs c (some n)
    let h ← h.copyBytes n 0 src soff len
    pure { m with ptrs := ptrs, chunks := chunks, heap := h }
  | some a =>
    let (front, back) ← getAllocs W m.heap a w p
    let (h, n) := m.heap.alloc (front + len + back)
    let h ← h.copyBytes n 0 a 0 front
    let h ← h.copyBytes n front src soff len
    let h ← h.copyBytes n (front + len) a front back
    let h ← h.free a
    let ptrs ← wr m.ptrs c (some n)
    pure { m with ptrs := ptrs, chunks := chunks, heap := h }

/-- compact_bonsai_nlm.hpp:155-163, first part of the body of the loop of `expand`: move the label of
one node from `old` (`*this`) to `new` (`new_ls`). -/
def moveOne (W : Nat) (nm : NodeMap) (pos : Nat) (old new : CompactBonsaiNlm) : R CompactBonsaiNlm := do
  let newPos ← nm.get pos
  if newPos ≠ u64max then do
    match ← getSlice W old new.heap (pos / W) (pos % W) with
    | none => pure new
    | some (a, off, len) =>
      if len = 0 then pure new
      else setSlice W new (newPos / W) (newPos % W) a off len
  else pure new

/-- compact_bonsai_nlm.hpp:154-167, the loop of `expand`; `old` is `*this`, `new` is `new_ls`. The
heap is shared by both objects; it is kept in `new.heap`. -/
def expandLoop (W : Nat) (nm : NodeMap) : (n pos : Nat) → CompactBonsaiNlm → CompactBonsaiNlm →
    R (CompactBonsaiNlm × CompactBonsaiNlm)
  | 0, _, old, new => .ok (old, new)
  | n + 1, pos, old, new => do
    let new ← moveOne W nm pos old new
    if pos % W = W - 1 then
      let h ← new.heap.freeOpt (← rd old.ptrs (pos / W))
      let ptrs ← wr old.ptrs (pos / W) none
      expandLoop W nm n (pos + 1) { old with ptrs := ptrs } { new with heap := h }
    else expandLoop W nm n (pos + 1) old new

/-- compact_bonsai_nlm.hpp:150-176, `expand`. The final move assignment releases the blocks still
owned by the old object. -/
def expand (W : Nat) (m : CompactBonsaiNlm) (nm : NodeMap) : R CompactBonsaiNlm := do
  let b ← BitTools.ceilLog2 (m.ptrs.size * W * 2)
  let new ← make W b
  let (old, new) ← expandLoop W nm nm.size 0 m { new with heap := m.heap }
  let h ← old.ptrs.toList.foldlM (fun h p => h.freeOpt p) new.heap
  pure { new with heap := h, size := m.size, labelBytes := m.labelBytes, maxLength := m.maxLength, sumLength := m.sumLength }

/-- `*ptr` for a pointer returned by `compare` or `insert`. -/
def load (vs : Nat) (m : CompactBonsaiNlm) (l : Loc) : R (List UInt8) :=
  match l.blk with
  | .buf _ => .error .oob
  | .heap a => m.heap.load a l.off vs

/-- `*ptr = v` for a pointer returned by `compare` or `insert`. -/
def store (m : CompactBonsaiNlm) (l : Loc) (v : List UInt8) : R CompactBonsaiNlm :=
  match l.blk with
  | .buf _ => .error .oob
  | .heap a => do pure { m with heap := ← m.heap.copyIn a l.off v }

/-- The members used by `map` (map.hpp). -/
def ops (W vs : Nat) : NlmOps CompactBonsaiNlm where
  empty := {}
  make := make W
  size := fun m => m.size
  compare := compare W vs
  insert := insert W vs
  append := fun _ _ => .error .assertion
  appendDummy := fun _ => .error .assertion
  expand := expand W
  load := load vs
  store := store

end CompactBonsaiNlm

/-- compact_fkhash_nlm.hpp:160-168, data members, and the heap blocks owned by the object. -/
structure CompactFkNlm where
  chunkPtrs : Array Nat := #[]
  chunkBuf : List UInt8 := []
  size : Nat := 0
  heap : Heap := {}
  labelBytes : Nat := 0
  maxLength : Nat := 0
  sumLength : Nat := 0
deriving DecidableEq, Repr

namespace CompactFkNlm

/-- compact_fkhash_nlm.hpp:47-50, constructor (`reserve` has no observable effect). -/
def make (capaBits : Nat) : R CompactFkNlm := if capaBits < 64 then .ok {} else .error .limit

/-- compact_fkhash_nlm.hpp:54-93, `compare`. -/
def compare (W vs : Nat) (m : CompactFkNlm) (pos : Nat) (key : List UInt8) : R (Option Loc × Nat) := do
  R.assert (pos < m.size)
  let c := pos / W
  let p := pos % W
  if c < m.chunkPtrs.size then
    let a ← rd m.chunkPtrs c
    let mem ← m.heap.block a
    let (r, match') ← compareMem true vs mem p key
    pure (r.map (fun o => ⟨.heap a, o⟩), match')
  else
    R.assert (c = m.chunkPtrs.size)
    let (r, match') ← compareMem true vs m.chunkBuf p key
    pure (r.map (fun o => ⟨.buf m.chunkPtrs.size, o⟩), match')

/-- compact_fkhash_nlm.hpp:170-176, `release_buf_`. -/
def releaseBuf (m : CompactFkNlm) : R CompactFkNlm := do
  let (h, a) := m.heap.alloc m.chunkBuf.length
  let h ← h.copyIn a 0 m.chunkBuf
  pure { m with
    chunkPtrs := m.chunkPtrs.push a, chunkBuf := [], heap := h, labelBytes := m.labelBytes + m.chunkBuf.length }

/-- compact_fkhash_nlm.hpp:96-99 and 118-121, common first part of `append` and `append_dummy`. -/
def nextSlot (W : Nat) (m : CompactFkNlm) : R CompactFkNlm := do
  let c := m.size / W
  let p := m.size % W
  let m := { m with size := m.size + 1 }
  if c ≠ 0 && p = 0 then m.releaseBuf else pure m

/-- compact_fkhash_nlm.hpp:95-114, `append`. -/
def append (W vs : Nat) (m : CompactFkNlm) (key : List UInt8) : R (CompactFkNlm × Loc) := do
  let m ← nextSlot W m
  let length := if key.isEmpty then 0 else key.length - 1
  let buf := (VByte.append m.chunkBuf (length + vs)).1
  let buf := buf ++ key.take length
  let buf := buf ++ List.replicate vs 0
  pure ({ m with chunkBuf := buf, maxLength := max m.maxLength key.length, sumLength := m.sumLength + key.length },
    ⟨.buf m.chunkPtrs.size, buf.length - vs⟩)

/-- compact_fkhash_nlm.hpp:117-124, `append_dummy`. -/
def appendDummy (W : Nat) (m : CompactFkNlm) : R CompactFkNlm := do
  let m ← nextSlot W m
  pure { m with chunkBuf := (VByte.append m.chunkBuf 0).1 }

/-- `*ptr` for a pointer returned by `compare` or `append`. (The number of releases of the buffer is
`chunkPtrs.size`. That the buffer may also be reallocated when it grows is not modelled.) -/
def load (vs : Nat) (m : CompactFkNlm) (l : Loc) : R (List UInt8) :=
  match l.blk with
  | .buf g => if g = m.chunkPtrs.size ∧ l.off + vs ≤ m.chunkBuf.length then .ok ((m.chunkBuf.drop l.off).take vs) else .error .oob
  | .heap a => m.heap.load a l.off vs

/-- overwrite bytes of a vector in place -/
def overwrite : List UInt8 → Nat → List UInt8 → R (List UInt8)
  | b, _, [] => .ok b
  | b, off, x :: xs => if off < b.length then overwrite (b.set off x) (off + 1) xs else .error .oob

/-- `*ptr = v` for a pointer returned by `compare` or `append`. -/
def store (m : CompactFkNlm) (l : Loc) (v : List UInt8) : R CompactFkNlm :=
  match l.blk with
  | .buf g =>
    if g = m.chunkPtrs.size then do pure { m with chunkBuf := ← overwrite m.chunkBuf l.off v }
    else .error .oob
  | .heap a => do pure { m with heap := ← m.heap.copyIn a l.off v }

/-- The members used by `map` (map.hpp). -/
def ops (W vs : Nat) : NlmOps CompactFkNlm where
  empty := {}
  make := make
  size := fun m => m.size
  compare := compare W vs
  insert := fun _ _ _ => .error .assertion
  append := append W vs
  appendDummy := appendDummy W
  expand := fun _ _ => .error .assertion
  load := load vs
  store := store

end CompactFkNlm
end Poplar
