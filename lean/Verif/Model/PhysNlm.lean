import Verif.Model.PhysHeap
import Verif.Model.PlainNlm
import Verif.Model.CompactNlm
/-
  The node label maps of Model/PlainNlm.lean and Model/CompactNlm.lean once more, now on the flat memory of
  Model/PhysHeap.lean. The definitions are the same, up to the heap they work on and the environment `E`, which the
  constructors pass to it.
-/
namespace Poplar.Phys
open Poplar

/-- plain_bonsai_nlm.hpp:134-140, data members, and the heap blocks owned by the object. -/
structure PlainBonsaiNlm where
  ptrs : Array (Option Nat) := #[]
  heap : Heap
  size : Nat := 0
  labelBytes : Nat := 0
  maxLength : Nat := 0
  sumLength : Nat := 0

namespace PlainBonsaiNlm

/-- plain_bonsai_nlm.hpp:45, constructor. -/
def make (E : Env) (capaBits : Nat) : R PlainBonsaiNlm :=
  if capaBits < 64 then .ok { ptrs := Array.replicate (2 ^ capaBits) none, heap := .init E } else .error .limit

/-- plain_bonsai_nlm.hpp:49-66, `compare`. -/
def compare (m : PlainBonsaiNlm) (pos : Nat) (key : List UInt8) : R (Option Loc × Nat) := do
  R.assert (pos < m.ptrs.size)
  let p ← rd m.ptrs pos
  match p with
  | none => .error .assertion
  | some a =>
    if key.isEmpty then pure (some ⟨.heap a, 0⟩, 0)
    else
      match ← cmpPlain m.heap a key 0 with
      | some i => pure (none, i)
      | none => pure (some ⟨.heap a, key.length⟩, key.length)

/-- plain_bonsai_nlm.hpp:68-89, `insert`. -/
def insert (vs : Nat) (m : PlainBonsaiNlm) (pos : Nat) (key : List UInt8) : R (PlainBonsaiNlm × Loc) := do
  R.assert (← rd m.ptrs pos).isNone
  let length := key.length
  let (h, a) := m.heap.alloc (length + vs)
  let ptrs ← wr m.ptrs pos (some a)
  let h ← h.copyIn a 0 key
  let h ← h.copyIn a length (List.replicate vs 0)
  pure ({ ptrs := ptrs, heap := h, size := m.size + 1, labelBytes := m.labelBytes + (length + vs),
          maxLength := max m.maxLength length, sumLength := m.sumLength + length }, ⟨.heap a, length⟩)

/-- plain_bonsai_nlm.hpp:94-98, the loop of `expand`; `c` iterations are left, the next index is
`i`. Moving into `new_ptrs[..]` releases the block it owned, if any. -/
def expandLoop (nm : NodeMap) : (c i : Nat) → Array (Option Nat) → Array (Option Nat) → Heap →
    R (Array (Option Nat) × Array (Option Nat) × Heap)
  | 0, _, old, new, h => .ok (old, new, h)
  | c + 1, i, old, new, h => do
    let j ← nm.get i
    if j ≠ u64max then
      let p ← rd old i
      let h ← h.freeOpt (← rd new j)
      let new ← wr new j p
      let old ← wr old i none
      expandLoop nm c (i + 1) old new h
    else expandLoop nm c (i + 1) old new h

/-- plain_bonsai_nlm.hpp:91-100, `expand`. The final move assignment releases the blocks still owned
by the old vector. -/
def expand (m : PlainBonsaiNlm) (nm : NodeMap) : R PlainBonsaiNlm := do
  let (old, new, h) ← expandLoop nm nm.size 0 m.ptrs (Array.replicate (m.ptrs.size * 2) none) m.heap
  let h ← old.toList.foldlM (fun h p => h.freeOpt p) h
  pure { m with ptrs := new, heap := h }

/-- `*ptr` for a pointer returned by `compare` or `insert`. -/
def load (vs : Nat) (m : PlainBonsaiNlm) (l : Loc) : R (List UInt8) :=
  match l.blk with
  | .buf _ => .error .oob
  | .heap a => m.heap.load a l.off vs

/-- `*ptr = v` for a pointer returned by `compare` or `insert`. -/
def store (m : PlainBonsaiNlm) (l : Loc) (v : List UInt8) : R PlainBonsaiNlm :=
  match l.blk with
  | .buf _ => .error .oob
  | .heap a => do pure { m with heap := ← m.heap.copyIn a l.off v }

/-- The members used by `map` (map.hpp). -/
def ops (E : Env) (vs : Nat) : NlmOps PlainBonsaiNlm where
  empty := { heap := .init E }
  make := make E
  size := fun m => m.size
  compare := compare
  insert := insert vs
  append := fun _ _ => .error .assertion
  appendDummy := fun _ => .error .assertion
  expand := expand
  load := load vs
  store := store

end PlainBonsaiNlm

/-- plain_fkhash_nlm.hpp:120-125, data members, and the heap blocks owned by the object. -/
structure PlainFkNlm where
  ptrs : Array (Option Nat) := #[]
  heap : Heap
  labelBytes : Nat := 0
  maxLength : Nat := 0
  sumLength : Nat := 0

namespace PlainFkNlm

/-- plain_fkhash_nlm.hpp:44-46, constructor (`reserve` has no observable effect). -/
def make (E : Env) (capaBits : Nat) : R PlainFkNlm := if capaBits < 64 then .ok { heap := .init E } else .error .limit

/-- plain_fkhash_nlm.hpp:50-67, `compare`. -/
def compare (m : PlainFkNlm) (pos : Nat) (key : List UInt8) : R (Option Loc × Nat) := do
  R.assert (pos < m.ptrs.size)
  let p ← rd m.ptrs pos
  match p with
  | none => .error .assertion
  | some a =>
    if key.isEmpty then pure (some ⟨.heap a, 0⟩, 0)
    else
      match ← cmpPlain m.heap a key 0 with
      | some i => pure (none, i)
      | none => pure (some ⟨.heap a, key.length⟩, key.length)

/-- plain_fkhash_nlm.hpp:69-86, `append`. -/
def append (vs : Nat) (m : PlainFkNlm) (key : List UInt8) : R (PlainFkNlm × Loc) := do
  let length := key.length
  let (h, a) := m.heap.alloc (length + vs)
  let ptrs := m.ptrs.push (some a)
  let h ← h.copyIn a 0 key
  let h ← h.copyIn a length (List.replicate vs 0)
  pure ({ ptrs := ptrs, heap := h, labelBytes := m.labelBytes + (length + vs),
          maxLength := max m.maxLength length, sumLength := m.sumLength + length }, ⟨.heap a, length⟩)

/-- plain_fkhash_nlm.hpp:88-90, `append_dummy`. -/
def appendDummy (m : PlainFkNlm) : R PlainFkNlm := .ok { m with ptrs := m.ptrs.push none }

/-- `*ptr` for a pointer returned by `compare` or `append`. -/
def load (vs : Nat) (m : PlainFkNlm) (l : Loc) : R (List UInt8) :=
  match l.blk with
  | .buf _ => .error .oob
  | .heap a => m.heap.load a l.off vs

/-- `*ptr = v` for a pointer returned by `compare` or `append`. -/
def store (m : PlainFkNlm) (l : Loc) (v : List UInt8) : R PlainFkNlm :=
  match l.blk with
  | .buf _ => .error .oob
  | .heap a => do pure { m with heap := ← m.heap.copyIn a l.off v }

/-- The members used by `map` (map.hpp). -/
def ops (E : Env) (vs : Nat) : NlmOps PlainFkNlm where
  empty := { heap := .init E }
  make := make E
  size := fun m => m.ptrs.size
  compare := compare
  insert := fun _ _ _ => .error .assertion
  append := append vs
  appendDummy := appendDummy
  expand := fun _ _ => .error .assertion
  load := load vs
  store := store

end PlainFkNlm

/-- compact_bonsai_nlm.hpp:212-220, data members, and the heap blocks owned by the object. -/
structure CompactBonsaiNlm where
  ptrs : Array (Option Nat) := #[]
  chunks : Array Nat := #[]
  heap : Heap
  size : Nat := 0
  labelBytes : Nat := 0
  maxLength : Nat := 0
  sumLength : Nat := 0

namespace CompactBonsaiNlm

/-- compact_bonsai_nlm.hpp:47, constructor. -/
def make (E : Env) (W capaBits : Nat) : R CompactBonsaiNlm :=
  if capaBits < 64 then
    .ok { ptrs := Array.replicate (2 ^ capaBits / W) none, chunks := Array.replicate (2 ^ capaBits / W) 0, heap := .init E }
  else .error .limit

/-- compact_bonsai_nlm.hpp:51-84, `compare`. -/
def compare (W vs : Nat) (m : CompactBonsaiNlm) (pos : Nat) (key : List UInt8) : R (Option Loc × Nat) := do
  let c := pos / W
  let p := pos % W
  match ← rd m.ptrs c with
  | none => .error .assertion
  | some a =>
    let w ← rd m.chunks c
    R.assert (← BitTools.getBit W w p)
    let offset ← BitTools.popcntMask W w p
    let mem ← m.heap.block a
    let (r, match') ← compareMem false vs mem offset key
    pure (r.map (fun o => ⟨.heap a, o⟩), match')

/-- compact_bonsai_nlm.hpp:222-246, `get_allocs_`, for the chunk word `w` and the block `a`. -/
def getAllocs (W : Nat) (h : Heap) (a w p : Nat) : R (Nat × Nat) := do
  R.assert (← BitTools.getBit W w p)
  let num ← BitTools.popcnt W w
  let offset ← BitTools.popcntMask W w p
  let mem ← h.block a
  Poplar.CompactBonsaiNlm.allocsLoop mem offset (sub64 num 1) 0 0 0 0

/-- compact_bonsai_nlm.hpp:86-148, `insert`. -/
def insert (W vs : Nat) (m : CompactBonsaiNlm) (pos : Nat) (key : List UInt8) : R (CompactBonsaiNlm × Loc) := do
  let c := pos / W
  let p := pos % W
  let w ← rd m.chunks c
  R.assert (!(← BitTools.getBit W w p))
  let w ← BitTools.setBit W w p
  let chunks ← wr m.chunks c w
  let length := if key.isEmpty then 0 else key.length - 1
  let newAlloc := VByte.size (length + vs) + length + vs
  match ← rd m.ptrs c with
  | none =>
    let (h, a) := m.heap.alloc newAlloc
    let ptrs ← wr m.ptrs c (some a)
    let (h, d) ← h.encode a 0 (length + vs)
    let h ← h.copyIn a d (key.take length)
    let h ← h.copyIn a (d + length) (List.replicate vs 0)
    pure ({ ptrs := ptrs, chunks := chunks, heap := h, size := m.size + 1, labelBytes := m.labelBytes + newAlloc,
            maxLength := max m.maxLength key.length, sumLength := m.sumLength + key.length },
      ⟨.heap a, d + length⟩)
  | some a =>
    let (front, back) ← getAllocs W m.heap a w p
    let (h, n) := m.heap.alloc (front + newAlloc + back)
    let h ← h.copyBytes n 0 a 0 front
    let (h, d) ← h.encode n front (length + vs)
    let h ← h.copyIn n (front + d) (key.take length)
    let h ← h.copyIn n (front + d + length) (List.replicate vs 0)
    let h ← h.copyBytes n (front + d + length + vs) a front back
    let h ← h.free a
    let ptrs ← wr m.ptrs c (some n)
    pure ({ ptrs := ptrs, chunks := chunks, heap := h, size := m.size + 1, labelBytes := m.labelBytes + newAlloc,
            maxLength := max m.maxLength key.length, sumLength := m.sumLength + key.length },
      ⟨.heap n, front + d + length⟩)

/-- compact_bonsai_nlm.hpp:248-268, `get_slice_`: block, begin and length, or `none` for the empty
range of a step node. -/
def getSlice (W : Nat) (m : CompactBonsaiNlm) (h : Heap) (c p : Nat) : R (Option (Nat × Nat × Nat)) := do
  let w ← rd m.chunks c
  if !(← BitTools.getBit W w p) then pure none
  else
    match ← rd m.ptrs c with
    | none => .error .assertion
    | some a =>
      let offset ← BitTools.popcntMask W w p
      let mem ← h.block a
      let off ← skipEntries mem offset 0
      let (vsize, len) ← VByte.decode (mem.drop off)
      pure (some (a, off, vsize + len))

/-- compact_bonsai_nlm.hpp:270-301, `set_slice_`; the slice is `len` bytes at `src + soff`. -/
def setSlice (W : Nat) (m : CompactBonsaiNlm) (c p src soff len : Nat) : R CompactBonsaiNlm := do
  let w ← rd m.chunks c
  R.assert (!(← BitTools.getBit W w p))
  let w ← BitTools.setBit W w p
  let chunks ← wr m.chunks c w
  match ← rd m.ptrs c with
  | none =>
    let (h, n) := m.heap.alloc len
    let ptrs ← wr m.ptrs c (some n)
    let h ← h.copyBytes n 0 src soff len
    pure { m with ptrs := ptrs, chunks := chunks, heap := h }
  | some a =>
    let (front, back) ← getAllocs W m.heap a w p
    let (h, n) := m.heap.alloc (front + len + back)
    let h ← h.copyBytes n 0 a 0 front
    let h ← h.copyBytes n front src soff len
    let h ← h.copyBytes n (front + len) a front back
    let h ← h.free a
    let ptrs ← wr m.ptrs c (some n)
    pure { m with ptrs := ptrs, chunks := chunks, heap := h }

/-- compact_bonsai_nlm.hpp:155-163, first part of the body of the loop of `expand`: move the label of
one node from `old` (`*this`) to `new` (`new_ls`). -/
def moveOne (W : Nat) (nm : NodeMap) (pos : Nat) (old new : CompactBonsaiNlm) : R CompactBonsaiNlm := do
  let newPos ← nm.get pos
  if newPos ≠ u64max then do
    match ← getSlice W old new.heap (pos / W) (pos % W) with
    | none => pure new
    | some (a, off, len) =>
      if len = 0 then pure new
      else setSlice W new (newPos / W) (newPos % W) a off len
  else pure new

/-- compact_bonsai_nlm.hpp:154-167, the loop of `expand`; `old` is `*this`, `new` is `new_ls`. The
heap is shared by both objects; it is kept in `new.heap`. -/
def expandLoop (W : Nat) (nm : NodeMap) : (n pos : Nat) → CompactBonsaiNlm → CompactBonsaiNlm →
    R (CompactBonsaiNlm × CompactBonsaiNlm)
  | 0, _, old, new => .ok (old, new)
  | n + 1, pos, old, new => do
    let new ← moveOne W nm pos old new
    if pos % W = W - 1 then
      let h ← new.heap.freeOpt (← rd old.ptrs (pos / W))
      let ptrs ← wr old.ptrs (pos / W) none
      expandLoop W nm n (pos + 1) { old with ptrs := ptrs } { new with heap := h }
    else expandLoop W nm n (pos + 1) old new

/-- compact_bonsai_nlm.hpp:150-176, `expand`. The final move assignment releases the blocks still
owned by the old object. -/
def expand (W : Nat) (m : CompactBonsaiNlm) (nm : NodeMap) : R CompactBonsaiNlm := do
  let b ← BitTools.ceilLog2 (m.ptrs.size * W * 2)
  let new ← make m.heap.env W b
  let (old, new) ← expandLoop W nm nm.size 0 m { new with heap := m.heap }
  let h ← old.ptrs.toList.foldlM (fun h p => h.freeOpt p) new.heap
  pure { new with heap := h, size := m.size, labelBytes := m.labelBytes, maxLength := m.maxLength, sumLength := m.sumLength }

/-- `*ptr` for a pointer returned by `compare` or `insert`. -/
def load (vs : Nat) (m : CompactBonsaiNlm) (l : Loc) : R (List UInt8) :=
  match l.blk with
  | .buf _ => .error .oob
  | .heap a => m.heap.load a l.off vs

/-- `*ptr = v` for a pointer returned by `compare` or `insert`. -/
def store (m : CompactBonsaiNlm) (l : Loc) (v : List UInt8) : R CompactBonsaiNlm :=
  match l.blk with
  | .buf _ => .error .oob
  | .heap a => do pure { m with heap := ← m.heap.copyIn a l.off v }

/-- The members used by `map` (map.hpp). -/
def ops (E : Env) (W vs : Nat) : NlmOps CompactBonsaiNlm where
  empty := { heap := .init E }
  make := make E W
  size := fun m => m.size
  compare := compare W vs
  insert := insert W vs
  append := fun _ _ => .error .assertion
  appendDummy := fun _ => .error .assertion
  expand := expand W
  load := load vs
  store := store

end CompactBonsaiNlm

/-- compact_fkhash_nlm.hpp:160-168, data members, and the heap blocks owned by the object. -/
structure CompactFkNlm where
  chunkPtrs : Array Nat := #[]
  chunkBuf : List UInt8 := []
  size : Nat := 0
  heap : Heap
  labelBytes : Nat := 0
  maxLength : Nat := 0
  sumLength : Nat := 0

namespace CompactFkNlm

/-- compact_fkhash_nlm.hpp:47-50, constructor (`reserve` has no observable effect). -/
def make (E : Env) (capaBits : Nat) : R CompactFkNlm := if capaBits < 64 then .ok { heap := .init E } else .error .limit

/-- compact_fkhash_nlm.hpp:54-93, `compare`. -/
def compare (W vs : Nat) (m : CompactFkNlm) (pos : Nat) (key : List UInt8) : R (Option Loc × Nat) := do
  R.assert (pos < m.size)
  let c := pos / W
  let p := pos % W
  if c < m.chunkPtrs.size then
    let a ← rd m.chunkPtrs c
    let mem ← m.heap.block a
    let (r, match') ← compareMem true vs mem p key
    pure (r.map (fun o => ⟨.heap a, o⟩), match')
  else
    R.assert (c = m.chunkPtrs.size)
    let (r, match') ← compareMem true vs m.chunkBuf p key
    pure (r.map (fun o => ⟨.buf m.chunkPtrs.size, o⟩), match')

/-- compact_fkhash_nlm.hpp:170-176, `release_buf_`. -/
def releaseBuf (m : CompactFkNlm) : R CompactFkNlm := do
  let (h, a) := m.heap.alloc m.chunkBuf.length
  let h ← h.copyIn a 0 m.chunkBuf
  pure { m with
    chunkPtrs := m.chunkPtrs.push a, chunkBuf := [], heap := h, labelBytes := m.labelBytes + m.chunkBuf.length }

/-- compact_fkhash_nlm.hpp:96-99 and 118-121, common first part of `append` and `append_dummy`. -/
def nextSlot (W : Nat) (m : CompactFkNlm) : R CompactFkNlm := do
  let c := m.size / W
  let p := m.size % W
  let m := { m with size := m.size + 1 }
  if c ≠ 0 && p = 0 then m.releaseBuf else pure m

/-- compact_fkhash_nlm.hpp:95-114, `append`. -/
def append (W vs : Nat) (m : CompactFkNlm) (key : List UInt8) : R (CompactFkNlm × Loc) := do
  let m ← nextSlot W m
  let length := if key.isEmpty then 0 else key.length - 1
  let buf := (VByte.append m.chunkBuf (length + vs)).1
  let buf := buf ++ key.take length
  let buf := buf ++ List.replicate vs 0
  pure ({ m with chunkBuf := buf, maxLength := max m.maxLength key.length, sumLength := m.sumLength + key.length },
    ⟨.buf m.chunkPtrs.size, buf.length - vs⟩)

/-- compact_fkhash_nlm.hpp:117-124, `append_dummy`. -/
def appendDummy (W : Nat) (m : CompactFkNlm) : R CompactFkNlm := do
  let m ← nextSlot W m
  pure { m with chunkBuf := (VByte.append m.chunkBuf 0).1 }

/-- `*ptr` for a pointer returned by `compare` or `append`. (The number of releases of the buffer is
`chunkPtrs.size`. That the buffer may also be reallocated when it grows is not modelled.) -/
def load (vs : Nat) (m : CompactFkNlm) (l : Loc) : R (List UInt8) :=
  match l.blk with
  | .buf g => if g = m.chunkPtrs.size ∧ l.off + vs ≤ m.chunkBuf.length then .ok ((m.chunkBuf.drop l.off).take vs) else .error .oob
  | .heap a => m.heap.load a l.off vs

/-- `*ptr = v` for a pointer returned by `compare` or `append`. -/
def store (m : CompactFkNlm) (l : Loc) (v : List UInt8) : R CompactFkNlm :=
  match l.blk with
  | .buf g =>
    if g = m.chunkPtrs.size then do pure { m with chunkBuf := ← Poplar.CompactFkNlm.overwrite m.chunkBuf l.off v }
    else .error .oob
  | .heap a => do pure { m with heap := ← m.heap.copyIn a l.off v }

/-- The members used by `map` (map.hpp). -/
def ops (E : Env) (W vs : Nat) : NlmOps CompactFkNlm where
  empty := { heap := .init E }
  make := make E
  size := fun m => m.size
  compare := compare W vs
  insert := fun _ _ _ => .error .assertion
  append := append W vs
  appendDummy := appendDummy W
  expand := fun _ _ => .error .assertion
  load := load vs
  store := store

end CompactFkNlm

end Poplar.Phys
