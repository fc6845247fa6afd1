import Verif.Model.Heap
/-
  Models of `include/poplar/plain_bonsai_nlm.hpp` and `include/poplar/plain_fkhash_nlm.hpp`.
  `vs` is `sizeof(value_type)`; a value is its `vs` bytes. `label_bytes_`, `max_length_` and `sum_length_` are natural
  numbers (their wrap-around at 2^64 is not modelled). `maxLength` and `sumLength` exist in the code with
  POPLAR_EXTRA_STATS only.
-/
namespace Poplar

/-- The comparison loop of plain_bonsai_nlm.hpp:59-63 and plain_fkhash_nlm.hpp:60-64; the list is
the rest of the key from index `i` on; returns the mismatch position, if any. -/
def cmpPlain (h : Heap) (a : Nat) : List UInt8 → Nat → R (Option Nat)
  | [], _ => .ok none
  | k :: ks, i => do
    if k ≠ (← h.read a i) then pure (some i)
    else cmpPlain h a ks (i + 1)

/-- plain_bonsai_nlm.hpp:134-140, data members, and the heap blocks owned by the object. -/
structure PlainBonsaiNlm where
  ptrs : Array (Option Nat) := #[]
  heap : Heap := {}
  size : Nat := 0
  labelBytes : Nat := 0
  maxLength : Nat := 0
  sumLength : Nat := 0
deriving DecidableEq, Repr

namespace PlainBonsaiNlm

/-- plain_bonsai_nlm.hpp:45, constructor. -/
def make (capaBits : Nat) : R PlainBonsaiNlm :=
  if capaBits < 64 then .ok { ptrs := Array.replicate (2 ^ capaBits) none } else .error .limit

/-- plain_bonsai_nlm.hpp:49-66, `compare`. -/
def compare (m : PlainBonsaiNlm) (pos : Nat) (key : List UInt8) : R (Option Loc × Nat) := do
  R.assert (pos < m.ptrs.size)
  let p ← rd m.ptrs pos
  match p with
  | none => .error .assertion
  | some a =>
    if key.isEmpty then pure (some ⟨.heap a, 0⟩, 0)
    else
      match ← cmpPlain m.heap a key 0 with
      | some i => pure (none, i)
      | none => pure (some ⟨.heap a, key.length⟩, key.length)

/-- plain_bonsai_nlm.hpp:68-89, `insert`. -/
def insert (vs : Nat) (m : PlainBonsaiNlm) (pos : Nat) (key : List UInt8) : R (PlainBonsaiNlm × Loc) := do
  R.assert (← rd m.ptrs pos).isNone
  let length := key.length
  let (h, a) := m.heap.alloc (length + vs)
  let ptrs ← wr m.ptrs pos (some a)
  let h ← h.copyIn a 0 key
  let h ← h.copyIn a length (List.replicate vs 0)
  pure ({ ptrs := ptrs, heap := h, size := m.size + 1, labelBytes := m.labelBytes + (length + vs),
          maxLength := max m.maxLength length, sumLength := m.sumLength + length }, ⟨.heap a, length⟩)

/-- plain_bonsai_nlm.hpp:94-98, the loop of `expand`; `c` iterations are left, the next index is
`i`. Moving into `new_ptrs[..]` releases the block it owned, if any. -/
def expandLoop (nm : NodeMap) : (c i : Nat) → Array (Option Nat) → Array (Option Nat) → Heap →
    R (Array (Option Nat) × Array (Option Nat) × Heap)
  | 0, _, old, new, h => .ok (old, new, h)
  | c + 1, i, old, new, h => do
    let j ← nm.get i
    if j ≠ u64max then
      let p ← rd old i
      let h ← h.freeOpt (← rd new j)
      let new ← wr new j p
      let old ← wr old i none
      expandLoop nm c (i + 1) old new h
    else expandLoop nm c (i + 1) old new h

/-- plain_bonsai_nlm.hpp:91-100, `expand`. The final move assignment releases the blocks still owned
by the old vector. -/
def expand (m : PlainBonsaiNlm) (nm : NodeMap) : R PlainBonsaiNlm := do
  let (old, new, h) ← expandLoop nm nm.size 0 m.ptrs (Array.replicate (m.ptrs.size * 2) none) m.heap
  let h ← old.toList.foldlM (fun h p => h.freeOpt p) h
  pure { m with ptrs := new, heap := h }

/-- `*ptr` for a pointer returned by `compare` or `insert`. -/
def load (vs : Nat) (m : PlainBonsaiNlm) (l : Loc) : R (List UInt8) :=
  match l.blk with
  | .buf _ => .error .oob
  | .heap a => m.heap.load a l.off vs

/-- `*ptr = v` for a pointer returned by `compare` or `insert`. -/
def store (m : PlainBonsaiNlm) (l : Loc) (v : List UInt8) : R PlainBonsaiNlm :=
  match l.blk with
  | .buf _ => .error .oob
  | .heap a => do pure { m with heap := ← m.heap.copyIn a l.off v }

/-- The members used by `map` (map.hpp). -/
def ops (vs : Nat) : NlmOps PlainBonsaiNlm where
  empty := {}
  make := make
  size := fun m => m.size
  compare := compare
  insert := insert vs
  append := fun _ _ => .error .assertion
  appendDummy := fun _ => .error .assertion
  expand := expand
  load := load vs
  store := store

end PlainBonsaiNlm

/-- plain_fkhash_nlm.hpp:120-125, data members, and the heap blocks owned by the object. -/
structure PlainFkNlm where
  ptrs : Array (Option Nat) := #[]
  heap : Heap := {}
  labelBytes : Nat := 0
  maxLength : Nat := 0
  sumLength : Nat := 0
deriving DecidableEq, Repr

namespace PlainFkNlm

/-- plain_fkhash_nlm.hpp:44-46, constructor (`reserve` has no observable effect). -/
def make (capaBits : Nat) : R PlainFkNlm := if capaBits < 64 then .ok {} else .error .limit

/-- plain_fkhash_nlm.hpp:50-67, `compare`. -/
def compare (m : PlainFkNlm) (pos : Nat) (key : List UInt8) : R (Option Loc × Nat) := do
  R.assert (pos < m.ptrs.size)
  let p ← rd m.ptrs pos
  match p with
  | none => .error .assertion
  | some a =>
    if key.isEmpty then pure (some ⟨.heap a, 0⟩, 0)
    else
      match ← cmpPlain m.heap a key 0 with
      | some i => pure (none, i)
      | none => pure (some ⟨.heap a, key.length⟩, key.length)

/-- plain_fkhash_nlm.hpp:69-86, `append`. -/
def append (vs : Nat) (m : PlainFkNlm) (key : List UInt8) : R (PlainFkNlm × Loc) := do
  let length := key.length
  let (h, a) := m.heap.alloc (length + vs)
  let ptrs := m.ptrs.push (some a)
  let h ← h.copyIn a 0 key
  let h ← h.copyIn a length (List.replicate vs 0)
  pure ({ ptrs := ptrs, heap := h, labelBytes := m.labelBytes + (length + vs),
          maxLength := max m.maxLength length, sumLength := m.sumLength + length }, ⟨.heap a, length⟩)

/-- plain_fkhash_nlm.hpp:88-90, `append_dummy`. -/
def appendDummy (m : PlainFkNlm) : R PlainFkNlm := .ok { m with ptrs := m.ptrs.push none }

/-- `*ptr` for a pointer returned by `compare` or `append`. -/
def load (vs : Nat) (m : PlainFkNlm) (l : Loc) : R (List UInt8) :=
  match l.blk with
  | .buf _ => .error .oob
  | .heap a => m.heap.load a l.off vs

/-- `*ptr = v` for a pointer returned by `compare` or `append`. -/
def store (m : PlainFkNlm) (l : Loc) (v : List UInt8) : R PlainFkNlm :=
  match l.blk with
  | .buf _ => .error .oob
  | .heap a => do pure { m with heap := ← m.heap.copyIn a l.off v }

/-- The members used by `map` (map.hpp). -/
def ops (vs : Nat) : NlmOps PlainFkNlm where
  empty := {}
  make := make
  size := fun m => m.ptrs.size
  compare := compare
  insert := fun _ _ _ => .error .assertion
  append := append vs
  appendDummy := appendDummy
  expand := fun _ _ => .error .assertion
  load := load vs
  store := store

end PlainFkNlm
end Poplar
