import Verif.Model.Aliases
import Verif.Model.MapRun
/-
  Several threads using one map: `find`, and reading and writing values through the pointers it returns. Nothing in map.hpp
  synchronises anything; what is modelled is the byte by byte access of `find` (map.hpp:75-115, a `const` member function) to the
  memory that holds the values, interleaved with the byte accesses of other threads.

  `find` reads the tables of the trie, the array of codes and the arrays of pointers and bit words of the label store as well; the
  operations considered here never write them, so these reads are not made single steps. The labels share their blocks with the
  values, so every byte of a block that is read is a step of its own.
-/
namespace Poplar

/-- a computation that reads memory byte by byte, and may fail -/
inductive Reads (α : Type) where
  | ret (x : R α)
  | read (l : Loc) (next : UInt8 → Reads α)

namespace Reads
variable {α β : Type}

/-- one computation after the other -/
def bind : Reads α → (α → Reads β) → Reads β
  | .ret (.ok a), f => f a
  | .ret (.error e), _ => .ret (.error e)
  | .read l k, f => .read l (fun x => (k x).bind f)

instance : Monad Reads where
  pure a := .ret (.ok a)
  bind := bind

/-- run it in one go, on memory that does not change meanwhile -/
def run (mem : Loc → R UInt8) : Reads α → R α
  | .ret x => x
  | .read l k => do (k (← mem l)).run mem

end Reads

/-- vbyte.hpp:64-70, the loop of `decode`, reading from the pointer `⟨b, off⟩` on: a byte is read, then shifted. The fuel is
one more than the number of bytes that can be read (the 11th would be shifted by 70). -/
def VByte.decodeGoR (b : Blk) : (fuel off i shift val : Nat) → Reads (Nat × Nat)
  | 0, _, _, _, _ => .ret (.error .diverge)
  | fuel + 1, off, i, shift, val =>
    .read ⟨b, off⟩ fun x =>
      if 64 ≤ shift then .ret (.error .limit)
      else if x.toNat &&& 0x80 ≠ 0 then
        decodeGoR b fuel (off + 1) (i + 1) (shift + 7) (val ||| shl64 (x.toNat &&& 127) shift)
      else .ret (.ok (i + 1, val ||| shl64 (x.toNat &&& 127) shift))

/-- vbyte.hpp:62-71, `decode`. -/
def VByte.decodeR (b : Blk) (off : Nat) : Reads (Nat × Nat) := VByte.decodeGoR b 11 off 0 0 0

/-- The comparison loop of plain_bonsai_nlm.hpp:59-63 and plain_fkhash_nlm.hpp:60-64. -/
def cmpPlainR (a : Nat) : List UInt8 → Nat → Reads (Option Nat)
  | [], _ => .ret (.ok none)
  | k :: ks, i => .read ⟨.heap a, i⟩ fun x => if k ≠ x then .ret (.ok (some i)) else cmpPlainR a ks (i + 1)

/-- compact_bonsai_nlm.hpp:61-64 and compact_fkhash_nlm.hpp:68-71, the loops that skip entries. -/
def skipEntriesR (b : Blk) : (n off : Nat) → Reads Nat
  | 0, off => .ret (.ok off)
  | n + 1, off => do
    let (d, alloc) ← VByte.decodeR b off
    skipEntriesR b n (off + d + alloc)

/-- compact_bonsai_nlm.hpp:72-76 and compact_fkhash_nlm.hpp:81-85. -/
def cmpCompactR (b : Blk) (off : Nat) (key : List UInt8) : (n i : Nat) → Reads (Option Nat)
  | 0, _ => .ret (.ok none)
  | n + 1, i => do
    let c ← .ret (keyAt key i)
    .read ⟨b, off + i⟩ fun x => if c ≠ x then .ret (.ok (some i)) else cmpCompactR b off key n (i + 1)

/-- compact_bonsai_nlm.hpp:60-84 and compact_fkhash_nlm.hpp:67-93, as `compareMem`. -/
def compareMemR (chk : Bool) (vs : Nat) (b : Blk) (idx : Nat) (key : List UInt8) : Reads (Option Nat × Nat) := do
  let off ← skipEntriesR b idx 0
  let (d, alloc) ← VByte.decodeR b off
  let off := off + d
  if key.isEmpty then pure (some off, 0)
  else
    .ret (R.assert (!chk || vs ≤ alloc))
    let length := sub64 alloc vs
    match ← cmpCompactR b off key length 0 with
    | some i => pure (none, i)
    | none =>
      if (← .ret (keyAt key length)) ≠ 0 then pure (none, length)
      else pure (some (off + length), length + 1)

/-- `compare` of a label store, byte by byte, and the memory it works on. -/
structure ByteOps (ν : Type) where
  /-- the byte at an address -/
  byte : ν → Loc → R UInt8
  compare : ν → Nat → List UInt8 → Reads (Option Loc × Nat)

/-- a byte of a heap block -/
def Heap.byte (h : Heap) (l : Loc) : R UInt8 :=
  match l.blk with
  | .heap a => h.read a l.off
  | .buf _ => .error .oob

/-- the second half of plain_bonsai_nlm.hpp:49-66 and plain_fkhash_nlm.hpp:50-67, `compare` -/
def plainCompareR (ptrs : Array (Option Nat)) (pos : Nat) (key : List UInt8) : Reads (Option Loc × Nat) := do
  .ret (R.assert (pos < ptrs.size))
  let p ← .ret (rd ptrs pos)
  match p with
  | none => .ret (.error .assertion)
  | some a =>
    if key.isEmpty then pure (some ⟨.heap a, 0⟩, 0)
    else
      match ← cmpPlainR a key 0 with
      | some i => pure (none, i)
      | none => pure (some ⟨.heap a, key.length⟩, key.length)

/-- plain_bonsai_nlm.hpp:49-66, `compare`. -/
def PlainBonsaiNlm.bytes : ByteOps PlainBonsaiNlm where
  byte m l := m.heap.byte l
  compare m := plainCompareR m.ptrs

/-- plain_fkhash_nlm.hpp:50-67, `compare`. -/
def PlainFkNlm.bytes : ByteOps PlainFkNlm where
  byte m l := m.heap.byte l
  compare m := plainCompareR m.ptrs

/-- compact_bonsai_nlm.hpp:51-84, `compare`. -/
def CompactBonsaiNlm.compareR (W vs : Nat) (m : CompactBonsaiNlm) (pos : Nat) (key : List UInt8) : Reads (Option Loc × Nat) := do
  let c := pos / W
  let p := pos % W
  match ← .ret (rd m.ptrs c) with
  | none => .ret (.error .assertion)
  | some a =>
    let w ← .ret (rd m.chunks c)
    let bit ← .ret (BitTools.getBit W w p)
    .ret (R.assert bit)
    let offset ← .ret (BitTools.popcntMask W w p)
    let (r, match') ← compareMemR false vs (.heap a) offset key
    pure (r.map (fun o => ⟨.heap a, o⟩), match')

/-- compact_bonsai_nlm.hpp:51-84, `compare`. -/
def CompactBonsaiNlm.bytes (W vs : Nat) : ByteOps CompactBonsaiNlm where
  byte m l := m.heap.byte l
  compare := CompactBonsaiNlm.compareR W vs

/-- compact_fkhash_nlm.hpp:54-93, `compare`. -/
def CompactFkNlm.compareR (W vs : Nat) (m : CompactFkNlm) (pos : Nat) (key : List UInt8) : Reads (Option Loc × Nat) := do
  .ret (R.assert (pos < m.size))
  let c := pos / W
  let p := pos % W
  if c < m.chunkPtrs.size then
    let a ← .ret (rd m.chunkPtrs c)
    let (r, match') ← compareMemR true vs (.heap a) p key
    pure (r.map (fun o => ⟨.heap a, o⟩), match')
  else
    .ret (R.assert (c = m.chunkPtrs.size))
    let (r, match') ← compareMemR true vs (.buf m.chunkPtrs.size) p key
    pure (r.map (fun o => ⟨.buf m.chunkPtrs.size, o⟩), match')

/-- a byte of a block or of the buffer -/
def CompactFkNlm.byte (m : CompactFkNlm) (l : Loc) : R UInt8 :=
  match l.blk with
  | .heap a => m.heap.read a l.off
  | .buf g => if g = m.chunkPtrs.size then keyAt m.chunkBuf l.off else .error .oob

/-- compact_fkhash_nlm.hpp:54-93, `compare`. -/
def CompactFkNlm.bytes (W vs : Nat) : ByteOps CompactFkNlm where
  byte := CompactFkNlm.byte
  compare := CompactFkNlm.compareR W vs

/-- the label store of each alias (poplar.hpp:41-57) -/
def Alias.bytes : (a : Alias) → (p : Params) → ByteOps a.Nlm
  | plainBonsai, _ => PlainBonsaiNlm.bytes
  | semiCompactBonsai, p => CompactBonsaiNlm.bytes p.chunkSize p.valSize
  | compactBonsai, p => CompactBonsaiNlm.bytes p.chunkSize p.valSize
  | plainFkhash, _ => PlainFkNlm.bytes
  | semiCompactFkhash, p => CompactFkNlm.bytes p.chunkSize p.valSize
  | compactFkhash, p => CompactFkNlm.bytes p.chunkSize p.valSize

namespace Map
variable {τ ν : Type}

/-- map.hpp:85-114, the main loop of `find` and the final comparison, as `findLoop`. -/
def findLoopR (cfg : MapCfg τ ν) (B : ByteOps ν) (m : Map τ ν) : (fuel node : Nat) → List UInt8 → Reads (Option Loc)
  | 0, _, _ => .ret (.error .diverge)
  | fuel + 1, node, key => do
    if key.isEmpty then
      pure (← B.compare m.nlm node key).1
    else
      let (vptr, match') ← B.compare m.nlm node key
      match vptr with
      | some l => pure (some l)
      | none =>
        let key ← .ret (advance key match')
        match ← .ret (findSteps cfg m (match' + 1) node match') with
        | none => pure none
        | some (node, match') =>
          match key with
          | [] => .ret (.error .oob)
          | c :: rest =>
            let code ← .ret (rd m.codes c.toNat)
            if code = 255 then pure none
            else
              let symb ← .ret (makeSymb cfg m c match')
              let node ← .ret (cfg.T.findChild m.trie node symb)
              if node = u64max then pure none
              else findLoopR cfg B m fuel node rest

/-- map.hpp:75-115, `find`. -/
def findR (cfg : MapCfg τ ν) (B : ByteOps ν) (m : Map τ ν) (key : List UInt8) : Reads (Option Loc) := do
  if badKey key then .ret (.error .throw)
  else if !m.isReady || cfg.T.size m.trie = 0 then pure none
  else
    let node ← .ret (cfg.T.getRoot m.trie)
    findLoopR cfg B m (key.length + 1) node key

end Map

/-- the next byte -/
def Loc.next (l : Loc) : Loc := ⟨l.blk, l.off + 1⟩

/-- A thread: a program that calls `find`, reads and writes values through pointers, goes on as it likes depending on what it has seen,
and returns a result. `scan` and `fetch` are a call of `find` and the reading of a value in progress (`n` bytes are left
from `l` on, `got` has been read); a thread is started without them. Writing a value is putting its bytes one after the other. -/
inductive Thread (β : Type) where
  | done (x : β)
  | find (key : List UInt8) (next : Option Loc → Thread β)
  | load (l : Loc) (next : List UInt8 → Thread β)
  | store (l : Loc) (v : List UInt8) (next : Thread β)
  | scan (r : Reads (Option Loc)) (next : Option Loc → Thread β)
  | fetch (l : Loc) (n : Nat) (got : List UInt8) (next : List UInt8 → Thread β)

namespace Thread
variable {β : Type} {τ ν : Type}

/-- one step of a thread: at most one byte of the memory is read or written -/
def step (cfg : MapCfg τ ν) (B : ByteOps ν) (vs : Nat) (m : Map τ ν) : Thread β → R (Map τ ν × Thread β)
  | .done x => pure (m, .done x)
  | .find key k => pure (m, .scan (Map.findR cfg B m key) k)
  | .load l k => pure (m, .fetch l vs [] k)
  | .store _ [] k => pure (m, k)
  | .store l (x :: v) k => do pure (← Map.store cfg m l [x], .store l.next v k)
  | .scan (.ret x) k => do pure (m, k (← x))
  | .scan (.read l f) k => do pure (m, .scan (f (← B.byte m.nlm l)) k)
  | .fetch _ 0 got k => pure (m, k got)
  | .fetch l (n + 1) got k => do pure (m, .fetch l.next n (got ++ [← B.byte m.nlm l]) k)

/-- the byte that the next step of a thread reads, if any -/
def reads : Thread β → Option Loc
  | .scan (.read l _) _ => some l
  | .fetch l (_ + 1) _ _ => some l
  | _ => none

/-- the byte that the next step of a thread writes, if any -/
def writes : Thread β → Option Loc
  | .store l (_ :: _) _ => some l
  | _ => none

end Thread

/-- Threads run one step at a time, in the order given by the list `sched` (any order): the map and the
threads afterwards. A fault of any thread is a fault. -/
def runThreads {ι β τ ν : Type} [DecidableEq ι] (cfg : MapCfg τ ν) (B : ByteOps ν) (vs : Nat) :
    (sched : List ι) → Map τ ν → (ι → Thread β) → R (Map τ ν × (ι → Thread β))
  | [], m, ts => pure (m, ts)
  | t :: sched, m, ts => do
    let (m', c) ← (ts t).step cfg B vs m
    runThreads cfg B vs sched m' (fun u => if u = t then c else ts u)

end Poplar
