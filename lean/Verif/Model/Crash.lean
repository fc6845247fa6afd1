import Verif.Model.Aliases
import Verif.Model.NlmRun
/-
  Allocation failures (`std::bad_alloc`) during `update`: the state the map is left in when a memory
  allocation throws and the caller catches the exception. The functions below follow `Map.update` and list, for each
  allocation on the way, the map at that moment.

  Which allocations are considered (the constructors of `CrashSite`):
  * `ctor`: map.hpp:128, anything allocated by the temporary `this_type{0}` (map.hpp:56-65).
  * `grow`: the tables allocated by `add_child`: those of `expand_` (plain_fkhash_trie.hpp:100,199 and
    compact_fkhash_trie.hpp:108,294, and the overflow tables of the new trie) and the overflow tables
    of the compact tries (compact_bonsai_trie.hpp:406,408, compact_fkhash_trie.hpp:273,275). They are listed for every call of
    `add_child`, although `expand_` is called only if the table is full and an overflow table grows only if
    the new node is far from its slot.
  * `expand`: the first allocation of the expansion of a bonsai trie (map.hpp:268; plain_bonsai_trie.hpp:179,186 and
    compact_bonsai_trie.hpp:200-214).
  * `relabel`: the first allocation of the expansion of a label store (map.hpp:270; plain_bonsai_nlm.hpp:92 and
    compact_bonsai_nlm.hpp:152).
  * `dummy`, `label`: the allocations of `append_dummy`, `append` and `insert` of the label stores.
  Not considered: the later allocations of the expansion of a bonsai trie and of `compact_bonsai_nlm`.
-/
namespace Poplar

inductive CrashSite where
  | ctor | grow | expand | relabel | dummy | label
deriving DecidableEq, Repr

/-- What an allocation failure can leave of a label store: `label n i key` for `insert(i, key)` (bonsai) or
`append(key)` (fkhash), `dummy n` for `append_dummy()`. -/
structure CrashOps (ν : Type) where
  label : ν → Nat → List UInt8 → List ν
  dummy : ν → List ν

/-- plain_bonsai_nlm.hpp:68-74, `insert`: `size_` is counted before the allocation. -/
def PlainBonsaiNlm.crash : CrashOps PlainBonsaiNlm where
  label n _ _ := [{ n with size := n.size + 1 }]
  dummy _ := []

/-- plain_fkhash_nlm.hpp:69-71 and 88-90, `append` and `append_dummy`: `emplace_back` has the strong guarantee, and a
`unique_ptr` that could not be stored releases its block. -/
def PlainFkNlm.crash : CrashOps PlainFkNlm where
  label n _ _ := [n]
  dummy n := [n]

/-- compact_bonsai_nlm.hpp:86-104 and 113-122, `insert`: the bit is set, `size_`, `max_length_`, `sum_length_` and
`label_bytes_` are updated before the allocation. -/
def CompactBonsaiNlm.crash (W vs : Nat) : CrashOps CompactBonsaiNlm where
  label n pos key :=
    let length := if key.isEmpty then 0 else key.length - 1
    let newAlloc := VByte.size (length + vs) + length + vs
    match (do wr n.chunks (pos / W) (← BitTools.setBit W (← rd n.chunks (pos / W)) (pos % W))) with
    | .ok chunks => [{ n with
        chunks := chunks, size := n.size + 1, labelBytes := n.labelBytes + newAlloc,
        maxLength := max n.maxLength key.length, sumLength := n.sumLength + key.length }]
    | .error _ => []
  dummy _ := []

/-- compact_fkhash_nlm.hpp:96-99,170-174: `release_buf_` throws. -/
def CompactFkNlm.releaseCrash (W : Nat) (n : CompactFkNlm) : List CompactFkNlm :=
  if n.size / W ≠ 0 && n.size % W = 0 then [{ n with size := n.size + 1, labelBytes := n.labelBytes + n.chunkBuf.length }] else []

/-- compact_fkhash_nlm.hpp:107-111 and 123, vbyte.hpp:44-48: the vector throws when it has to grow to take one of the
bytes `bytes`; those before are in it, and `max_length_` and `sum_length_` (lines 101-104) have been updated for a label of
`len` bytes (`append_dummy` has no label: `len` is 0). -/
def CompactFkNlm.bufCrash (W : Nat) (n : CompactFkNlm) (len : Nat) (bytes : List UInt8) : List CompactFkNlm :=
  match nextSlot W n with
  | .ok n1 => (List.range bytes.length).map fun j =>
      { n1 with chunkBuf := n1.chunkBuf ++ bytes.take j, maxLength := max n1.maxLength len, sumLength := n1.sumLength + len }
  | .error _ => []

/-- compact_fkhash_nlm.hpp:95-124, `append` and `append_dummy`. -/
def CompactFkNlm.crash (W vs : Nat) : CrashOps CompactFkNlm where
  label n _ key :=
    let length := if key.isEmpty then 0 else key.length - 1
    releaseCrash W n ++ bufCrash W n key.length (VByte.bytesGo VByte.fuel (length + vs) ++ key.take length ++ List.replicate vs 0)
  dummy n := releaseCrash W n ++ bufCrash W n 0 (VByte.bytesGo VByte.fuel 0)

/-- What an allocation failure can leave of the trie and of the label store: `overflow t v s` for an overflow table of
`add_child(v, s)`. -/
structure MapCrash (τ ν : Type) extends CrashOps ν where
  overflow : τ → Nat → Nat → List τ

/-- compact_bonsai_trie.hpp:127-129 and 394-422, `add_child`: the overflow tables are enlarged (compact_hash_table.hpp:91-99,
standard_hash_table.hpp:69-75,146-160: the new table is built before the old one is replaced) before the slot is written and
the node is counted. -/
def CompactBonsai.overflow (t : CompactBonsai) (_ _ : Nat) : List CompactBonsai := [t]

/-- compact_fkhash_trie.hpp:107-119 and 261-290, `add_child`: the same, but the trie may have been expanded before. -/
def CompactFk.overflow (cfg : CompactCfg) (t : CompactFk) (_ _ : Nat) : List CompactFk :=
  match (if t.maxSize ≤ t.size then expandSelf cfg t else pure t) with
  | .ok t' => [t']
  | .error _ => []

/-- poplar.hpp:41-57, the trie and the label store of each alias. -/
def Alias.crash : (a : Alias) → (p : Params) → MapCrash a.Trie a.Nlm
  | plainBonsai, _ => { PlainBonsaiNlm.crash with overflow := fun _ _ _ => [] }
  | semiCompactBonsai, p => { CompactBonsaiNlm.crash p.chunkSize p.valSize with overflow := fun _ _ _ => [] }
  | compactBonsai, p => { CompactBonsaiNlm.crash p.chunkSize p.valSize with overflow := CompactBonsai.overflow }
  | plainFkhash, _ => { PlainFkNlm.crash with overflow := fun _ _ _ => [] }
  | semiCompactFkhash, p => { CompactFkNlm.crash p.chunkSize p.valSize with overflow := fun _ _ _ => [] }
  | compactFkhash, p => { CompactFkNlm.crash p.chunkSize p.valSize with overflow := CompactFk.overflow (compactCfg p) }

/-- the four node label map classes (plain_bonsai_nlm.hpp, compact_bonsai_nlm.hpp, plain_fkhash_nlm.hpp, compact_fkhash_nlm.hpp) -/
def NlmClass.crash : (c : NlmClass) → CrashOps c.Obj
  | plainBonsai _ => PlainBonsaiNlm.crash
  | compactBonsai W vs => CompactBonsaiNlm.crash W vs
  | plainFkhash _ => PlainFkNlm.crash
  | compactFkhash W vs => CompactFkNlm.crash W vs

namespace Map
variable {τ ν : Type}

/-- continue after a call that returns -/
def onOk {α β : Type} (x : R α) (f : α → List β) : List β :=
  match x with
  | .ok a => f a
  | .error _ => []

/-- plain_fkhash_trie.hpp:99-101, compact_fkhash_trie.hpp:107-119 and compact_bonsai_trie.hpp:127, `add_child(v, s)` throws. -/
def growPts (cfg : MapCfg τ ν) (C : MapCrash τ ν) (m : Map τ ν) (v s : Nat) : List (CrashSite × Map τ ν) :=
  (match cfg.T.kind with
  | .fkhash => [(.grow, m)]
  | .bonsai => []) ++ (C.overflow m.trie v s).map fun t => (.grow, { m with trie := t })

/-- map.hpp:263-272, `expand_if_needed_` throws: before anything is changed, or between the expansion of the trie and the
expansion of the label store. -/
def expandPts (cfg : MapCfg τ ν) (m : Map τ ν) : List (CrashSite × Map τ ν) :=
  match cfg.T.kind with
  | .fkhash => []
  | .bonsai =>
    if cfg.T.needsToExpand m.trie then
      (.expand, m) :: onOk (cfg.T.expand m.trie) fun x => [(.relabel, { m with trie := x.1 })]
    else []

/-- map.hpp:162, `append_dummy` throws. -/
def dummyPts (C : MapCrash τ ν) (m : Map τ ν) : List (CrashSite × Map τ ν) :=
  (C.dummy m.nlm).map fun n => (.dummy, { m with nlm := n })

/-- map.hpp:135,138,183,186, `append` or `insert` throws. -/
def labelPts (C : MapCrash τ ν) (m : Map τ ν) (node : Nat) (key : List UInt8) : List (CrashSite × Map τ ν) :=
  (C.label m.nlm node key).map fun n => (.label, { m with nlm := n })

/-- map.hpp:154-166, the allocations in the step loop of `update`; follows `updSteps`. -/
def stepsCrash (cfg : MapCfg τ ν) (C : MapCrash τ ν) : (fuel : Nat) → Map τ ν → (node match' : Nat) → List (CrashSite × Map τ ν)
  | 0, _, _, _ => []
  | fuel + 1, m, node, match' =>
    if m.lambda ≤ match' then
      growPts cfg C m node stepSymb ++ onOk (cfg.T.addChild m.trie node stepSymb) fun (trie, node, isNew) =>
        let m := { m with trie := trie }
        if isNew then
          expandPts cfg m ++ onOk (expandIfNeeded cfg m node) fun (m, node) =>
            let m := { m with numSteps := m.numSteps + 1 }
            match cfg.T.kind with
            | .fkhash => dummyPts C m ++ onOk (cfg.L.appendDummy m.nlm) fun nlm =>
                stepsCrash cfg C fuel { m with nlm := nlm } node (match' - m.lambda)
            | .bonsai => stepsCrash cfg C fuel m node (match' - m.lambda)
        else stepsCrash cfg C fuel m node (match' - m.lambda)
    else []

/-- map.hpp:146-194, the allocations in the main loop of `update`; follows `updLoop`. -/
def loopCrash (cfg : MapCfg τ ν) (C : MapCrash τ ν) : (fuel : Nat) → Map τ ν → (node : Nat) → List UInt8 → List (CrashSite × Map τ ν)
  | 0, _, _, _ => []
  | fuel + 1, m, node, key =>
    if key.isEmpty then []
    else
      onOk (cfg.L.compare m.nlm node key) fun (vptr, match') =>
        match vptr with
        | some _ => []
        | none =>
          onOk (advance key match') fun key =>
            stepsCrash cfg C (match' + 1) m node match' ++
            onOk (updSteps cfg (match' + 1) m node match') fun (m, node, match') =>
              match key with
              | [] => []
              | c :: rest =>
                onOk (rd m.codes c.toNat) fun code =>
                  onOk (if code = 255 then do
                      let codes ← wr m.codes c.toNat (m.numCodes % 256)
                      pure { m with codes := codes, numCodes := m.numCodes + 1 }
                    else pure m) fun m =>
                    if code = 255 && 255 = m.numCodes then []
                    else
                      onOk (makeSymb cfg m c match') fun symb =>
                        growPts cfg C m node symb ++ onOk (cfg.T.addChild m.trie node symb) fun (trie, node, isNew) =>
                          let m := { m with trie := trie }
                          if isNew then
                            expandPts cfg m ++ onOk (expandIfNeeded cfg m node) fun (m, node) =>
                              labelPts C { m with size := m.size + 1 } node rest
                          else loopCrash cfg C fuel m node rest

/-- map.hpp:121-195, the allocations of `update`: where they happen, and the map at that moment. Follows `update`. -/
def updateCrash (cfg : MapCfg τ ν) (C : MapCrash τ ν) (m : Map τ ν) (key : List UInt8) : List (CrashSite × Map τ ν) :=
  if badKey key then []
  else if cfg.T.size m.trie = 0 then
    (if m.isReady then [] else [(.ctor, m)]) ++
    onOk (if !m.isReady then make cfg 0 32 else pure m) fun m =>
      let m := { m with size := m.size + 1 }
      onOk (cfg.T.addRoot m.trie) fun trie =>
        let m := { m with trie := trie }
        onOk (cfg.T.getRoot m.trie) fun node => labelPts C m node key
  else
    onOk (cfg.T.getRoot m.trie) fun node => loopCrash cfg C (key.length + 1) m node key

end Map
end Poplar
