import Verif.Model.PlainNlm
import Verif.Model.CompactNlm
import Verif.Spec.Labels
/-
  A user of the four node label map classes.
-/
namespace Poplar
open Spec (LabelOp)

/-- The four classes with their template arguments (`sizeof(Value)` and `ChunkSize`). -/
inductive NlmClass where
  | plainBonsai (vs : Nat)
  | compactBonsai (W vs : Nat)
  | plainFkhash (vs : Nat)
  | compactFkhash (W vs : Nat)

/-- the class -/
abbrev NlmClass.Obj : NlmClass → Type
  | plainBonsai _ => PlainBonsaiNlm
  | compactBonsai _ _ => CompactBonsaiNlm
  | plainFkhash _ => PlainFkNlm
  | compactFkhash _ _ => CompactFkNlm

/-- its member functions -/
def NlmClass.ops : (c : NlmClass) → NlmOps c.Obj
  | plainBonsai vs => PlainBonsaiNlm.ops vs
  | compactBonsai W vs => CompactBonsaiNlm.ops W vs
  | plainFkhash vs => PlainFkNlm.ops vs
  | compactFkhash W vs => CompactFkNlm.ops W vs

/-- `sizeof(Value)` -/
def NlmClass.valSize : NlmClass → Nat
  | plainBonsai vs | compactBonsai _ vs | plainFkhash vs | compactFkhash _ vs => vs

/-- basics.hpp:45, `trie_type_ids` of the class -/
def NlmClass.fk : NlmClass → Bool
  | plainBonsai _ | compactBonsai _ _ => false
  | plainFkhash _ | compactFkhash _ _ => true

/-- a node map with the given entries; unused slots are mapped to UINT64_MAX -/
def nodeMapOf (f : List (Option Nat)) : NodeMap where
  size := f.length
  get := fun i =>
    match f[i]? with
    | some (some j) => .ok j
    | some none => .ok u64max
    | none => .error .oob

namespace NlmOps
variable {ν : Type}

/-- one operation -/
def step (ops : NlmOps ν) (fk : Bool) (m : ν) : LabelOp → R ν
  | .put i k => if fk then do pure (← ops.append m k).1 else do pure (← ops.insert m i k).1
  | .dummy => ops.appendDummy m
  | .write i k v => do
    match (← ops.compare m i k).1 with
    | some p => ops.store m p v
    | none => .error .oob
  | .expand f => ops.expand m (nodeMapOf f)

/-- a history -/
def run (ops : NlmOps ν) (fk : Bool) (m : ν) : List LabelOp → R ν
  | [] => .ok m
  | o :: os => do run ops fk (← step ops fk m o) os

end NlmOps

/-- construct a label map for `2^b` positions and perform a history -/
def NlmClass.build (c : NlmClass) (b : Nat) (os : List LabelOp) : R c.Obj := do
  let m ← c.ops.make b
  c.ops.run c.fk m os

end Poplar
