import Verif.Spec.History
/-
  Specification: which bytes of the keys use up the alphabet of a map, and what a user sees when it is
  full. Independent of the model.

  A map registers at most 254 byte values including NUL. A byte value is registered when it is the
  byte at which a new key leaves all registered keys.
-/
namespace Poplar.Spec

/-- length of the longest common prefix of `k` with a key of `d` -/
def branchPos (d : Dict) (k : Key) : Nat := d.foldr (fun e n => max (lcp k e.1) n) 0

/-- the first byte of `k` after its longest common prefix with a key of `d` -/
def branchByte (d : Dict) (k : Key) : Option UInt8 := k[branchPos d k]?

/-- inserting `k` adds a key to a non-empty dictionary, and it branches off at the byte `c` -/
def BranchesAt (d : Dict) (k : Key) (c : UInt8) : Prop := d ≠ [] ∧ d.get k = none ∧ branchByte d k = some c

instance (d : Dict) (k : Key) (c : UInt8) : Decidable (BranchesAt d k c) := by
  unfold BranchesAt; infer_instance

/-- a dictionary and the non-NUL byte values registered so far -/
structure AState where
  dict : Dict := []
  bytes : List UInt8 := []

/-- The byte value `o` makes the map register: the branching byte of a new key, if it is not NUL and not yet
registered. -/
def AState.newByte (s : AState) (o : Op) : Option UInt8 :=
  match o.inserts with
  | none => none
  | some k =>
    if s.dict = [] ∨ s.dict.get k ≠ none then none
    else match branchByte s.dict k with
      | none => none
      | some c => if c = 0 ∨ c ∈ s.bytes then none else some c

/-- Meaning of an operation, including the exhaustion of the alphabet: the 254th non-NUL byte value is registered but
the insertion is refused with an exception. `none`: the 255th non-NUL byte value is needed, and the map does not
work properly any more. -/
def AState.step (vs : Nat) (s : AState) (o : Op) : Option (AState × Out) :=
  match s.newByte o with
  | none => some ({ s with dict := (Spec.step vs s.dict o).1 }, (Spec.step vs s.dict o).2)
  | some c =>
    if s.bytes.length < 253 then
      some ({ dict := (Spec.step vs s.dict o).1, bytes := c :: s.bytes }, (Spec.step vs s.dict o).2)
    else if s.bytes.length = 253 then some ({ s with bytes := c :: s.bytes }, .exn)
    else none

/-- meaning of a history -/
def AState.run (vs : Nat) : AState → List Op → Option (AState × List Out)
  | s, [] => some (s, [])
  | s, o :: os => do
    let (s, x) ← s.step vs o
    let (s, xs) ← AState.run vs s os
    pure (s, x :: xs)

/-- no insertion of the history needs a 255th non-NUL byte value -/
def Supported (vs : Nat) (os : List Op) : Prop := ∃ s xs, AState.run vs {} os = some (s, xs)

end Poplar.Spec
