import Verif.Spec.Dict
/-
  Specification: notions about histories of map operations. Independent of the model.
-/
namespace Poplar.Spec

/-- the key an operation inserts (if it is not there yet): the well-formed keys passed to `update` -/
def Op.inserts : Op → Option Key
  | .update k => if Malformed k then none else some k
  | .write k _ => if Malformed k then none else some k
  | _ => none

/-- the keys inserted by a history -/
def inserted (os : List Op) : List Key := os.filterMap Op.inserts

/-- the non-NUL bytes of all inserted keys are among at most 253 values -/
def SmallAlphabet (os : List Op) : Prop :=
  ∃ A : List UInt8, A.length ≤ 253 ∧ ∀ k ∈ inserted os, ∀ c ∈ k, c ≠ 0 → c ∈ A

/-- the value a user expects to find for `key`; the history is given most recent operation first -/
def lastValue (vs : Nat) (key : Key) : List Op → Option Val
  | [] => none
  | .write k v :: r => if k = key ∧ ¬ Malformed k then some v else lastValue vs key r
  | .update k :: r =>
    if k = key ∧ ¬ Malformed k then some ((lastValue vs key r).getD (List.replicate vs 0)) else lastValue vs key r
  | _ :: r => lastValue vs key r

/-- number of distinct elements -/
def distinct : List Key → Nat
  | [] => 0
  | k :: ks => if k ∈ ks then distinct ks else distinct ks + 1

end Poplar.Spec
