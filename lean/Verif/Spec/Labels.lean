import Verif.Spec.Dict
/-
  Specification of a node label map: an array of labels with values. Independent of the model.
-/
namespace Poplar.Spec

/-- what the user of a node label map does -/
inductive LabelOp where
  /-- give the node `i` the label `k`: `insert(i, k)`, or `append(k)` if `i` is the next position -/
  | put (i : Nat) (k : Key)
  /-- `append_dummy()`: skip a position -/
  | dummy
  /-- `*compare(i, k).first = v`, where `k` is the label of `i` -/
  | write (i : Nat) (k : Key) (v : Val)
  /-- `expand(f)`: double the number of positions; position `i` moves to position `j` if `f[i] = some j` -/
  | expand (f : List (Option Nat))

/-- labels and values of the nodes -/
structure Labels where
  /-- number of positions (bonsai label maps) -/
  capa : Nat
  /-- next position (fkhash label maps) -/
  next : Nat
  /-- label and value of a position -/
  at_ : Nat → Option (Key × Val)

/-- no labels -/
def Labels.new (capa : Nat) : Labels := { capa := capa, next := 0, at_ := fun _ => none }

/-- meaning of an operation; `vs` is the size of a value -/
def Labels.step (vs : Nat) (s : Labels) : LabelOp → Labels
  | .put i k => { s with next := s.next + 1, at_ := fun j => if j = i then some (k, List.replicate vs 0) else s.at_ j }
  | .dummy => { s with next := s.next + 1 }
  | .write i k v => { s with at_ := fun j => if j = i then some (k, v) else s.at_ j }
  | .expand f => { s with capa := 2 * s.capa, at_ := fun j => (f.idxOf? (some j)).bind s.at_ }

/-- meaning of a history -/
def Labels.run (vs : Nat) (s : Labels) (os : List LabelOp) : Labels := os.foldl (Labels.step vs) s

/-- a label: the rest of a key, i.e. nothing (after the terminator) or a string of bytes that ends with NUL, shorter than the
address space -/
def Label (vs : Nat) (k : Key) : Prop := (k = [] ∨ ∃ s, k = s ++ [0]) ∧ k.length + vs < 2 ^ 64

/-- admissible operations; `fk` distinguishes the fkhash from the bonsai label maps -/
def Labels.Legal (fk : Bool) (vs : Nat) (s : Labels) : LabelOp → Prop
  | .put i k => Label vs k ∧ if fk then i = s.next else i < s.capa ∧ s.at_ i = none
  | .dummy => fk = true
  | .write i k v => (∃ w, s.at_ i = some (k, w)) ∧ v.length = vs
  | .expand f => fk = false ∧ f.length = s.capa ∧ 2 * s.capa < 2 ^ 64 ∧
      (∀ j, some j ∈ f → j < 2 * s.capa) ∧ (∀ i j k : Nat, f[i]? = some (some k) → f[j]? = some (some k) → i = j) ∧
      (∀ i, s.at_ i ≠ none → ∃ j, f[i]? = some (some j))

/-- every operation of a history is admissible when it is performed -/
def Labels.LegalRun (fk : Bool) (vs : Nat) (s : Labels) : List LabelOp → Prop
  | [] => True
  | o :: os => s.Legal fk vs o ∧ (s.step vs o).LegalRun fk vs os

end Poplar.Spec
