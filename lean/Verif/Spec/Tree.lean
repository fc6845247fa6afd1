/-
  Specification of a growing tree whose edges are labelled with symbols. A node is identified by its path:
  the symbols from the root, the last one first. Independent of the model.
-/
namespace Poplar.Spec

abbrev Path := List Nat

/-- what a user of a trie class does: `add_child` below the node with path `p`, or `expand` -/
inductive TreeOp where
  | add (p : Path) (s : Nat)
  | expand

/-- the nodes of the tree, in the order of their creation -/
abbrev Tree := List Path

/-- meaning of an operation -/
def Tree.step (ps : Tree) : TreeOp → Tree
  | .add p s => if p ∈ ps ∧ s :: p ∉ ps then ps ++ [s :: p] else ps
  | .expand => ps

/-- the tree built by a history, from the root alone -/
def Tree.run (os : List TreeOp) : Tree := os.foldl Tree.step [[]]

/-- symbols are below `2^sb` -/
def TreeOp.Legal (sb : Nat) : TreeOp → Prop
  | .add _ s => s < 2 ^ sb
  | .expand => True

/-- the root gets a child with symbol 0 -/
def TreeOp.zeroChild : TreeOp → Prop
  | .add p s => s :: p = [0]
  | .expand => False

/-- number of `add` operations -/
def adds : List TreeOp → Nat
  | [] => 0
  | .add _ _ :: os => adds os + 1
  | .expand :: os => adds os

end Poplar.Spec
