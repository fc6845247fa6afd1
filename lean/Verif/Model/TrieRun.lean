import Verif.Model.PlainBonsaiTrie
import Verif.Model.PlainFkhashTrie
import Verif.Model.CompactBonsaiTrie
import Verif.Model.CompactFkhashTrie
import Verif.Spec.Tree
/-
  A user of the four trie classes: he builds a tree, and notes the node id of every node. Like `map`
  (map.hpp:170-175, 254-263) he calls `expand` of a bonsai trie when `needs_to_expand` after a new node, and then
  translates all his ids with the returned `node_map`; he may also call `expand` at any other time, unless the
  keys would be wider than 63 bits.
-/
namespace Poplar
open Spec (TreeOp Path)

/-- The four trie classes with their template arguments. -/
inductive TrieClass where
  | plainBonsai (cfg : PlainCfg)
  | compactBonsai (cfg : CompactCfg)
  | plainFkhash (cfg : PlainFkCfg)
  | compactFkhash (cfg : CompactCfg)

/-- the class -/
abbrev TrieClass.Obj : TrieClass → Type
  | plainBonsai _ => PlainBonsai
  | compactBonsai _ => CompactBonsai
  | plainFkhash _ => PlainFk
  | compactFkhash _ => CompactFk

/-- its member functions -/
def TrieClass.ops : (c : TrieClass) → TrieOps c.Obj
  | plainBonsai cfg => PlainBonsai.ops cfg
  | compactBonsai cfg => CompactBonsai.ops cfg
  | plainFkhash cfg => PlainFk.ops cfg
  | compactFkhash cfg => CompactFk.ops cfg

/-- a trie object and the user's notes: path and node id of every node, in order of creation -/
structure Notes (τ : Type) where
  trie : τ
  ids : List (Path × Nat)

namespace Notes
variable {τ : Type}

/-- the node id noted for a path -/
def id? (n : Notes τ) (p : Path) : Option Nat := n.ids.lookup p

/-- `Trie{capa_bits, symb_bits}`, `add_root`, `get_root` -/
def start (ops : TrieOps τ) (cb sb : Nat) : R (Notes τ) := do
  let t ← ops.make cb sb
  let t ← ops.addRoot t
  pure { trie := t, ids := [([], ← ops.getRoot t)] }

/-- translate all ids with a node map -/
def remap (nm : NodeMap) : List (Path × Nat) → R (List (Path × Nat))
  | [] => .ok []
  | (p, i) :: r => do
    let i ← nm.get i
    let r ← remap nm r
    pure ((p, i) :: r)

/-- call `expand` and translate the ids -/
def doExpand (ops : TrieOps τ) (n : Notes τ) : R (Notes τ) := do
  let (t, nm) ← ops.expand n.trie
  pure { trie := t, ids := ← remap nm n.ids }

/-- one operation -/
def step (ops : TrieOps τ) (sb : Nat) (n : Notes τ) : TreeOp → R (Notes τ)
  | .add p s =>
    match n.id? p with
    | none => .ok n
    | some v => do
      let (t, c, isNew) ← ops.addChild n.trie v s
      if isNew then
        let n' : Notes τ := { trie := t, ids := n.ids ++ [(s :: p, c)] }
        if ops.kind = .bonsai ∧ ops.needsToExpand t = true then doExpand ops n' else pure n'
      else pure { trie := t, ids := n.ids }
  | .expand => if ops.kind = .bonsai ∧ ops.capaBits n.trie + 1 + sb < 64 then doExpand ops n else pure n

/-- a history -/
def run (ops : TrieOps τ) (sb : Nat) (n : Notes τ) : List TreeOp → R (Notes τ)
  | [] => .ok n
  | o :: os => do run ops sb (← step ops sb n o) os

/-- construct a trie and perform a history -/
def build (ops : TrieOps τ) (cb sb : Nat) (os : List TreeOp) : R (Notes τ) := do
  run ops sb (← start ops cb sb) os

end Notes

/-- Follow a path (last symbol first) from the root with `get_root` and `find_child`. -/
def nodeAt {τ : Type} (ops : TrieOps τ) (t : τ) : Path → R Nat
  | [] => ops.getRoot t
  | s :: p => do ops.findChild t (← nodeAt ops t p) s

end Poplar
