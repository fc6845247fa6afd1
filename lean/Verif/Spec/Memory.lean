import Verif.Spec.Limits
import Verif.Model.Alloc
/-
  How much memory a map takes: the numbers `alloc_bytes()` should report.
-/
namespace Poplar.Spec
open Poplar

/-- a table of `n` fields of `w` bits, without padding -/
def fieldBytes (n w : Nat) : Nat := n * w / 8

/-- The main tables of a trie with `2^b` slots and `sb` bits per symbol. A plain slot holds the id of the parent node and a
symbol; a compact slot holds a symbol-sized quotient and `d1` displacement bits; the FK-hash tries also hold a node id
per slot. -/
def tableBytes (a : Alias) (b sb d1 : Nat) : Nat :=
  match a with
  | .plainBonsai | .semiCompactBonsai => fieldBytes (2 ^ b) (b + sb)
  | .compactBonsai => fieldBytes (2 ^ b) (sb + d1)
  | .plainFkhash | .semiCompactFkhash => fieldBytes (2 ^ b) (b + sb) + fieldBytes (2 ^ b) b
  | .compactFkhash => fieldBytes (2 ^ b) (sb + d1) + fieldBytes (2 ^ b) b

/-- Whether the trie has the two auxiliary tables for large displacements. -/
def hasAux (a : Alias) : Bool := a == .compactBonsai || a == .compactFkhash

/-- A table with `2^c` slots, at least `2^c0`, holding `n` entries, at most 80 % full, that has been doubled from `2^c0` slots
on only when it was full. -/
def RightSized (c0 c n : Nat) : Prop := c0 ≤ c ∧ 5 * n ≤ 4 * 2 ^ c ∧ 2 ^ c ≤ max (2 ^ c0) (5 * (n + 1) / 2)

/-- `aux` are the bytes of the two auxiliary tables of a compact trie with `2^b` slots and `nodes` nodes. The first, a compact
hash table, starts with `2^12` slots, one with `2^c` slots having `b - c` bits of quotient, `d2` bits of value and two flags per slot;
the second, an ordinary hash table, exists only if it is used, and starts with `2^6` slots of 16 bytes. Together they have
at most one entry for each node but the root. -/
def AuxBytes (d2 b nodes aux : Nat) : Prop :=
  ∃ n1 n2 c1 s2, n1 + n2 ≤ nodes - 1 ∧ aux = fieldBytes (2 ^ c1) (b - c1 + d2 + 2) + 16 * s2 ∧ c1 ≤ b ∧ RightSized 12 c1 n1 ∧
    (s2 = 0 ∧ n2 = 0 ∨ ∃ c2, s2 = 2 ^ c2 ∧ RightSized 6 c2 n2)

/-- The fixed-size arrays of the label map for `2^b` node ids: one pointer per id, or one pointer and one bit map per
`W` ids. The FK-hash label maps use growing arrays with capacities `c`. -/
def labelArrayBytes (a : Alias) (W b : Nat) (c : Caps) : Nat :=
  match a with
  | .plainBonsai => 2 ^ b * 8
  | .semiCompactBonsai | .compactBonsai => 2 ^ b / W * 8 + 2 ^ b / 8
  | .plainFkhash => c.ptrs * 8
  | .semiCompactFkhash | .compactFkhash => c.ptrs * 8 + c.buf

/-- number of groups of seven bits of a number -/
def groups7 (n : Nat) : Nat := if n < 128 then 1 else 1 + groups7 (n / 128)

/-- The bytes needed to store a whole key and its value: the plain maps store the bytes as they are, the compact ones store all but
the terminator, preceded by the length (a byte for seven bits). -/
def labelCost (a : Alias) (vs : Nat) (k : Key) : Nat :=
  match a with
  | .plainBonsai | .plainFkhash => k.length + vs
  | _ => groups7 (k.length - 1 + vs) + (k.length - 1 + vs)

/-- the bytes needed for a node without label -/
def stepCost (a : Alias) : Nat :=
  match a with
  | .semiCompactFkhash | .compactFkhash => 1
  | _ => 0

end Poplar.Spec
