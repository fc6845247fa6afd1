import Verif.Spec.Dict
/-
  Specification: a dictionary whose keys are character strings (no terminator), as a user of the `std::string` overloads of
  `find` and `update` sees it. Independent of the model.
-/
namespace Poplar.Spec

/-- how a user names a key: a `std::string`, or `make_char_range(p)` for a `const char* p`; then `mem` is the accessible
memory starting at `p` -/
inductive KeySrc where
  | string (s : List UInt8)
  | cstr (mem : List UInt8)

/-- the string meant: for a `const char*`, everything before the first NUL -/
def KeySrc.chars : KeySrc → List UInt8
  | .string s => s
  | .cstr mem => mem.takeWhile (· ≠ 0)

/-- a `std::string` without NUL characters, or a pointer to NUL-terminated memory -/
def KeySrc.Legal : KeySrc → Prop
  | .string s => 0 ∉ s
  | .cstr mem => 0 ∈ mem

/-- what a user does -/
inductive SOp where
  | find (k : KeySrc)
  | update (k : KeySrc)
  | write (k : KeySrc) (v : Val)
  | size

/-- meaning of an operation on a dictionary keyed by strings: it never throws -/
def sstep (vs : Nat) (d : Dict) : SOp → Dict × Out
  | .find k => (d, .found (d.get k.chars))
  | .update k =>
    match d.get k.chars with
    | some v => (d, .value v)
    | none => (d.set k.chars (List.replicate vs 0), .value (List.replicate vs 0))
  | .write k v => (d.set k.chars v, .done)
  | .size => (d, .count d.length)

/-- meaning of a history -/
def srun (vs : Nat) : Dict → List SOp → Dict × List Out
  | d, [] => (d, [])
  | d, o :: os =>
    let (d', x) := sstep vs d o
    let (d'', xs) := srun vs d' os
    (d'', x :: xs)

def SOp.key? : SOp → Option KeySrc
  | .find k => some k
  | .update k => some k
  | .write k _ => some k
  | .size => none

/-- the string an operation inserts (if it is not there yet) -/
def SOp.inserts : SOp → Option (List UInt8)
  | .update k => some k.chars
  | .write k _ => some k.chars
  | _ => none

/-- the strings inserted by a history -/
def sinserted (os : List SOp) : List (List UInt8) := os.filterMap SOp.inserts

/-- admissible operations -/
def SOp.Legal (vs : Nat) (o : SOp) : Prop :=
  (∀ k, o.key? = some k → k.Legal ∧ k.chars.length + 1 + vs < 2 ^ 64) ∧ (∀ k v, o = .write k v → v.length = vs)

end Poplar.Spec
