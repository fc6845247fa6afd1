/-
  Specification: what a user of `map` sees. Deliberately independent of the model.
-/
namespace Poplar.Spec

/-- a key as passed to `find` and `update`: its bytes, terminator included -/
abbrev Key := List UInt8

/-- a value: the bytes of a `value_type` -/
abbrev Val := List UInt8

/-- the bytes of a C string, terminator included: no NUL before the last byte, which is NUL -/
def CString (k : Key) : Prop := ∃ s : List UInt8, (∀ c ∈ s, c ≠ 0) ∧ k = s ++ [0]

/-- keys that `find` and `update` must reject: empty ranges, and ranges without final NUL -/
def Malformed (k : Key) : Prop := k = [] ∨ ∃ s c, k = s ++ [c] ∧ c ≠ 0

instance (k : Key) : Decidable (Malformed k) :=
  match h : k.reverse with
  | [] => isTrue (Or.inl (by simpa using h))
  | c :: r =>
    have hk : k = r.reverse ++ [c] := by rw [← List.reverse_reverse k, h]; simp
    if hc : c = 0 then isFalse (by
      rintro (h1 | ⟨s, d, h1, h2⟩)
      · rw [hk] at h1; simp at h1
      · rw [hk] at h1
        have := List.append_inj_right' h1 rfl
        injection this with h3
        exact h2 (h3 ▸ hc))
    else isTrue (Or.inr ⟨_, _, hk, hc⟩)

/-- length of the longest common prefix -/
def lcp : List UInt8 → List UInt8 → Nat
  | a :: as, b :: bs => if a = b then lcp as bs + 1 else 0
  | _, _ => 0

/-- a dictionary: its entries, one per key -/
abbrev Dict := List (Key × Val)

namespace Dict

/-- the value of a key -/
def get : Dict → Key → Option Val
  | [], _ => none
  | (k', v) :: d, k => if k' = k then some v else get d k

/-- replace the value of a key, or add the key -/
def set : Dict → Key → Val → Dict
  | [], k, v => [(k, v)]
  | (k', v') :: d, k, v => if k' = k then (k, v) :: d else (k', v') :: set d k v

end Dict

/-- what a user does with a map -/
inductive Op where
  /-- call `find(k)` and read the value if the result is not null -/
  | find (k : Key)
  /-- call `update(k)` and read the value -/
  | update (k : Key)
  /-- `*update(k) = v` -/
  | write (k : Key) (v : Val)
  /-- call `size()` -/
  | size

/-- what the user sees -/
inductive Out where
  | found (v : Option Val)
  | value (v : Val)
  | done
  | count (n : Nat)
  | null
  | exn
deriving DecidableEq, Repr

/-- the key an operation is about -/
def Op.key? : Op → Option Key
  | .find k => some k
  | .update k => some k
  | .write k _ => some k
  | .size => none

/-- meaning of an operation; `vs` is the size of a value in bytes -/
def step (vs : Nat) (d : Dict) : Op → Dict × Out
  | .find k => if Malformed k then (d, .exn) else (d, .found (d.get k))
  | .update k =>
    if Malformed k then (d, .exn) else
    match d.get k with
    | some v => (d, .value v)
    | none => (d.set k (List.replicate vs 0), .value (List.replicate vs 0))
  | .write k v => if Malformed k then (d, .exn) else (d.set k v, .done)
  | .size => (d, .count d.length)

/-- meaning of a history: final dictionary and everything the user saw -/
def run (vs : Nat) : Dict → List Op → Dict × List Out
  | d, [] => (d, [])
  | d, o :: os =>
    let (d', x) := step vs d o
    let (d'', xs) := run vs d' os
    (d'', x :: xs)

/-- equal, or neither is a prefix of the other -/
def Sep (a b : Key) : Prop := a = b ∨ (¬ a <+: b ∧ ¬ b <+: a)

/-- A set of keys that may be used together: every key ends with NUL and is shorter than the address space (`vs` is the size
of a value), and no key is a proper prefix of another. NUL bytes inside the keys are allowed. Examples: all C strings
(`CStrings`), all keys of a fixed length (e.g. integers followed by a NUL byte). -/
structure KeySet (vs : Nat) (K : Key → Prop) : Prop where
  nul : ∀ k, K k → ∃ s, k = s ++ [0]
  len : ∀ k, K k → k.length + vs < 2 ^ 64
  sep : ∀ k l, K k → K l → Sep k l

/-- the C strings -/
def CStrings (vs : Nat) (k : Key) : Prop := CString k ∧ k.length + vs < 2 ^ 64

/-- admissible operations: keys are in `K` or malformed; written values have the right size -/
structure Op.Legal (vs : Nat) (K : Key → Prop) (o : Op) : Prop where
  key : ∀ k, o.key? = some k → K k ∨ Malformed k
  val : ∀ k v, o = .write k v → v.length = vs

/-- number of bytes of the keys passed to `update` -/
def Op.cost : Op → Nat
  | .update k => k.length
  | .write k _ => k.length
  | _ => 0

/-- total number of key bytes inserted by a history -/
def cost (os : List Op) : Nat := (os.map Op.cost).sum

/-- number of trie nodes a key may need: one, and one more for every `lam` bytes after the first -/
def keyNodes (lam : Nat) (k : Key) : Nat := 1 + (k.length - 1) / lam

/-- number of trie nodes the keys of the list may need; every key counts once -/
def nodesFor (lam : Nat) : List Key → Nat
  | [] => 0
  | k :: ks => if k ∈ ks then nodesFor lam ks else keyNodes lam k + nodesFor lam ks

end Poplar.Spec
