/-
  Specification of bit-level notions. Independent of the model.
-/
namespace Poplar.Spec

/-- the number of ones among the bits `0 .. w-1` of `x` -/
def onesBelow (x w : Nat) : Nat := ((List.range w).filter (fun j => x.testBit j)).length

/-- the bits `0 .. len-1` of `x`, lowest first -/
def bitsOf (x len : Nat) : List Bool := (List.range len).map (fun j => x.testBit j)

/-- the number whose binary digits, lowest first, are the given bits -/
def ofBits : List Bool → Nat
  | [] => 0
  | b :: bs => (if b then 1 else 0) + 2 * ofBits bs

/-- operations on a bit sequence -/
inductive BitOp where
  | set (i : Nat) (b : Bool)
  | appendBit (b : Bool)
  | appendBits (bits len : Nat)

/-- meaning of an operation -/
def BitOp.apply (l : List Bool) : BitOp → List Bool
  | .set i b => l.set i b
  | .appendBit b => l ++ [b]
  | .appendBits bits len => l ++ bitsOf bits len

/-- legal operations: in-range positions, at most 64 bits at once and no bits beyond `len` -/
def BitOp.Legal (l : List Bool) : BitOp → Prop
  | .set i _ => i < l.length
  | .appendBit _ => True
  | .appendBits bits len => len ≤ 64 ∧ bits < 2 ^ len

/-- legal histories -/
def BitOp.LegalAll : List Bool → List BitOp → Prop
  | _, [] => True
  | l, o :: os => o.Legal l ∧ BitOp.LegalAll (o.apply l) os

end Poplar.Spec
