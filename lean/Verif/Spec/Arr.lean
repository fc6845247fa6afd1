/-
  Specification: a growable array of natural numbers. Deliberately independent of the model.
-/
namespace Poplar.Spec

/-- an abstract array -/
structure Arr where
  size : Nat
  at' : Nat → Nat

/-- operations on an array -/
inductive ArrOp where
  | set (i x : Nat)
  | grow (n : Nat)

/-- meaning of an operation: `set` replaces one element, `grow` appends zeros -/
def Arr.step (a : Arr) : ArrOp → Arr
  | .set i x => { a with at' := fun j => if j = i then x else a.at' j }
  | .grow n => { size := n, at' := fun j => if j < a.size then a.at' j else 0 }

/-- legal operations on an array of `w`-bit integers -/
def Arr.Legal (w : Nat) (a : Arr) : ArrOp → Prop
  | .set i x => i < a.size ∧ x < 2 ^ w
  | .grow n => a.size ≤ n

/-- legal histories -/
def Arr.LegalAll (w : Nat) : Arr → List ArrOp → Prop
  | _, [] => True
  | a, o :: os => a.Legal w o ∧ Arr.LegalAll w (a.step o) os

/-- meaning of a history -/
def Arr.run (a : Arr) (os : List ArrOp) : Arr := os.foldl Arr.step a

/-- an abstract array in which some elements are unspecified (`none`) -/
structure PArr where
  size : Nat
  at' : Nat → Option Nat

/-- operations on such an array: `resize` may shrink it -/
inductive PArrOp where
  | set (i x : Nat)
  | resize (n : Nat)

/-- meaning of an operation: `set` replaces one element; `resize(n)` drops the elements from `n` on, which are unspecified from then
on (also when the array grows again) until they are set. Elements that never existed are zero. -/
def PArr.step (a : PArr) : PArrOp → PArr
  | .set i x => { a with at' := fun j => if j = i then some x else a.at' j }
  | .resize n => { size := n, at' := fun j => if n ≤ j ∧ j < a.size then none else a.at' j }

/-- legal operations on an array of `w`-bit integers -/
def PArr.Legal (w : Nat) (a : PArr) : PArrOp → Prop
  | .set i x => i < a.size ∧ x < 2 ^ w
  | .resize _ => True

/-- legal histories -/
def PArr.LegalAll (w : Nat) : PArr → List PArrOp → Prop
  | _, [] => True
  | a, o :: os => a.Legal w o ∧ PArr.LegalAll w (a.step o) os

/-- meaning of a history -/
def PArr.run (a : PArr) (os : List PArrOp) : PArr := os.foldl PArr.step a

end Poplar.Spec
