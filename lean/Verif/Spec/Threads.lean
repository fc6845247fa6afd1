import Verif.Model.Threads
import Verif.Spec.Dict
/-
  What a thread is to do if nobody else is around: its operations act on a dictionary, one after the other.
-/
namespace Poplar.Spec
open Poplar

/-- `Runs K vs ptr Rd Wr d c x d'`: started on the dictionary `d`, the thread `c` returns `x` and leaves `d'`. `ptr k` is
what `find(k)` returns. It looks for keys of `K` only, reads the values of keys satisfying `Rd` or `Wr` only, and writes the values of
keys satisfying `Wr` only. -/
inductive Runs {β : Type} (K : Key → Prop) (vs : Nat) (ptr : Key → Option Loc) (Rd Wr : Key → Prop) :
    Dict → Thread β → β → Dict → Prop
  | done {d : Dict} {x : β} : Runs K vs ptr Rd Wr d (.done x) x d
  | find {d d' : Dict} {x : β} {k : Key} {next : Option Loc → Thread β} (hk : K k)
      (h : Runs K vs ptr Rd Wr d (next (ptr k)) x d') : Runs K vs ptr Rd Wr d (.find k next) x d'
  | load {d d' : Dict} {x : β} {k : Key} {l : Loc} {v : Val} {next : Val → Thread β} (hk : K k) (hr : Rd k ∨ Wr k)
      (hl : ptr k = some l) (hv : d.get k = some v)
      (h : Runs K vs ptr Rd Wr d (next v) x d') : Runs K vs ptr Rd Wr d (.load l next) x d'
  | store {d d' : Dict} {x : β} {k : Key} {l : Loc} {v : Val} {next : Thread β} (hk : K k) (hw : Wr k)
      (hl : ptr k = some l) (hv : v.length = vs)
      (h : Runs K vs ptr Rd Wr (d.set k v) next x d') : Runs K vs ptr Rd Wr d (.store l v next) x d'

end Poplar.Spec
