import Verif.Props.C01_Dictionary
import Verif.Proof.Cost
/-
  C45: the number of lookups made by `find` and `update` is bounded by the length of the key.
-/
namespace Poplar.Props
open Poplar Poplar.Spec

variable {a : Alias} {p : Params} {i : Init} {os : List Op} {m0 m1 : Map a.Trie a.Nlm} {xs : List Out}

/-- **C45** The answer of `find` is determined by at most `|key|` edges of the trie and at most `|key| + 1` labels (`|key|` counts the terminator),
whatever has been stored before: it stays the same if all other edges and labels are replaced. Besides one edge per label looked at, there is at most
one edge per `lambda` bytes of the key. -/
theorem C45_find_lookups (h0 : a.new p i = .ok m0) (h1 : Map.run (a.cfg p) m0 os = .ok (m1, xs)) (key : List UInt8) :
    ∃ (edges : List (Nat × Nat)) (labels : List Nat),
      edges.length ≤ key.length ∧ labels.length ≤ key.length + 1 ∧
      edges.length ≤ labels.length + (key.length + 1 - labels.length) / i.lambda ∧
      ∀ f g, (∀ e ∈ edges, f m1.trie e.1 e.2 = (a.cfg p).T.findChild m1.trie e.1 e.2) →
        (∀ n ∈ labels, ∀ k, g m1.nlm n k = (a.cfg p).L.compare m1.nlm n k) →
        Map.find ((a.cfg p).reading f g) m1 key = Map.find (a.cfg p) m1 key := by
  obtain ⟨e, h⟩ := Alias.run_lambda h0 h1
  have e' : m1.lambda = i.lambda := by rw [e]; cases i <;> rfl
  have := Map.find_reads (a.cfg p) m1 h key
  rwa [e'] at this

/-- **C45** `update` follows or adds at most `|key|` edges and compares with at most `|key| + 1` labels, whatever has been stored before: its effect
and its result are determined by so many calls of these two operations. (A call is given by the state in which it is made and its arguments.) -/
theorem C45_update_lookups (h0 : a.new p i = .ok m0) (h1 : Map.run (a.cfg p) m0 os = .ok (m1, xs)) (key : List UInt8) :
    ∃ (edges : List (a.Trie × Nat × Nat)) (labels : List (a.Nlm × Nat × List UInt8)),
      edges.length ≤ key.length ∧ labels.length ≤ key.length + 1 ∧
      edges.length ≤ labels.length + (key.length + 1 - labels.length) / i.lambda ∧
      ∀ f g, (∀ e ∈ edges, f e.1 e.2.1 e.2.2 = (a.cfg p).T.addChild e.1 e.2.1 e.2.2) →
        (∀ e ∈ labels, g e.1 e.2.1 e.2.2 = (a.cfg p).L.compare e.1 e.2.1 e.2.2) →
        Map.update ((a.cfg p).adding f g) m1 key = Map.update (a.cfg p) m1 key := by
  obtain ⟨e, h⟩ := Alias.run_lambda h0 h1
  have e' : m1.lambda = i.lambda := by rw [e]; cases i <;> rfl
  obtain ⟨E, N, j, q1, q2, q3, q4, q5⟩ := Map.update_reads (a.cfg p) m1 h key
  refine ⟨E, N, q4, q2, ?_, q5⟩
  rw [e'] at q3 h
  have : j ≤ (key.length + 1 - N.length) / i.lambda := (Nat.le_div_iff_mul_le h).2 (by omega)
  omega

/-- the hypotheses are met -/
example (a : Alias) : ∃ m0 m1 xs, a.new demoParams .default = .ok m0 ∧ Map.run (a.cfg demoParams) m0 demo = .ok (m1, xs) := by
  have hA : SmallAlphabet demo := small_of [97, 98, 99, 120] (by decide) (by decide)
  obtain ⟨bs, hb⟩ := hA.run (vs := 4)
  have h := demo_admissible a .default trivial demo (by decide) (by decide)
  obtain ⟨hsb, m0, e1, e2⟩ := Alias.after h hb
  obtain ⟨⟨m1, xs⟩, e3, _⟩ := e2.get (within a (by decide))
  exact ⟨m0, m1, xs, e1, e3⟩

end Poplar.Props
