import Verif.Props.C42_Stats
import Verif.Proof.TreeShape
import Verif.Proof.KeysInOrder
import Verif.Proof.Cost
/-
  C53: how many nodes a map needs, exactly. It depends on nothing but its keys, the order in which they were inserted first, and `lambda`; and
  a larger `lambda` never needs more.
-/
namespace Poplar.Props
open Poplar Poplar.Spec

variable {a : Alias} {p : Params} {i : Init} {K : Key → Prop} {os : List Op} {m0 m : Map a.Trie a.Nlm} {xs : List Out}

/-- **C53** The number of nodes of the trie, exactly: for each key, one, and one for each `lambda` bytes from the start of what is stored of it to the
last place at which a later key leaves it (`nodeCount`). Nothing else has an influence: not the type of the map, the hash function, the size of the
values, the other parameters, the capacity, how often the table was doubled, the values, the lookups, or how often a key was inserted. -/
theorem C53_node_count (h : a.Admissible p i K os) (hA : SmallAlphabet os) (h0 : a.new p i = .ok m0) (h1 : Map.run (a.cfg p) m0 os = .ok (m, xs)) :
    (a.cfg p).T.size m.trie = nodeCount i.lambda (keysInOrder os) := by
  obtain ⟨bs, f⟩ := hA.run (vs := p.valSize)
  rw [Alias.node_count h hA f h0 h1, AState.keys_eq hA f]

/-- **C53** The numerator and the denominator of `rate_steps()`, exactly. -/
theorem C53_rate_steps (h : a.Admissible p i K os) (hA : SmallAlphabet os) (h0 : a.new p i = .ok m0)
    (h1 : Map.run (a.cfg p) m0 os = .ok (m, xs)) :
    m.rateSteps = (nodeCount i.lambda (keysInOrder os) - (keysInOrder os).length, (keysInOrder os).length) := by
  obtain ⟨bs, f⟩ := hA.run (vs := p.valSize)
  have e1 := C53_node_count h hA h0 h1
  have e2 := AState.keys_eq hA f
  obtain ⟨c1, c2, _⟩ := C42_rate_steps h f h0 h1
  have e3 := congrArg List.length e2
  rw [List.length_map] at e3
  exact Prod.ext (by dsimp only; omega) (by rw [c1]; exact e3)

variable {K1 K2 : Key → Prop} {a1 a2 : Alias} {p1 p2 : Params} {i1 i2 : Init} {os1 os2 : List Op} {m1 n1 : Map a1.Trie a1.Nlm} {xs1 : List Out}
  {m2 n2 : Map a2.Trie a2.Nlm} {xs2 : List Out}

theorem nodeCount_le {l1 l2 : Nat} (h0 : 0 < l1) (h : l1 ≤ l2) (ks : List Key) : nodeCount l2 ks ≤ nodeCount l1 ks := by
  unfold nodeCount
  generalize ways ks = S
  induction S with
  | nil => exact Nat.le_refl _
  | cons e S ih =>
    simp only [List.map_cons, List.sum_cons]
    have : e.reach / l2 ≤ e.reach / l1 := Nat.div_le_div_left h h0
    omega

/-- **C53** Two maps, of any two of the six types, with any parameters, initial capacities and values, that have been given the same keys in
the same order: the one whose `lambda` is at least as large has at most as many trie nodes, and its `rate_steps()` is at most as large (the
numerators are compared; the denominators are equal). -/
theorem C53_larger_lambda (h1 : a1.Admissible p1 i1 K1 os1) (h2 : a2.Admissible p2 i2 K2 os2) (hA1 : SmallAlphabet os1) (hA2 : SmallAlphabet os2)
    (hk : keysInOrder os1 = keysInOrder os2) (hl : i1.lambda ≤ i2.lambda)
    (e1 : a1.new p1 i1 = .ok m1) (g1 : Map.run (a1.cfg p1) m1 os1 = .ok (n1, xs1))
    (e2 : a2.new p2 i2 = .ok m2) (g2 : Map.run (a2.cfg p2) m2 os2 = .ok (n2, xs2)) :
    (a2.cfg p2).T.size n2.trie ≤ (a1.cfg p1).T.size n1.trie ∧
    n2.rateSteps.1 ≤ n1.rateSteps.1 ∧ n2.rateSteps.2 = n1.rateSteps.2 := by
  have hp : 0 < i1.lambda := by
    obtain ⟨q1, q2⟩ := Alias.run_lambda e1 g1
    rw [q1] at q2
    cases i1 <;> exact q2
  have := nodeCount_le hp hl (keysInOrder os1)
  rw [C53_node_count h1 hA1 e1 g1, C53_node_count h2 hA2 e2 g2, C53_rate_steps h1 hA1 e1 g1, C53_rate_steps h2 hA2 e2 g2, ← hk]
  exact ⟨this, by dsimp only; omega, rfl⟩

/-- **C53** With the same `lambda`, the same keys in the same order, the numbers of nodes and `rate_steps()` are the same. -/
theorem C53_keys_and_lambda (h1 : a1.Admissible p1 i1 K1 os1) (h2 : a2.Admissible p2 i2 K2 os2) (hA1 : SmallAlphabet os1) (hA2 : SmallAlphabet os2)
    (hk : keysInOrder os1 = keysInOrder os2) (hl : i1.lambda = i2.lambda)
    (e1 : a1.new p1 i1 = .ok m1) (g1 : Map.run (a1.cfg p1) m1 os1 = .ok (n1, xs1))
    (e2 : a2.new p2 i2 = .ok m2) (g2 : Map.run (a2.cfg p2) m2 os2 = .ok (n2, xs2)) :
    (a2.cfg p2).T.size n2.trie = (a1.cfg p1).T.size n1.trie ∧ n2.rateSteps = n1.rateSteps := by
  rw [C53_node_count h1 hA1 e1 g1, C53_node_count h2 hA2 e2 g2, C53_rate_steps h1 hA1 e1 g1, C53_rate_steps h2 hA2 e2 g2, ← hk, hl]
  exact ⟨rfl, rfl⟩

/-- two keys of which the second leaves the first after 36 bytes -/
private def long : List Op := [.update (List.replicate 40 97 ++ [0]), .update (List.replicate 36 97 ++ [98, 0])]

/-- the same keys, with lookups, values and repetitions -/
private def long' : List Op := [.find [], .write (List.replicate 40 97 ++ [0]) [1, 2, 3, 4], .write (List.replicate 40 97 ++ [0]) [5, 6, 7, 8], .size,
  .write (List.replicate 36 97 ++ [98, 0]) [1, 1, 1, 1], .update (List.replicate 40 97 ++ [0]), .find [97, 0]]

private theorem runs (a : Alias) (lam : Nat) (os : List Op) (hl : lam = 4 ∨ lam = 32) (h1 : os.all (legalB 4) = true)
    (h2 : ∀ k ∈ inserted os, k.head? ≠ some 0) (hA : SmallAlphabet os) (hn : nodesFor lam (inserted os) < 50000) :
    a.Admissible demoParams (.make 16 lam) (CStrings 4) os ∧
    ∃ m n xs, a.new demoParams (.make 16 lam) = .ok m ∧ Map.run (a.cfg demoParams) m os = .ok (n, xs) := by
  have h := demo_admissible a (.make 16 lam) (by rcases hl with rfl | rfl; exact ⟨⟨2, rfl⟩, by decide⟩; exact ⟨⟨5, rfl⟩, by decide⟩) os h1 h2
  obtain ⟨bs, hb⟩ := hA.run (vs := 4)
  obtain ⟨hsb, m, e1, e2⟩ := Alias.after h hb
  have hlim : ¬ a.AtLimit demoParams (.make 16 lam) os := by
    have : 50000 ≤ a.nodeLimit demoParams (Init.make 16 lam).symbBits (Init.make 16 lam).capa0 := by
      rcases hl with rfl | rfl <;> cases a <;> simp only [Alias.nodeLimit] <;> decide
    intro hl'
    exact absurd (Nat.le_trans this hl') (by simp only [Init.lambda]; omega)
  obtain ⟨⟨n, xs⟩, e3, _⟩ := e2.get hlim
  exact ⟨h, m, n, xs, e1, e3⟩

/-- the hypotheses are met: two histories with the same keys, two types of maps, `lambda` 4 and 32 -/
example (a1 a2 : Alias) : a1.Admissible demoParams (.make 16 4) (CStrings 4) long ∧
    a2.Admissible demoParams (.make 16 32) (CStrings 4) long' ∧ SmallAlphabet long ∧ SmallAlphabet long' ∧ keysInOrder long = keysInOrder long' ∧
    ∃ m1 n1 xs1 m2 n2 xs2,
    a1.new demoParams (.make 16 4) = .ok m1 ∧ Map.run (a1.cfg demoParams) m1 long = .ok (n1, xs1) ∧
    a2.new demoParams (.make 16 32) = .ok m2 ∧ Map.run (a2.cfg demoParams) m2 long' = .ok (n2, xs2) := by
  have hA1 : SmallAlphabet long := small_of [97, 98] (by decide) (by decide)
  have hA2 : SmallAlphabet long' := small_of [97, 98] (by decide) (by decide)
  obtain ⟨q1, m1, n1, xs1, q2, q3⟩ := runs a1 4 long (Or.inl rfl) (by decide) (by decide) hA1 (by decide)
  obtain ⟨r1, m2, n2, xs2, r2, r3⟩ := runs a2 32 long' (Or.inr rfl) (by decide) (by decide) hA2 (by decide)
  exact ⟨q1, r1, hA1, hA2, by decide, m1, n1, xs1, m2, n2, xs2, q2, q3, r2, r3⟩

/-- with `lambda` 4 the two keys need 9 step nodes: the second leaves the first after 36 bytes; with `lambda` 32, one -/
example : nodeCount 4 (keysInOrder long) = 11 ∧ nodeCount 32 (keysInOrder long) = 3 ∧ keysInOrder long' = keysInOrder long := by decide

/-- a third key that leaves the second one: that is one byte behind the place where the second leaves the first -/
example : ways [[97, 97, 97, 98, 0], [97, 97, 99, 99, 99, 0], [97, 97, 99, 99, 100, 0], [97, 98, 0]] =
    [⟨[97, 97, 97, 98, 0], 0, 2⟩, ⟨[97, 97, 99, 99, 99, 0], 3, 1⟩, ⟨[97, 97, 99, 99, 100, 0], 5, 0⟩, ⟨[97, 98, 0], 2, 0⟩] := by decide

end Poplar.Props
