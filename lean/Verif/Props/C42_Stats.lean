import Verif.Props.C15_Pointers
import Verif.Proof.ResizeCount
/-
  C42: the statistics of `POPLAR_EXTRA_STATS` and of `capa_size()` fit together.
-/
namespace Poplar.Props
open Poplar Poplar.Spec

variable {a : Alias} {p : Params} {i : Init} {K : Key → Prop} {os : List Op} {m0 m1 : Map a.Trie a.Nlm} {xs : List Out}

/-- **C42** `num_resize()` is the number of doublings of the table since construction. -/
theorem C42_num_resize (h : a.Admissible p i K os) (hs : Supported p.valSize os)
    (h0 : a.new p i = .ok m0) (h1 : Map.run (a.cfg p) m0 os = .ok (m1, xs)) (hr : m1.isReady = true) :
    Map.capaSize (a.cfg p) m1 = initialCapa i * 2 ^ Map.numResize (a.cfg p) m1 := by
  obtain ⟨s, zs, hs⟩ := hs
  obtain ⟨hsb, r1, _⟩ := Alias.reach h hs h0 h1
  have e := Alias.capa_bits h.params hsb r1 hr
  show (a.cfg p).T.capaSize m1.trie = initialCapa i * 2 ^ (a.cfg p).T.numResize m1.trie
  rw [e, Alias.run_counts h0 h1 hr, Nat.pow_add]
  cases i <;> rfl

/-- **C42** The table is doubled at most logarithmically often: the last of `num_resize()` doublings was done because `MaxFactor` per cent of half
the table was full, so `2^(num_resize() - 1)` times `MaxFactor` per cent of the initial capacity is at most the number of nodes the keys need. -/
theorem C42_num_resize_log (h : a.Admissible p i K os) {s : AState} {ys : List Out}
    (hs : AState.run p.valSize {} os = some (s, ys))
    (h0 : a.new p i = .ok m0) (h1 : Map.run (a.cfg p) m0 os = .ok (m1, xs)) (hr : m1.isReady = true)
    {r : Nat} (hn : Map.numResize (a.cfg p) m1 = r + 1) :
    p.maxFactor * (initialCapa i * 2 ^ r) / 100 ≤ nodesFor i.lambda (s.dict.map (·.1)) := by
  have e1 := C42_num_resize h ⟨_, _, hs⟩ h0 h1 hr
  have e2 := C17_nodes_le h hs h0 h1
  have hp : 0 < initialCapa i * 2 ^ r := Nat.mul_pos (by cases i <;> exact Nat.two_pow_pos _) (Nat.two_pow_pos _)
  rw [hn, Nat.pow_succ, ← Nat.mul_assoc] at e1
  rcases C17_capacity_needed h ⟨_, _, hs⟩ h0 h1 hr with e | ⟨c, c1, c2, c3⟩
  · have : initialCapa i ≤ initialCapa i * 2 ^ r := Nat.le_mul_of_pos_right _ (Nat.two_pow_pos _)
    omega
  · have hc : c = initialCapa i * 2 ^ r := by omega
    subst hc
    omega

/-- **C42** `rate_steps()` is the number of step nodes per key: its denominator is `size()`, and every trie node
that is not the node of a key is a step node. There are at most as many as the keys stored need. -/
theorem C42_rate_steps (h : a.Admissible p i K os) {s : AState} {ys : List Out}
    (hs : AState.run p.valSize {} os = some (s, ys))
    (h0 : a.new p i = .ok m0) (h1 : Map.run (a.cfg p) m0 os = .ok (m1, xs)) :
    m1.rateSteps.2 = s.dict.length ∧ m1.rateSteps.1 + s.dict.length = (a.cfg p).T.size m1.trie ∧
      m1.rateSteps.1 + s.dict.length ≤ nodesFor i.lambda (s.dict.map (·.1)) := by
  have e := C17_nodes_le h hs h0 h1
  obtain ⟨hsb, r1, _, r3, _⟩ := Alias.reach h hs h0 h1
  show m1.size = _ ∧ m1.numSteps + _ = _ ∧ m1.numSteps + _ ≤ _
  have key : m1.size = s.dict.length ∧ m1.numSteps + s.dict.length = (a.cfg p).T.size m1.trie := by
    rcases r1 with ⟨rfl, _, h2⟩ | ⟨r1, h2⟩ | r1
    · rw [h2]; exact ⟨rfl, by cases a <;> rfl⟩
    · rw [h2, r1.steps]; exact ⟨r1.size, ((a.trieSpec p _ _ hsb).fresh_size _ r1.trie).symm⟩
    · have := r1.nodes; have := r1.size
      exact ⟨r1.size, by omega⟩
  exact ⟨key.1, key.2, by omega⟩

/-- the hypotheses are met -/
example (a : Alias) : ∃ m0 m1 xs, a.new demoParams .default = .ok m0 ∧ Map.run (a.cfg demoParams) m0 demo = .ok (m1, xs) ∧
    Supported 4 demo ∧ m1.isReady = true := by
  have hA : SmallAlphabet demo := small_of [97, 98, 99, 120] (by decide) (by decide)
  obtain ⟨bs, hb⟩ := hA.run (vs := 4)
  have h := demo_admissible a .default trivial demo (by decide) (by decide)
  obtain ⟨hsb, m0, e1, e2⟩ := Alias.after h hb
  obtain ⟨⟨m1, xs⟩, e3, _, e5, _⟩ := e2.get (within a (by decide))
  exact ⟨m0, m1, xs, e1, e3, ⟨_, _, hb⟩, (e5.live (show (Spec.run 4 [] demo).1 ≠ [] by decide)).inv.ready⟩

end Poplar.Props
