import Verif.Props.C42_Stats
import Verif.Proof.Alloc
/-
  C42: the statistics `rate_dsp1st`, `rate_dsp2nd` and `rate_dsp3rd` of the compact maps.
-/
namespace Poplar.Props
open Poplar Poplar.Spec

variable {a : Alias} {p : Params} {i : Init} {K : Key → Prop} {os : List Op} {m0 m1 : Map a.Trie a.Nlm} {xs : List Out}

/-- **C42** In the two compact maps, whose tries are the only ones that report them, the numerators of `rate_dsp1st`, `rate_dsp2nd` and
`rate_dsp3rd` count every node but the root exactly once, also after any number of enlargements; the second is the `size` that the
`show_stats` of `aux_cht_` reports and the third that of `aux_map_`. -/
theorem C42_rate_dsps (h : a.Admissible p i K os) (hs : Supported p.valSize os)
    (h0 : a.new p i = .ok m0) (h1 : Map.run (a.cfg p) m0 os = .ok (m1, xs)) :
    (a.dspCounts m1.trie ≠ none ↔ a = .compactBonsai ∨ a = .compactFkhash) ∧
    ∀ {x y z : Nat}, a.dspCounts m1.trie = some (x, y, z) →
      x + y + z = (a.cfg p).T.size m1.trie - 1 ∧ a.auxSizes m1.trie = some (y, z) := by
  obtain ⟨s, ys, hs⟩ := hs
  refine ⟨?_, fun hd => Alias.dsp_counts h hs h0 h1 hd⟩
  cases a <;> simp [Alias.dspCounts]

/-- **C42** So the three rates of a compact map that holds keys, with the root, add up to one: the sum of the numerators is the number of keys and
step nodes, less one. -/
theorem C42_rate_dsps_nodes (h : a.Admissible p i K os) {s : AState} {ys : List Out}
    (hs : AState.run p.valSize {} os = some (s, ys))
    (h0 : a.new p i = .ok m0) (h1 : Map.run (a.cfg p) m0 os = .ok (m1, xs)) (hne : s.dict ≠ [])
    {x y z : Nat} (hd : a.dspCounts m1.trie = some (x, y, z)) :
    x + y + z + 1 = s.dict.length + m1.rateSteps.1 := by
  have e := ((C42_rate_dsps h ⟨_, _, hs⟩ h0 h1).2 hd).1
  have e2 := (C42_rate_steps h hs h0 h1).2.1
  have : 0 < s.dict.length := by
    cases hd : s.dict with
    | nil => exact absurd hd hne
    | cons _ _ => simp
  omega

/-- the hypotheses are met, in both compact maps -/
example (b : Bool) : ∃ a : Alias, a.dspCounts (a.cfg demoParams).T.empty ≠ none ∧ (a = .compactBonsai ↔ b) ∧
    ∃ m0 m1 xs, a.new demoParams .default = .ok m0 ∧ Map.run (a.cfg demoParams) m0 demo = .ok (m1, xs) ∧
    ∃ s ys, AState.run 4 {} demo = some (s, ys) ∧ s.dict ≠ [] ∧ ∃ x y z, a.dspCounts m1.trie = some (x, y, z) ∧ x + y + z = 2 := by
  refine ⟨if b then .compactBonsai else .compactFkhash, by cases b <;> simp [Alias.dspCounts], by cases b <;> simp, ?_⟩
  generalize ha : (if b then Alias.compactBonsai else Alias.compactFkhash) = a
  have hA : SmallAlphabet demo := small_of [97, 98, 99, 120] (by decide) (by decide)
  obtain ⟨bs, hb⟩ := hA.run (vs := 4)
  have h := demo_admissible a .default trivial demo (by decide) (by decide)
  obtain ⟨hsb, m0, e1, e2⟩ := Alias.after h hb
  obtain ⟨⟨m1, xs⟩, e3, _, e5, _⟩ := e2.get (within a (by decide))
  have hne : (Spec.run 4 [] demo).1 ≠ [] := by decide
  obtain ⟨x, y, z, hd⟩ : ∃ x y z, a.dspCounts m1.trie = some (x, y, z) := by
    cases b
    · subst ha; exact ⟨_, _, _, rfl⟩
    · subst ha; exact ⟨_, _, _, rfl⟩
  refine ⟨m0, m1, xs, e1, e3, _, _, hb, hne, x, y, z, hd, ?_⟩
  have e := C42_rate_dsps_nodes h hb e1 e3 hne hd
  have e' := C42_rate_steps h hb e1 e3
  have hl : (Spec.run 4 [] demo).1.length = 3 := by decide
  have hn : nodesFor Init.default.lambda ((Spec.run 4 [] demo).1.map (·.1)) = 3 := by decide
  have e'' := e'.2.2
  dsimp only at e e''
  omega

end Poplar.Props
