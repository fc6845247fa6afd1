import Verif.Props.C42_Stats
import Verif.Props.C44_Alloc
import Verif.Proof.Prefixes
/-
  C42: the statistics on label lengths. C44: the bytes of labels and values, exactly.
-/
namespace Poplar.Props
open Poplar Poplar.Spec

variable {a : Alias} {p : Params} {i : Init} {K : Key → Prop} {os : List Op} {m0 m1 : Map a.Trie a.Nlm} {xs : List Out}

private theorem foldl_add (g : Key → Nat) (ls : List Key) : ∀ x, ls.foldl (fun x l => x + g l) x = x + (ls.map g).sum := by
  induction ls with
  | nil => intro x; rfl
  | cons l ls ih => intro x; rw [List.foldl_cons, ih, List.map_cons, List.sum_cons]; omega

private theorem foldl_max (ls : List Key) : ∀ x, (∀ l ∈ ls, l.length ≤ ls.foldl (fun x l => Nat.max x (id l.length)) x) ∧
    x ≤ ls.foldl (fun x l => Nat.max x (id l.length)) x ∧
    (ls.foldl (fun x l => Nat.max x (id l.length)) x = x ∨ ∃ l ∈ ls, l.length = ls.foldl (fun x l => Nat.max x (id l.length)) x) := by
  induction ls with
  | nil => intro x; simp
  | cons l ls ih =>
    intro x
    rw [List.foldl_cons]
    obtain ⟨h1, h2, h3⟩ := ih (Nat.max x (id l.length))
    have h4 : x ≤ Nat.max x (id l.length) := Nat.le_max_left _ _
    have h5 : l.length ≤ Nat.max x (id l.length) := Nat.le_max_right _ _
    refine ⟨?_, Nat.le_trans h4 h2, ?_⟩
    · intro y hy
      rcases List.mem_cons.1 hy with rfl | hy
      · exact Nat.le_trans h5 h2
      · exact h1 y hy
    · rcases h3 with h3 | ⟨y, y1, y2⟩
      · rw [h3]
        rcases Nat.le_total x l.length with hle | hle
        · exact Or.inr ⟨l, by simp, (Nat.max_eq_right hle).symm⟩
        · exact Or.inl (Nat.max_eq_left hle)
      · exact Or.inr ⟨y, List.mem_cons_of_mem _ y1, y2⟩

/-- **C42** `max_length` and the numerator of `ave_length`, which `show_stats()` prints with `POPLAR_EXTRA_STATS`, are the greatest
and the total length of what is stored of the keys: the first key inserted is stored whole, every other one without the
bytes it shares with a key inserted before and without the byte that distinguishes it. The expansions of the table, refused
insertions and overwritten values do not change them. -/
theorem C42_label_lengths (h : a.Admissible p i K os) {s : AState} {ys : List Out}
    (hs : AState.run p.valSize {} os = some (s, ys))
    (h0 : a.new p i = .ok m0) (h1 : Map.run (a.cfg p) m0 os = .ok (m1, xs)) :
    a.sumLength m1.nlm = ((storedParts (s.dict.map (·.1))).map List.length).sum ∧
    (∀ l ∈ storedParts (s.dict.map (·.1)), l.length ≤ a.maxLength m1.nlm) ∧
    (if s.dict = [] then a.maxLength m1.nlm = 0 else ∃ l ∈ storedParts (s.dict.map (·.1)), l.length = a.maxLength m1.nlm) := by
  have e1 : a.sumLength m1.nlm = _ := Alias.tally (a.labelCounts p).sum h0 os h hs h1
  have e2 : a.maxLength m1.nlm = _ := Alias.tally (a.labelCounts p).max h0 os h hs h1
  dsimp only [id] at e1
  rw [foldl_add, Nat.zero_add, Nat.zero_mul, Nat.add_zero] at e1
  rw [Nat.zero_mul, show ∀ x, Nat.max x 0 = x from Nat.max_zero] at e2
  obtain ⟨f1, f2, f3⟩ := foldl_max (storedParts (s.dict.map (·.1))) 0
  rw [← e2] at f1 f3
  refine ⟨e1, f1, ?_⟩
  split
  · rename_i hd
    rcases f3 with f3 | ⟨l, f3, _⟩
    · exact f3
    · rw [hd] at f3; cases f3
  · rename_i hd
    rcases f3 with f3 | f3
    · -- all parts are empty
      cases hp : storedParts (s.dict.map (·.1)) with
      | nil =>
        cases hd2 : s.dict with
        | nil => exact absurd hd2 hd
        | cons e d => rw [hd2] at hp; cases hp
      | cons l ls =>
        refine ⟨l, by simp, ?_⟩
        have := f1 l (by rw [hp]; simp)
        omega
    · exact f3

/-- **C42** The denominator of `ave_length`, `size()` of the label map, is the number of keys in the bonsai maps; in the fkhash maps it is the
number of trie nodes, so there `ave_length` is not the average length of the labels stored if there are step nodes. -/
theorem C42_label_count (h : a.Admissible p i K os) {s : AState} {ys : List Out}
    (hs : AState.run p.valSize {} os = some (s, ys))
    (h0 : a.new p i = .ok m0) (h1 : Map.run (a.cfg p) m0 os = .ok (m1, xs)) :
    (a.cfg p).L.size m1.nlm = if (a.cfg p).T.kind = .bonsai then s.dict.length else (a.cfg p).T.size m1.trie := by
  have e : (a.cfg p).L.size m1.nlm = _ := Alias.tally (a.labelCounts p).size h0 os h hs h1
  rw [foldl_add (fun _ => 1), Nat.zero_add] at e
  have e2 : ((storedParts (s.dict.map (·.1))).map fun _ => 1).sum = s.dict.length := by
    have hl : ∀ (ks b : List Key), ((storedFrom b ks).map fun _ => 1).sum = ks.length := by
      intro ks
      induction ks with
      | nil => intro b; rfl
      | cons k ks ih => intro b; rw [storedFrom, List.map_cons, List.sum_cons, ih, List.length_cons]; omega
    rw [storedParts, hl, List.length_map]
  rw [e2] at e
  have e3 := (C42_rate_steps h hs h0 h1).2.1
  have e4 : m1.rateSteps.1 = m1.numSteps := rfl
  rw [e4] at e3
  rw [e]
  split
  · dsimp only; omega
  · dsimp only; omega

/-- the keys of a reachable dictionary are among `K` -/
private theorem dict_keys (h : a.Admissible p i K os) {s : AState} {ys : List Out} (hs : AState.run p.valSize {} os = some (s, ys))
    (h0 : a.new p i = .ok m0) (h1 : Map.run (a.cfg p) m0 os = .ok (m1, xs)) : ∀ k ∈ s.dict.map (·.1), K k := by
  obtain ⟨hsb, r1, _⟩ := Alias.reach h hs h0 h1
  intro k hk
  obtain ⟨e, he, rfl⟩ := List.mem_map.1 hk
  rcases r1 with ⟨_, _, h2⟩ | ⟨_, h2⟩ | r1
  · rw [h2] at he; cases he
  · rw [h2] at he; cases he
  · exact r1.keys e he

/-- **C42** The total length of the labels does not depend on the order of the insertions: together with the bytes on the edges
of the trie, one for every key but the first, it is the number of the different non-empty prefixes of the stored keys. -/
theorem C42_sum_length (h : a.Admissible p i K os) {s : AState} {ys : List Out}
    (hs : AState.run p.valSize {} os = some (s, ys))
    (h0 : a.new p i = .ok m0) (h1 : Map.run (a.cfg p) m0 os = .ok (m1, xs)) :
    a.sumLength m1.nlm + (m1.size - 1) = prefixCount (s.dict.map (·.1)) := by
  have hK := dict_keys h hs h0 h1
  have hz := (C42_rate_steps h hs h0 h1).1
  have hz : m1.size = s.dict.length := hz
  rw [(C42_label_lengths h hs h0 h1).1, hz, ← storedParts_total _ (h.keys.prefixFree hK (AState.run_nodup hs (by simp))), List.length_map]
  intro k hk
  obtain ⟨t, ht⟩ := h.keys.nul k (hK k hk)
  rw [ht]; simp

/-- **C42** Two maps, of any two of the six types, that store the same keys have the same total length of labels. -/
theorem C42_sum_length_order {a' : Alias} {p' : Params} {i' : Init} {K' : Key → Prop} {os' : List Op} {m0' m1' : Map a'.Trie a'.Nlm} {xs' : List Out}
    (h : a.Admissible p i K os) {s : AState} {ys : List Out} (hs : AState.run p.valSize {} os = some (s, ys))
    (h0 : a.new p i = .ok m0) (h1 : Map.run (a.cfg p) m0 os = .ok (m1, xs))
    (h' : a'.Admissible p' i' K' os') {s' : AState} {ys' : List Out} (hs' : AState.run p'.valSize {} os' = some (s', ys'))
    (h0' : a'.new p' i' = .ok m0') (h1' : Map.run (a'.cfg p') m0' os' = .ok (m1', xs'))
    (hsame : ∀ k, s.dict.get k = none ↔ s'.dict.get k = none) : a.sumLength m1.nlm = a'.sumLength m1'.nlm := by
  have e := C42_sum_length h hs h0 h1
  have e' := C42_sum_length h' hs' h0' h1'
  have hm : ∀ k, k ∈ s.dict.map (·.1) ↔ k ∈ s'.dict.map (·.1) := by
    intro k
    have := hsame k
    rw [Dict.get_eq_none, Dict.get_eq_none] at this
    exact ⟨fun h => by_contra fun hc => this.2 hc h, fun h => by_contra fun hc => this.1 hc h⟩
  have hsz : m1.size = m1'.size := by
    have z : m1.size = s.dict.length := (C42_rate_steps h hs h0 h1).1
    have z' : m1'.size = s'.dict.length := (C42_rate_steps h' hs' h0' h1').1
    have := ((List.perm_ext_iff_of_nodup (AState.run_nodup hs (by simp)) (AState.run_nodup hs' (by simp))).2 hm).length_eq
    rw [List.length_map, List.length_map] at this
    omega
  have hpc := prefixCount_congr hm
  omega

/-- **C44** The bytes of labels and values, exactly: those in heap blocks and, in the compact fkhash maps, those waiting in the buffer for a block are
`labelCost` of what is stored of each key, and in the compact fkhash maps one byte for every node that is not the node of a key. -/
theorem C44_label_bytes_exact (h : a.Admissible p i K os) {s : AState} {ys : List Out} (hs : AState.run p.valSize {} os = some (s, ys))
    (h0 : a.new p i = .ok m0) (h1 : Map.run (a.cfg p) m0 os = .ok (m1, xs)) :
    (a.heap m1.nlm).bytes + a.buffered m1.nlm =
      ((storedParts (s.dict.map (·.1))).map (labelCost a p.valSize)).sum + stepCost a * ((a.cfg p).T.size m1.trie - m1.size) := by
  have e : a.labelBytes m1.nlm + a.buffered m1.nlm = _ := Alias.tally (a.labelCounts p).bytes h0 os h hs h1
  obtain ⟨z1, z2, _⟩ := C42_rate_steps h hs h0 h1
  have z1 : m1.size = s.dict.length := z1
  have z2 : m1.numSteps + s.dict.length = (a.cfg p).T.size m1.trie := z2
  rw [C39_label_bytes h ⟨_, _, hs⟩ h0 h1, foldl_add (fun l => labelCost a p.valSize (List.replicate l.length 0)), Nat.zero_add] at e
  have hc : (fun l : Key => labelCost a p.valSize (List.replicate l.length 0)) = labelCost a p.valSize := by
    funext l
    cases a <;> simp [labelCost]
  rw [e, hc, show m1.numSteps = (a.cfg p).T.size m1.trie - m1.size by omega]

/-- the hypotheses are met: of `"abc"`, `"ab"` and `"ax"`, inserted in this order, `"abc"`, nothing and an empty string are stored, each
with its terminator if that does not distinguish the key; the keys have seven different non-empty prefixes -/
example (a : Alias) : ∃ m0 m1 xs, a.new demoParams .default = .ok m0 ∧ Map.run (a.cfg demoParams) m0 demo = .ok (m1, xs) ∧
    storedParts ((Spec.run 4 [] demo).1.map (·.1)) = [[97, 98, 99, 0], [], [0]] ∧ prefixCount ((Spec.run 4 [] demo).1.map (·.1)) = 7 ∧
    a.sumLength m1.nlm = 5 ∧ a.maxLength m1.nlm = 4 := by
  have hA : SmallAlphabet demo := small_of [97, 98, 99, 120] (by decide) (by decide)
  obtain ⟨bs, hb⟩ := hA.run (vs := 4)
  have h := demo_admissible a .default trivial demo (by decide) (by decide)
  obtain ⟨hsb, m0, e1, e2⟩ := Alias.after h hb
  obtain ⟨⟨m1, xs⟩, e3, _, e5, _⟩ := e2.get (within a (by decide))
  have hst : storedParts ((Spec.run 4 [] demo).1.map (·.1)) = [[97, 98, 99, 0], [], [0]] := by decide
  obtain ⟨z1, z2, z3⟩ := C42_label_lengths h hb e1 e3
  have z1 : a.sumLength m1.nlm = ((storedParts ((Spec.run 4 [] demo).1.map (·.1))).map List.length).sum := z1
  have z2 : ∀ l ∈ storedParts ((Spec.run 4 [] demo).1.map (·.1)), l.length ≤ a.maxLength m1.nlm := z2
  have z3 : if (Spec.run 4 [] demo).1 = [] then a.maxLength m1.nlm = 0 else ∃ l ∈ storedParts ((Spec.run 4 [] demo).1.map (·.1)), l.length = a.maxLength m1.nlm := z3
  rw [hst] at z1 z2 z3
  refine ⟨m0, m1, xs, e1, e3, hst, by decide, z1, ?_⟩
  rw [if_neg (by decide)] at z3
  obtain ⟨l, l1, l2⟩ := z3
  have := z2 [97, 98, 99, 0] (by simp)
  simp only [List.mem_cons, List.not_mem_nil, or_false] at l1
  rcases l1 with rfl | rfl | rfl <;> simp at l2 this <;> omega

end Poplar.Props
