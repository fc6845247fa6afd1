import Verif.Proof.Ways
import Verif.Proof.Cost
/-
  The nodes of the trie after a history: exactly those on the ways to the branches of the keys, so that their number is the sum of what each
  key needs.
-/
namespace Poplar
open Spec

namespace Map

variable {τ ν : Type} {cfg : MapCfg τ ν} {sb N vs : Nat} {z0 : Prop} {U : List UInt8 → Prop}

section
variable (TS : TrieSpec cfg.T sb N z0) (NS : NlmSpec cfg.L cfg.T.kind vs)

/-- every node of the trie is on the way to a branch, the nodes are counted correctly, and the branches are those of the keys -/
structure Exact (U : List UInt8 → Prop) (m : Map τ ν) (ks : List Key) : Prop where
  paths : ∃ Q : List (List Nat), Q.Nodup ∧ (∀ q, q ∈ Q ↔ TS.T m.trie q ≠ none) ∧ Q.length = cfg.T.size m.trie
  tight : ∀ q, TS.T m.trie q ≠ none → ∃ j b, q = List.replicate j 255 ++ flat m.lambda (cdOf m.codes) b ∧ MM TS NS U m b ≠ none ∧
    (j = 0 ∨ ∃ mt c, MM TS NS U m ((mt, c) :: b) ≠ none ∧ j ≤ mt / m.lambda)
  keys : Ways U (MM TS NS U m) (ways ks)
end

theorem ways_append (ks : List Key) (k : Key) : ways (ks ++ [k]) = addWay (ways ks) k := by
  rw [ways, List.foldl_append]; rfl

variable {TS : TrieSpec cfg.T sb N z0} {NS : NlmSpec cfg.L cfg.T.kind vs}

theorem suffix_ne_none {M : BP → Option LV} (hM : AInv vs U M) {b b' : BP} (h : b <:+ b') (hb : M b' ≠ none) : M b ≠ none := by
  obtain ⟨r, rfl⟩ := h
  induction r with
  | nil => exact hb
  | cons x r ih => exact ih (hM.pre _ _ hb)

/-- the first key -/
theorem Exact.first {m : Map τ ν} {k : Key} (hk : U k) (h : TreeFirst TS NS U k m) : Exact TS NS U m [k] := by
  refine ⟨⟨[[]], by simp, fun q => ?_, by rw [h.size]; rfl⟩, fun q hq => ⟨0, [], (h.paths q).1 hq, by rw [h.labs]; simp, Or.inl rfl⟩, ?_⟩
  · rw [List.mem_singleton, h.paths]
  · rw [show ways [k] = [⟨k, 0, 0⟩] from rfl]
    exact .first hk h.labs

/-- every further `update` that does not throw -/
theorem Exact.step {m m' : Map τ ν} {d d' : Dict} {ks ks' : List Key} {k : Key} {r : UpdOut} (h : Exact TS NS U m ks) (hL : Live TS NS U m d)
    (hL' : Live TS NS U m' d') (hk : U k) (hr : r ≠ .exn) (hks : ks' = if d.get k = none then ks ++ [k] else ks)
    (hT : TreeStep TS NS U m d k m' r (Poplar.walk (MM TS NS U m) [] k)) : Exact TS NS U m' ks' := by
  have hlam : m'.lambda = m.lambda := by rw [hL.inv.lam, hL'.inv.lam]
  -- what a label of the new map is
  have hsub : ∀ b, MM TS NS U m b ≠ none → MM TS NS U m' b ≠ none := by
    intro b hb
    by_cases hn : MM TS NS U m (Poplar.walk (MM TS NS U m) [] k).1 = none
    · rw [hT.new hn hr]; simp only [Poplar.upd]; split
      · simp
      · exact hb
    · rw [hT.old (Or.inl hn)]; exact hb
  have hend : MM TS NS U m' (Poplar.walk (MM TS NS U m) [] k).1 ≠ none := by
    by_cases hn : MM TS NS U m (Poplar.walk (MM TS NS U m) [] k).1 = none
    · rw [hT.new hn hr]; simp [Poplar.upd]
    · exact hsub _ hn
  refine ⟨?_, ?_, ?_⟩
  · obtain ⟨Q, q1, q2, q3⟩ := h.paths
    obtain ⟨Ps, p1, p2, p3, p4⟩ := hT.grown
    refine ⟨Q ++ Ps, List.nodup_append.2 ⟨q1, p1, ?_⟩, fun q => ?_, ?_⟩
    · rintro x hx y hy rfl
      exact (q2 x).1 hx (p3 x hy).1
    · rw [List.mem_append, p2, q2]
    · rw [List.length_append, q3, p4]
  · intro q hq
    obtain ⟨Ps, p1, p2, p3, p4⟩ := hT.grown
    rcases (p2 q).1 hq with h1 | h1
    · obtain ⟨j, b, e1, e2, e3⟩ := h.tight q h1
      refine ⟨j, b, ?_, hsub _ e2, e3.imp id fun ⟨mt, c, e4, e5⟩ => ⟨mt, c, hsub _ e4, by rw [hlam]; exact e5⟩⟩
      rw [hlam, (flat_congr (hL.inv.mm_path e2).1 hT.keep).1]; exact e1
    · rcases (p3 q h1).2 with h2 | ⟨mt, c, bp, j, e1, e2, e3⟩
      · exact ⟨0, _, h2, hend, Or.inl rfl⟩
      · have e4 := suffix_ne_none hL'.ainv e1 hend
        exact ⟨j, bp, e3, hL'.ainv.pre _ _ e4, Or.inr ⟨mt, c, e4, e2⟩⟩
  · have hd : MM TS NS U m (Poplar.walk (MM TS NS U m) [] k).1 = none ↔ d.get k = none := by
      rw [← hL.get k hk, dict]; simp
    by_cases hn : d.get k = none
    · rw [hks, if_pos hn, ways_append]
      exact h.keys.step hL.ainv hk (hd.2 hn) (hT.new (hd.2 hn) hr)
    · rw [hks, if_neg hn, hT.old (Or.inl fun e => hn (hd.1 e))]
      exact h.keys

/-- the number of nodes -/
theorem Exact.size {m : Map τ ν} {d : Dict} {ks : List Key} (h : Exact TS NS U m ks) (hL : Live TS NS U m d) :
    cfg.T.size m.trie = nodeCount m.lambda ks := by
  obtain ⟨Q, q1, q2, q3⟩ := h.paths
  have hpath : ∀ b, MM TS NS U m b ≠ none → Known (cdOf m.codes) b ∧ TS.T m.trie (flat m.lambda (cdOf m.codes) b) ≠ none := by
    intro b hb
    obtain ⟨e1, e, he⟩ := hL.inv.mm_path hb
    refine ⟨e1, ?_⟩
    rw [he] at hb
    exact lp_ne hb
  have hbr : ∀ e ∈ ways ks, MM TS NS U m (walk (MM TS NS U m) [] e.key).1 ≠ none := fun e he => (h.keys.mem _).2 ⟨e, he, rfl⟩
  let F : Way → List (List Nat) := fun e => (List.range (1 + e.reach / m.lambda)).map fun j =>
    List.replicate j 255 ++ flat m.lambda (cdOf m.codes) (walk (MM TS NS U m) [] e.key).1
  have hlen : ((ways ks).flatMap F).length = nodeCount m.lambda ks := by
    rw [List.length_flatMap, nodeCount]
    congr 1
    exact List.map_congr_left fun e _ => by simp [F]
  rw [← q3, ← hlen]
  refine List.Perm.length_eq ((List.perm_ext_iff_of_nodup q1 ?_).2 fun q => ?_)
  · rw [List.nodup_flatMap]
    refine ⟨fun e he => ?_, ?_⟩
    · refine List.Nodup.map_on (fun j _ j' _ hj => ?_) List.nodup_range
      exact (flat_inj hL.inv.codes.inj (hpath _ (hbr e he)).1 (hpath _ (hbr e he)).1 hj).1
    · have := h.keys.nodup
      rw [List.Nodup, List.pairwise_map] at this
      refine List.Pairwise.imp_of_mem (fun {e e'} he he' hne => ?_) this
      intro q hq hq'
      obtain ⟨j, _, rfl⟩ := List.mem_map.1 hq
      obtain ⟨j', _, hj⟩ := List.mem_map.1 hq'
      exact hne (flat_inj hL.inv.codes.inj (hpath _ (hbr e' he')).1 (hpath _ (hbr e he)).1 hj).2.symm
  · rw [q2, List.mem_flatMap]
    constructor
    · intro hq
      obtain ⟨j, b, e1, e2, e3⟩ := h.tight q hq
      obtain ⟨e, m1, rfl⟩ := (h.keys.mem b).1 e2
      refine ⟨e, m1, List.mem_map.2 ⟨j, List.mem_range.2 ?_, e1.symm⟩⟩
      rcases e3 with rfl | ⟨mt, c, e3, e4⟩
      · exact Nat.lt_of_lt_of_le Nat.one_pos (Nat.le_add_right _ _)
      · have := h.keys.le e m1 mt c e3
        have := Nat.div_le_div_right (c := m.lambda) this
        omega
    · rintro ⟨e, m1, hq⟩
      obtain ⟨j, hj, rfl⟩ := List.mem_map.1 hq
      rw [List.mem_range] at hj
      rcases h.keys.att e m1 with hr | ⟨c, hc⟩
      · have : j = 0 := by rw [hr] at hj; simp at hj; omega
        subst this
        exact (hpath _ (hbr e m1)).2
      · have h1 := (hpath _ hc).2
        have h2 : TS.T m.trie (List.replicate (e.reach / m.lambda) 255 ++
            flat m.lambda (cdOf m.codes) (walk (MM TS NS U m) [] e.key).1) ≠ none := hL.inv.core.prefix h1
        rw [show e.reach / m.lambda = (e.reach / m.lambda - j) + j by omega, List.replicate_add, List.append_assoc] at h2
        exact hL.inv.core.prefix_rep h2

end Map

namespace Alias
variable {a : Alias} {p : Params} {i : Init} {K : Key → Prop}

/-- writing through a pointer -/
theorem _root_.Poplar.Map.Exact.store {τ ν : Type} {cfg : MapCfg τ ν} {sb N vs : Nat} {z0 : Prop} {U : List UInt8 → Prop}
    {TS : TrieSpec cfg.T sb N z0} {NS : NlmSpec cfg.L cfg.T.kind vs} {m : Map τ ν} {n : ν} {ks : List Key} (h : Map.Exact TS NS U m ks)
    (hM : AInv vs U (Map.MM TS NS U m)) (hn : ∀ b, (Map.MM TS NS U { m with nlm := n } b).map (·.1) = (Map.MM TS NS U m b).map (·.1)) :
    Map.Exact TS NS U { m with nlm := n } ks := by
  have hb : ∀ b, Map.MM TS NS U m b ≠ none → Map.MM TS NS U { m with nlm := n } b ≠ none := by
    intro b h1 h2
    have := hn b
    rw [h2] at this
    exact h1 (Option.map_eq_none_iff.1 this.symm)
  refine ⟨h.paths, fun q hq => ?_, h.keys.congr hM hn⟩
  obtain ⟨j, b, e1, e2, e3⟩ := h.tight q hq
  exact ⟨j, b, e1, hb _ e2, e3.imp id fun ⟨mt, c, e4, e5⟩ => ⟨mt, c, hb _ e4, e5⟩⟩

/-- the nodes of a map after a history that is never refused a byte value -/
theorem exact {m0 : Map a.Trie a.Nlm} (h0 : a.new p i = .ok m0) (os : List Op) : ∀ (h : a.Admissible p i K os) (_ : SmallAlphabet os)
    {s : AState} {ys : List Out}, AState.run p.valSize {} os = some (s, ys) → s.dict ≠ [] → ∀ {m : Map a.Trie a.Nlm} {xs : List Out},
    Map.run (a.cfg p) m0 os = .ok (m, xs) → ∀ hsb : 0 < i.symbBits,
    Map.Exact (a.trieSpec p i.symbBits i.capa0 hsb) (a.nlmSpec p h.params) K m (s.dict.map (·.1)) := by
  induction os using List.reverseRecOn with
  | nil =>
    intro _ _ s ys hs hd m xs h1 _
    cases hs
    exact absurd rfl hd
  | append_singleton os o ih =>
    intro h hA s ys hs hd m xs h1 hsb
    have hl := h.append_left
    obtain ⟨A, hA1, hA2⟩ := hA
    have hAl : SmallAlphabet os := ⟨A, hA1, fun k hk => hA2 k (by simp only [inserted, List.filterMap_append, List.mem_append] at hk ⊢; exact Or.inl hk)⟩
    obtain ⟨s1, xs1, xs2, f1, f2, _⟩ := AState.run_split hs
    obtain ⟨s2, x, xs3, f3, f4, _⟩ := AState.run_cons f2
    cases f4
    have h2 := h1
    rw [Map.run_append] at h2
    obtain ⟨⟨m1, zs⟩, g1, h2⟩ := R.bind_eq_ok h2
    obtain ⟨⟨m2, ws⟩, g2, h2⟩ := R.bind_eq_ok h2
    cases h2
    obtain ⟨⟨m3, x3⟩, g3, g2⟩ := R.bind_eq_ok g2
    cases g2
    have hi := fun hd1 => ih hl hAl f1 hd1 g1 hsb
    obtain ⟨_, r1, rr1, _⟩ := Alias.reach hl f1 h0 g1
    obtain ⟨_, r2, rr2, _⟩ := Alias.reach h hs h0 h1
    have e1 := r1.size
    have e2 := r2.size
    have hkeys := AState.step_keys_op f3
    rcases exec_shape g3 with rfl | ⟨k, m4, r, k1, k2, k3⟩
    · rcases hkeys with ⟨k1, k2⟩ | ⟨k, _, k1, _⟩
      · rw [k2]
        exact hi (fun e => hd (List.length_eq_zero_iff.1 (by rw [k1, e]; rfl)))
      · omega
    · obtain ⟨hK, hu⟩ := updateOk h f1 f3 k1 hsb r1 rr1 k2
      -- the update is not refused
      have hx : r ≠ .exn := by
        intro e
        obtain ⟨c, c1, c2, c3, c4⟩ := hu.exn.1 e
        have hne : s1.dict ≠ [] := c2.1
        have hlen := rr1.numCodes (r1.live hne)
        have hn := (s1.newByte_iff o c).2 ⟨k, k1, c2, c1, fun hm => c3 ((rr1.mem c).2 hm)⟩
        simp only [AState.step, hn] at f3
        rw [if_neg (by omega), if_pos (by omega)] at f3
        cases f3
        obtain ⟨bs, hb1, hb2⟩ := AState.run_small p.valSize hA1 (os ++ [o]) {} .init (by simp) hA2
        rw [hs] at hb1
        injection hb1 with hb1
        injection hb1 with hb1 _
        injection hb1 with _ hb1
        rw [← hb1] at hb2
        have := (List.subperm_of_subset rr2.nodup hb2).length_le
        simp only [List.length_cons] at this
        omega
      rcases hu.res with ⟨l, u1, u2, u3⟩ | ⟨u1, _⟩
      swap
      · exact absurd u1 hx
      have h4 : Map.Exact (a.trieSpec p i.symbBits i.capa0 hsb) (a.nlmSpec p h.params) K m4 ((Map.afterUpdate p.valSize s1.dict k).map (·.1)) := by
        by_cases hd1 : s1.dict = []
        · rw [hd1]; exact .first hK (hu.first hd1)
        · have hL := r1.live hd1
          refine (hi hd1).step hL u2 hK hx ?_ (hu.tree hL)
          rw [Map.afterUpdate]
          cases hg : s1.dict.get k with
          | some v => rfl
          | none =>
            rw [if_pos rfl]
            dsimp only
            rcases Dict.set_keys s1.dict k (List.replicate p.valSize 0) with ⟨z1, _⟩ | ⟨_, z2⟩
            · rw [Dict.length_set, if_pos hg] at z1; omega
            · exact z2
      have hks : s.dict.map (·.1) = (Map.afterUpdate p.valSize s1.dict k).map (·.1) := by
        have hz := u2.size
        have hst : m.size = m4.size := by
          rcases k3 with rfl | ⟨l, v, _, _, k3⟩
          · rfl
          · obtain ⟨n, h3, k3⟩ := R.bind_eq_ok k3
            cases k3; rfl
        rw [Map.afterUpdate] at hz ⊢
        cases hg : s1.dict.get k with
        | some v =>
          rw [hg] at hz
          rcases hkeys with ⟨_, z1⟩ | ⟨_, _, z1, _⟩
          · exact z1
          · dsimp only at hz; omega
        | none =>
          rw [hg] at hz
          dsimp only at hz ⊢
          rw [Dict.length_set, if_pos hg] at hz
          rcases hkeys with ⟨z1, _⟩ | ⟨k', z1, _, z2⟩
          · omega
          · rw [k1] at z1; cases z1
            rcases Dict.set_keys s1.dict k (List.replicate p.valSize 0) with ⟨z1, _⟩ | ⟨_, z3⟩
            · rw [Dict.length_set, if_pos hg] at z1; omega
            · rw [z2, z3]
      rw [hks]
      rcases k3 with rfl | ⟨l', v, c1, c2, c3⟩
      · exact h4
      · rw [u1] at c1; cases c1
        have hv := (h.legal o (by simp)).val _ _ c2
        obtain ⟨n', n1, _, _, _, n5⟩ := u2.store hK u3 hv
        rw [n1] at c3; cases c3
        exact h4.store u2.ainv n5

/-- the number of nodes after any such history -/
theorem node_count {m0 : Map a.Trie a.Nlm} {os : List Op} (h : a.Admissible p i K os) (hA : SmallAlphabet os) {s : AState} {ys : List Out}
    (hs : AState.run p.valSize {} os = some (s, ys)) (h0 : a.new p i = .ok m0) {m : Map a.Trie a.Nlm} {xs : List Out}
    (h1 : Map.run (a.cfg p) m0 os = .ok (m, xs)) : (a.cfg p).T.size m.trie = nodeCount i.lambda (s.dict.map (·.1)) := by
  obtain ⟨hsb, r1, _, r3, _⟩ := Alias.reach h hs h0 h1
  by_cases hd : s.dict = []
  · rw [hd] at r3 ⊢
    have : (a.cfg p).T.size m.trie ≤ 0 := r3
    show _ = 0
    omega
  · have hl := (Alias.run_lambda h0 h1).1
    rw [(exact h0 os h hA hs hd h1 hsb).size (r1.live hd), show m.lambda = i.lambda by rw [hl]; cases i <;> rfl]

end Alias
end Poplar
