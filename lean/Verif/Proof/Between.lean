import Verif.Proof.Tally
import Verif.Proof.Prefixes
/-
  Pointers to values, in all six maps, as long as nothing is inserted.
-/
namespace Poplar
open Spec

theorem AState.run_join {vs : Nat} {os os' : List Op} {s s1 s' : AState} {xs xs' : List Out} (h : AState.run vs s os = some (s1, xs))
    (h' : AState.run vs s1 os' = some (s', xs')) : AState.run vs s (os ++ os') = some (s', xs ++ xs') := by
  rw [AState.run_append, h, Option.bind_some, h', Option.map_some]

namespace Alias
variable {a : Alias} {p : Params} {i : Init} {K : Key → Prop} {os : List Op}

/-- a node has one value, in all label maps -/
theorem at_one (hp : p.Valid) {n : a.Nlm} {l l' : Loc} {j : Nat}
    (h : (a.nlmSpec p hp).At n l j) (h' : (a.nlmSpec p hp).At n l' j) : l = l' := by
  have cb : ∀ {n : CompactBonsaiNlm}, CompactBonsaiNlm.cAt p.chunkSize p.valSize n.ptrs n.chunks n.heap l j →
      CompactBonsaiNlm.cAt p.chunkSize p.valSize n.ptrs n.chunks n.heap l' j → l = l' := by
    rintro n ⟨a, w, mem, o, q, h1, h2, h3, h4, h5, h6, h7⟩ ⟨a', w', mem', o', q', h1', h2', h3', h4', h5', h6', h7'⟩
    rw [h1] at h1'; cases h1'
    rw [h2] at h2'; cases h2'
    rw [h3] at h3'; cases h3'
    rw [h5] at h5'; cases h5'
    rw [h7, h7']
  have cf : ∀ {n : CompactFkNlm}, CompactFkNlm.cAt p.chunkSize p.valSize n l j → CompactFkNlm.cAt p.chunkSize p.valSize n l' j → l = l' := by
    rintro n ⟨mem, o, q, h1, h2, h3, h4⟩ ⟨mem', o', q', h1', h2', h3', h4'⟩
    rw [h1] at h1'
    injection h1' with h1'
    injection h1' with e1 e2
    subst e2
    rw [h2] at h2'; cases h2'
    cases l; cases l'
    simp only at e1 h4 h4'
    rw [e1, h4, h4']
  cases a with
  | plainBonsai =>
    obtain ⟨x, b, h1, h2, h3⟩ := h
    obtain ⟨x', b', h1', h2', h3'⟩ := h'
    rw [h1] at h1'; cases h1'
    rw [h2] at h2'; cases h2'
    rw [h3, h3']
  | plainFkhash =>
    obtain ⟨x, b, h1, h2, h3⟩ := h
    obtain ⟨x', b', h1', h2', h3'⟩ := h'
    rw [h1] at h1'; cases h1'
    rw [h2] at h2'; cases h2'
    rw [h3, h3']
  | semiCompactBonsai => exact cb h h'
  | compactBonsai => exact cb h h'
  | semiCompactFkhash => exact cf h.2 h'.2
  | compactFkhash => exact cf h.2 h'.2

theorem ptr_one (hp : p.Valid) {sb cb0 : Nat} (hsb : 0 < sb)
    {m : Map a.Trie a.Nlm} {l l' : Loc} {k : Key} (h : Map.PtrTo (a.trieSpec p sb cb0 hsb) (a.nlmSpec p hp) K m l k)
    (h' : Map.PtrTo (a.trieSpec p sb cb0 hsb) (a.nlmSpec p hp) K m l' k) : l = l' := by
  obtain ⟨⟨j, j1, j2⟩, _⟩ := h
  obtain ⟨⟨j', j1', j2'⟩, _⟩ := h'
  rw [j1] at j1'; cases j1'
  exact at_one hp j2 j2'

/-- pointers stay valid while the operations insert no key -/
theorem between {s : AState} {ys : List Out} (hs : AState.run p.valSize {} os = some (s, ys)) (hsb : 0 < i.symbBits)
    {m : Map a.Trie a.Nlm} (os' : List Op) : ∀ (h : a.Admissible p i K (os ++ os'))
    (_ : Map.Live (a.trieSpec p i.symbBits i.capa0 hsb) (a.nlmSpec p h.params) K m s.dict) (_ : Map.Rel m s.bytes)
    (_ : ∀ o ∈ os', ∀ k, o.inserts = some k → s.dict.get k ≠ none) {s' : AState} {ys' : List Out}
    (_ : AState.run p.valSize s os' = some (s', ys')) {m' : Map a.Trie a.Nlm} {xs : List Out}
    (_ : Map.run (a.cfg p) m os' = .ok (m', xs)),
    Map.Live (a.trieSpec p i.symbBits i.capa0 hsb) (a.nlmSpec p h.params) K m' s'.dict ∧ Map.Rel m' s'.bytes ∧
      Map.PStab (a.trieSpec p i.symbBits i.capa0 hsb) (a.nlmSpec p h.params) K m m' ∧ s'.dict.map (·.1) = s.dict.map (·.1) := by
  induction os' using List.reverseRecOn with
  | nil =>
    intro h hL hR _ s' ys' hs' m' xs h1
    cases hs'; cases h1
    exact ⟨hL, hR, fun _ _ _ h => h, rfl⟩
  | append_singleton os' o ih =>
    intro h hL hR hold s' ys' hs' m' xs h1
    have h2 : a.Admissible p i K ((os ++ os') ++ [o]) := by simpa using h
    obtain ⟨s1, xs1, xs2, f1, f2, _⟩ := AState.run_split hs'
    obtain ⟨s2, x, xs3, f3, f4, _⟩ := AState.run_cons f2
    cases f4
    rw [Map.run_append] at h1
    obtain ⟨⟨m1, zs⟩, g1, h1⟩ := R.bind_eq_ok h1
    obtain ⟨⟨m2, ws⟩, g2, h1⟩ := R.bind_eq_ok h1
    cases h1
    obtain ⟨l1, l2, l3, l4⟩ := ih h2.append_left hL hR (fun o ho => hold o (by simp [ho])) f1 g1
    have hrun : AState.run p.valSize {} (os ++ os') = some (s1, ys ++ xs1) := Poplar.AState.run_join hs f1
    obtain ⟨_, r1, r2, _⟩ := Alias.cont h2 hrun f2 hsb (Or.inr (Or.inr l1)) l2 g2
    obtain ⟨⟨m3, x3⟩, g3, g2⟩ := R.bind_eq_ok g2
    cases g2
    have hne1 : s1.dict ≠ [] := l1.ne_nil
    have hkeys : s'.dict.map (·.1) = s1.dict.map (·.1) := by
      rcases AState.step_keys_op f3 with ⟨_, e⟩ | ⟨k', k1, k2, k3⟩
      · exact e
      · exfalso
        have hin := hold o (by simp) k' k1
        have hnd := AState.run_nodup (Poplar.AState.run_join hrun f2) (by simp)
        rw [k3] at hnd
        have hmem : k' ∈ s1.dict.map (·.1) := by
          rw [l4]
          by_contra hc
          exact hin (Dict.get_eq_none.2 hc)
        exact (List.nodup_append.1 hnd).2.2 k' hmem k' (by simp) rfl
    have hne2 : s'.dict ≠ [] := by
      intro e
      rw [e] at hkeys
      simp only [List.map_nil] at hkeys
      exact hne1 (List.map_eq_nil_iff.1 hkeys.symm)
    refine ⟨r1.live hne2, r2, ?_, hkeys.trans l4⟩
    rcases exec_shape g3 with rfl | ⟨k', m4, r, c1, c2, c3⟩
    · exact l3
    · obtain ⟨hK, hu⟩ := updateOk h2 hrun f3 c1 hsb (Or.inr (Or.inr l1)) l2 c2
      have hin : s1.dict.get k' ≠ none := by
        have := hold o (by simp) k' c1
        rw [Ne, Dict.get_eq_none, ← l4, ← Dict.get_eq_none] at this
        exact this
      have h4 := (hu.same hin).2
      rcases c3 with rfl | ⟨l', v', w1, w2, w3⟩
      · exact fun l k hk hp => h4 l k hk (l3 l k hk hp)
      · rcases hu.res with ⟨l, u1, u2, u3⟩ | ⟨u1, _⟩
        · rw [u1] at w1; cases w1
          have hv := (h.legal o (by simp)).val _ _ w2
          obtain ⟨n', n1, _, n3, _⟩ := u2.store hK u3 hv
          rw [n1] at w3; cases w3
          exact fun l k hk hp => n3 l k hk (h4 l k hk (l3 l k hk hp))
        · rw [u1] at w1; cases w1

end Alias
end Poplar
