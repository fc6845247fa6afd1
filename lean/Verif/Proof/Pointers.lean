import Verif.Proof.History
/-
  Value pointers and capacity over histories.
-/
namespace Poplar
open Spec

namespace Alias
variable {a : Alias} {p : Params} {i : Init} {K : Key → Prop} {os : List Op}

/-- a map after a history, with everything that is known about it -/
theorem reach (h : a.Admissible p i K os) {s : AState} {ys : List Out} (hs : AState.run p.valSize {} os = some (s, ys))
    {m0 m : Map a.Trie a.Nlm} {xs : List Out} (h0 : a.new p i = .ok m0) (h1 : Map.run (a.cfg p) m0 os = .ok (m, xs)) :
    ∃ (hsb : 0 < i.symbBits), Map.State (a.trieSpec p i.symbBits i.capa0 hsb) (a.nlmSpec p h.params) K m s.dict ∧
      Map.Rel m s.bytes ∧ (a.cfg p).T.size m.trie ≤ nodesFor i.lambda (s.dict.map (·.1)) ∧ xs = ys := by
  obtain ⟨hsb, m', e1, e2⟩ := after h hs
  rw [h0] at e1; injection e1 with e1; subst e1
  rw [h1] at e2
  exact ⟨hsb, e2.2.1, e2.2.2.1, e2.2.2.2, e2.1⟩

/-- continuing a history -/
theorem cont {os' : List Op} (h : a.Admissible p i K (os ++ os')) {s s' : AState} {ys ys' : List Out}
    (hs : AState.run p.valSize {} os = some (s, ys)) (hs' : AState.run p.valSize s os' = some (s', ys'))
    (hsb : 0 < i.symbBits) {m m' : Map a.Trie a.Nlm} {xs : List Out}
    (hm : Map.State (a.trieSpec p i.symbBits i.capa0 hsb) (a.nlmSpec p h.params) K m s.dict) (hr : Map.Rel m s.bytes)
    (h1 : Map.run (a.cfg p) m os' = .ok (m', xs)) :
    xs = ys' ∧ Map.State (a.trieSpec p i.symbBits i.capa0 hsb) (a.nlmSpec p h.params) K m' s'.dict ∧ Map.Rel m' s'.bytes ∧
    Map.CapaTo (a.trieSpec p i.symbBits i.capa0 hsb) m m' ∧
    ((a.nlmSpec p h.params).stable → Map.Live (a.trieSpec p i.symbBits i.capa0 hsb) (a.nlmSpec p h.params) K m s.dict →
      Map.PStab (a.trieSpec p i.symbBits i.capa0 hsb) (a.nlmSpec p h.params) K m m' ∧
      Map.Live (a.trieSpec p i.symbBits i.capa0 hsb) (a.nlmSpec p h.params) K m' s'.dict) := by
  have := Map.run_exact h.keys (a.ok p h.params _ _ hsb) os' m s hm hr (fun o ho => h.legal o (by simp [ho]))
    (h.z0.imp id (fun hz => hz.arun hs)) s' ys' hs' _ (Nat.le_refl _)
  rw [h1] at this
  exact ⟨this.1, this.2.1, this.2.2.1, this.2.2.2.1, this.2.2.2.2.2⟩

/-- a pointer that `update(k)` or `find(k)` returns is a pointer to the value of `k` -/
theorem ptr_here {os' : List Op} {k : Key} (h : a.Admissible p i K (os ++ .update k :: os')) {s1 s2 : AState} {xs1 : List Out} {x2 : Out}
    (f1 : AState.run p.valSize {} os = some (s1, xs1)) (g1 : s1.step p.valSize (.update k) = some (s2, x2)) (hk : ¬ Malformed k)
    (hsb : 0 < i.symbBits) {m1 m2 : Map a.Trie a.Nlm} {l : Loc}
    (r1 : Map.State (a.trieSpec p i.symbBits i.capa0 hsb) (a.nlmSpec p h.params) K m1 s1.dict) (r2 : Map.Rel m1 s1.bytes)
    (h2 : Map.update (a.cfg p) m1 k = .ok (m2, .ptr l) ∨ (Map.find (a.cfg p) m1 k = .ok (some l) ∧ m2 = m1)) :
    Map.Live (a.trieSpec p i.symbBits i.capa0 hsb) (a.nlmSpec p h.params) K m2 s2.dict ∧
      Map.Rel m2 s2.bytes ∧ Map.PtrTo (a.trieSpec p i.symbBits i.capa0 hsb) (a.nlmSpec p h.params) K m2 l k := by
  have hkey : K k := ((h.legal (.update k) (by simp)).1 k rfl).resolve_right hk
  have h' : a.Admissible p i K ((os ++ [.update k]) ++ os') := by simpa using h
  have hz1 : (a.plainFk = false ∨ p.dbg = false) ∨ (k.head? ≠ some 0 ∨ s1.dict = [] ∨ ∃ l, firstKey s1.dict = some (0 :: l)) :=
    h.z0.imp id (fun hz => (hz.arun f1).now (by simp [Op.inserts, hk]))
  rcases h2 with h2 | ⟨h2, rfl⟩
  · -- the update was a step of a history
    have hex : Map.exec (a.cfg p) m1 (.update k) = (do pure (m2, .value (← Map.load (a.cfg p) m2 l))) := by
      simp only [Map.exec, h2, R.bind_ok]
    have hz2 := h.z0.imp id (fun hz => hz.arun f1)
    have hc : m1.numCodes < 255 ∨ ∀ c, c ≠ 0 → BranchesAt s1.dict k c → Map.Coded m1 c := by
      by_cases hlen : s1.bytes.length < 254
      · left; have := r2.le r1; omega
      · right
        intro c h0 hb
        by_contra hc
        have hn := (s1.newByte_iff (.update k) c).2 ⟨k, by simp [Op.inserts, hk], hb, h0, fun hm => hc ((r2.mem c).2 hm)⟩
        simp only [AState.step, hn] at g1
        rw [if_neg (by omega), if_neg (by omega)] at g1
        cases g1
    have hu := r1.upd h.keys (a.ok p h.params _ i.capa0 hsb).empty (a.ok p h.params _ i.capa0 hsb).min (a.ok p h.params _ i.capa0 hsb).min64 hkey hz1 hc
    rw [h2] at hu
    have hu : Map.UpdateOk _ _ K m1 _ k m2 (.ptr l) := hu
    rcases hu.res with ⟨l', e1, e2, e3⟩ | ⟨e1, _⟩
    · injection e1 with e1; subst e1
      obtain ⟨v, v1, v2, _⟩ := e2.load hkey e3
      rw [v2] at hex
      have hrun : Map.run (a.cfg p) m1 [.update k] = .ok (m2, [.value v]) := by
        simp only [Map.run, hex, R.bind_ok, R.pure_eq]
      have hs1 : AState.run p.valSize s1 [.update k] = some (s2, [x2]) := by
        simp only [AState.run, g1, Option.bind_eq_bind, Option.bind_some]; rfl
      obtain ⟨t1, t2, t3, _⟩ := Alias.cont (os' := [.update k]) h'.append_left f1 hs1 hsb r1 r2 hrun
      refine ⟨t2.live ?_, t3, e3⟩
      -- the dictionary is not empty
      intro he
      rcases t2 with ⟨q, _, _⟩ | ⟨q, _⟩ | q
      · have := e2.inv.ready; rw [q] at this; cases this
      · exact absurd ((a.trieSpec p i.symbBits i.capa0 hsb).fresh_size _ q.trie) ((a.trieSpec p i.symbBits i.capa0 hsb).inv_size _ e2.inv.core.trie)
      · exact q.ne_nil he
    · cases e1
  · rcases r1.find h.keys hkey with ⟨_, e⟩ | ⟨l', e1, e2, e3⟩
    · rw [h2] at e; cases e
    · rw [h2] at e1; injection e1 with e1; injection e1 with e1; subst e1
      obtain ⟨v, v1, _⟩ := e2.load hkey e3
      have hnb : s1.newByte (.update k) = none := by
        cases hn : s1.newByte (.update k) with
        | none => rfl
        | some c =>
          obtain ⟨k', k1, k2, _⟩ := (s1.newByte_iff _ c).1 hn
          simp only [Op.inserts, hk, if_false, Option.some.injEq] at k1
          subst k1
          rw [k2.2.1] at v1; cases v1
      simp only [AState.step, hnb, step, hk, if_false, v1, Option.some.injEq, Prod.mk.injEq] at g1
      rw [← g1.1]
      exact ⟨e2, r2, e3⟩

/-- loading and storing through a pointer to the value of a key -/
theorem ptr_use (hp : p.Valid) {sb cb0 : Nat} (hsb : 0 < sb) {m : Map a.Trie a.Nlm} {d : Dict} {l : Loc} {k : Key}
    (hk : K k) (hm : Map.Live (a.trieSpec p sb cb0 hsb) (a.nlmSpec p hp) K m d)
    (hptr : Map.PtrTo (a.trieSpec p sb cb0 hsb) (a.nlmSpec p hp) K m l k) :
    (∃ v, d.get k = some v ∧ Map.load (a.cfg p) m l = .ok v) ∧
    ∀ w, w.length = p.valSize → ∃ m', Map.store (a.cfg p) m l w = .ok m' ∧
      ∀ k', K k' → Map.exec (a.cfg p) m' (.find k') = .ok (m', .found ((d.set k w).get k')) := by
  constructor
  · obtain ⟨v, v1, v2, _⟩ := hm.load hk hptr
    exact ⟨v, v1, v2⟩
  · intro w hw
    obtain ⟨n, n1, n2, _⟩ := hm.store hk hptr hw
    refine ⟨_, n1, ?_⟩
    intro k' hk'
    simp only [Map.exec]
    rcases n2.find hk' with ⟨f1, f2⟩ | ⟨l', f1, f2⟩
    · rw [f2, f1]
    · obtain ⟨v, v1, v2, _⟩ := n2.load hk' f2
      rw [f1]
      simp only [v2, R.bind_ok, R.pure_eq, v1]

/-- a new map, its readiness and capacity -/
theorem new_capa (K : Key → Prop) (hp : p.Valid) (hi : i.Fits) {m0 : Map a.Trie a.Nlm} (h0 : a.new p i = .ok m0) :
    ∃ (hsb : 0 < i.symbBits), True ∧ Map.State (a.trieSpec p i.symbBits i.capa0 hsb) (a.nlmSpec p hp) K m0 [] ∧ Map.Rel m0 [] ∧
      match i with
      | .default => m0.isReady = false
      | .make cb _ => m0.isReady = true ∧ (a.cfg p).T.capaSize m0.trie = 2 ^ max 16 cb := by
  obtain ⟨hsb, m, e1, e2, _, e4, _⟩ := new_ok a p hp i hi K
  rw [h0] at e1; injection e1 with e1; subst e1
  refine ⟨hsb, trivial, e2, ⟨List.nodup_nil, fun c => ⟨fun hc => absurd hc (e4 c), fun hc => by cases hc⟩⟩, ?_⟩
  cases i with
  | default => injection h0 with h0; subst h0; rfl
  | make cb lam =>
    dsimp only
    obtain ⟨⟨l, rfl⟩, h2⟩ := hi
    have hl : Nat.log2 (2 ^ l) = l := Nat.log2_two_pow
    have hs : Init.symbBits (.make cb (2 ^ l)) = 8 + l := by simp only [Init.symbBits, hl]
    rw [hl] at h2
    obtain ⟨m, m1, m2, m3⟩ := Map.make_ok (TS := a.trieSpec p _ cb hsb) (NS := a.nlmSpec p hp) (cb := cb)
      (by rw [hs]; omega) (a.ok p hp _ cb hsb).min (a.cb0_le ..) (by rw [minb, hs]; exact h2)
    rw [hs, show 8 + l - 8 = l by omega] at m1
    have h0 : Map.make (a.cfg p) cb (2 ^ l) = .ok m0 := h0
    rw [h0] at m1; injection m1 with m1; subst m1
    refine ⟨m2.ready, ?_⟩
    rw [((a.trieSpec p _ cb hsb).capa _ (Or.inl m2.trie)).2.2.1, m3, minb]

theorem capa_bits (hp : p.Valid) {sb cb0 : Nat} (hsb : 0 < sb) {m : Map a.Trie a.Nlm} {d : Dict}
    (hm : Map.State (a.trieSpec p sb cb0 hsb) (a.nlmSpec p hp) K m d) (hr : m.isReady = true) :
    (a.cfg p).T.capaSize m.trie = 2 ^ (a.cfg p).T.capaBits m.trie := by
  rcases hm with ⟨rfl, _, _⟩ | ⟨h, _⟩ | h
  · cases hr
  · exact ((a.trieSpec p sb cb0 hsb).capa _ (Or.inl h.trie)).2.2.1
  · exact ((a.trieSpec p sb cb0 hsb).capa _ (Or.inr h.inv.core.trie)).2.2.1

theorem capa_inv (hp : p.Valid) {sb cb0 : Nat} (hsb : 0 < sb) {m : Map a.Trie a.Nlm} {d : Dict}
    (hm : Map.State (a.trieSpec p sb cb0 hsb) (a.nlmSpec p hp) K m d) (hr : m.isReady = true) :
    ∃ b, 16 ≤ b ∧ b < 64 ∧ (a.cfg p).T.capaSize m.trie = 2 ^ b ∧ (a.cfg p).T.size m.trie ≤ maxSize (2 ^ b) p.maxFactor := by
  have hc : (a.trieSpec p sb cb0 hsb).Fresh m.trie ∨ (a.trieSpec p sb cb0 hsb).Inv m.trie := by
    rcases hm with ⟨rfl, _, _⟩ | ⟨h, _⟩ | h
    · cases hr
    · exact Or.inl h.trie
    · exact Or.inr h.inv.core.trie
  obtain ⟨h1, h2, h3, h4⟩ := (a.trieSpec p sb cb0 hsb).capa _ hc
  rw [minb] at h1
  rw [mf] at h4
  exact ⟨_, h1, h2, h3, h4⟩

end Alias
end Poplar
