import Verif.Proof.Tally
import Verif.Proof.FirstLabel
/-
  Where the values are in the blocks of the plain label maps.
-/
namespace Poplar
open Spec

/-- the value is behind the label -/
def PutsBehind {τ ν : Type} (cfg : MapCfg τ ν) : Prop :=
  ∀ {m m' : Map τ ν} {v : Nat} {k : List UInt8} {r : UpdOut}, Map.putLabel cfg m v k = .ok (m', r) → ∃ b, r = .ptr ⟨.heap b, k.length⟩

theorem PlainBonsaiNlm.insert_loc {vs : Nat} {n n' : PlainBonsaiNlm} {i : Nat} {k : List UInt8} {l : Loc}
    (h : PlainBonsaiNlm.insert vs n i k = .ok (n', l)) : ∃ b, l = ⟨.heap b, k.length⟩ := by
  obtain ⟨_, _, h⟩ := R.bind_eq_ok h
  obtain ⟨_, _, h⟩ := R.bind_eq_ok h
  dsimp only at h
  obtain ⟨_, _, h⟩ := R.bind_eq_ok h
  obtain ⟨_, _, h⟩ := R.bind_eq_ok h
  obtain ⟨_, _, h⟩ := R.bind_eq_ok h
  cases h; exact ⟨_, rfl⟩

theorem PlainFkNlm.append_loc {vs : Nat} {n n' : PlainFkNlm} {k : List UInt8} {l : Loc}
    (h : PlainFkNlm.append vs n k = .ok (n', l)) : ∃ b, l = ⟨.heap b, k.length⟩ := by
  unfold append at h
  dsimp only at h
  obtain ⟨_, _, h⟩ := R.bind_eq_ok h
  obtain ⟨_, _, h⟩ := R.bind_eq_ok h
  cases h; exact ⟨_, rfl⟩

theorem Alias.putsBehind {a : Alias} (ha : a = .plainBonsai ∨ a = .plainFkhash) (p : Params) : PutsBehind (a.cfg p) := by
  rcases ha with rfl | rfl
  · intro m m' v k r h
    unfold Map.putLabel at h
    split at h
    · rename_i hk; cases hk
    · obtain ⟨⟨n, l⟩, h1, h⟩ := R.bind_eq_ok h
      cases h
      obtain ⟨b, rfl⟩ := PlainBonsaiNlm.insert_loc h1
      exact ⟨b, rfl⟩
  · intro m m' v k r h
    unfold Map.putLabel at h
    split at h
    · obtain ⟨⟨n, l⟩, h1, h⟩ := R.bind_eq_ok h
      cases h
      obtain ⟨b, rfl⟩ := PlainFkNlm.append_loc h1
      exact ⟨b, rfl⟩
    · rename_i hk; cases hk

namespace Alias
variable {a : Alias} {p : Params} {i : Init} {K : Key → Prop} {os : List Op}

/-- a node has one value -/
theorem at_unique {a : Alias} (ha : a = .plainBonsai ∨ a = .plainFkhash) (hp : p.Valid) {n : a.Nlm} {l l' : Loc} {j : Nat}
    (h : (a.nlmSpec p hp).At n l j) (h' : (a.nlmSpec p hp).At n l' j) : l = l' := by
  rcases ha with rfl | rfl
  · obtain ⟨x, b, h1, h2, h3⟩ := h
    obtain ⟨x', b', h1', h2', h3'⟩ := h'
    rw [h1] at h1'; cases h1'
    rw [h2] at h2'; cases h2'
    rw [h3, h3']
  · obtain ⟨x, b, h1, h2, h3⟩ := h
    obtain ⟨x', b', h1', h2', h3'⟩ := h'
    rw [h1] at h1'; cases h1'
    rw [h2] at h2'; cases h2'
    rw [h3, h3']

theorem ptr_unique {a : Alias} (ha : a = .plainBonsai ∨ a = .plainFkhash) (hp : p.Valid) {sb cb0 : Nat} (hsb : 0 < sb)
    {m : Map a.Trie a.Nlm} {l l' : Loc} {k : Key} (h : Map.PtrTo (a.trieSpec p sb cb0 hsb) (a.nlmSpec p hp) K m l k)
    (h' : Map.PtrTo (a.trieSpec p sb cb0 hsb) (a.nlmSpec p hp) K m l' k) : l = l' := by
  obtain ⟨⟨j, j1, j2⟩, _⟩ := h
  obtain ⟨⟨j', j1', j2'⟩, _⟩ := h'
  rw [j1] at j1'; cases j1'
  exact at_unique ha hp j2 j2'

/-- the pointers to the values of all keys -/
theorem offsets (ha : a = .plainBonsai ∨ a = .plainFkhash)
    {m0 : Map a.Trie a.Nlm} (h0 : a.new p i = .ok m0) (os : List Op) : ∀ (h : a.Admissible p i K os),
    ∀ {s : AState} {ys : List Out}, AState.run p.valSize {} os = some (s, ys) → ∀ {m : Map a.Trie a.Nlm} {xs : List Out},
    Map.run (a.cfg p) m0 os = .ok (m, xs) → ∀ (hsb : 0 < i.symbBits) (j : Nat) (k q : Key), (s.dict.map (·.1))[j]? = some k →
    (storedParts (s.dict.map (·.1)))[j]? = some q →
    ∃ b, Map.PtrTo (a.trieSpec p i.symbBits i.capa0 hsb) (a.nlmSpec p h.params) K m ⟨.heap b, q.length⟩ k := by
  have hlen : ∀ (ks b : List Key), (storedFrom b ks).length = ks.length := by
    intro ks
    induction ks with
    | nil => intro b; rfl
    | cons k ks ih => intro b; rw [storedFrom, List.length_cons, ih, List.length_cons]
  induction os using List.reverseRecOn with
  | nil =>
    intro _ s ys hs m xs h1 hsb j k q hk
    cases hs
    simp at hk
  | append_singleton os o ih =>
    intro h s ys hs m xs h1 hsb j k q hk hq
    have hl := h.append_left
    have hst : (a.nlmSpec p h.params).stable := by
      rcases ha with rfl | rfl <;> exact trivial
    obtain ⟨s1, xs1, xs2, f1, f2, _⟩ := AState.run_split hs
    obtain ⟨s2, x, xs3, f3, f4, _⟩ := AState.run_cons f2
    cases f4
    have h2 := h1
    rw [Map.run_append] at h2
    obtain ⟨⟨m1, zs⟩, g1, h2⟩ := R.bind_eq_ok h2
    obtain ⟨⟨m2, ws⟩, g2, h2⟩ := R.bind_eq_ok h2
    cases h2
    obtain ⟨hsb1, r1, rr1, _⟩ := Alias.reach hl f1 h0 g1
    obtain ⟨hsb2, r2, _⟩ := Alias.reach h hs h0 h1
    obtain ⟨_, _, _, _, t⟩ := Alias.cont h f1 f2 hsb r1 rr1 g2
    obtain ⟨⟨m3, x3⟩, g3, g2⟩ := R.bind_eq_ok g2
    cases g2
    -- the keys that were there before
    have old : ∀ (j : Nat) (k q : Key), (s1.dict.map (·.1))[j]? = some k → (storedParts (s1.dict.map (·.1)))[j]? = some q →
        ∃ b, Map.PtrTo (a.trieSpec p i.symbBits i.capa0 hsb) (a.nlmSpec p h.params) K m ⟨.heap b, q.length⟩ k := by
      intro j k q hk hq
      obtain ⟨b, hb⟩ := ih hl f1 g1 hsb j k q hk hq
      have hne : s1.dict ≠ [] := by intro e; rw [e] at hk; simp at hk
      have hlive := r1.live hne
      have hK : K k := by
        obtain ⟨e, e1, e2⟩ := List.mem_map.1 (List.mem_of_getElem? hk)
        rw [← e2]; exact hlive.keys e e1
      exact ⟨b, (t hst hlive).1 _ _ hK hb⟩
    rcases AState.step_keys_op f3 with ⟨_, e⟩ | ⟨k', k1, k2, k3⟩
    · rw [e] at hk hq
      exact old j k q hk hq
    · rw [k3] at hk hq
      rw [storedParts_append] at hq
      have hll : (storedParts (s1.dict.map (·.1))).length = (s1.dict.map (·.1)).length := hlen _ _
      by_cases hj : j < (s1.dict.map (·.1)).length
      · rw [List.getElem?_append_left hj] at hk
        rw [List.getElem?_append_left (by omega)] at hq
        exact old j k q hk hq
      · have hj2 : j = (s1.dict.map (·.1)).length := by
          by_contra hc
          rw [List.getElem?_eq_none (by simp at hj hc ⊢; omega)] at hk
          cases hk
        rw [hj2, List.getElem?_concat_length] at hk
        rw [hj2, ← hll, List.getElem?_concat_length] at hq
        cases hk
        cases hq
        -- the new key
        have z1 := r1.size
        have z2 := r2.size
        rcases exec_shape g3 with rfl | ⟨k'', m4, r, c1, c2, c3⟩
        · omega
        · rw [k1] at c1; cases c1
          obtain ⟨hK, hu⟩ := updateOk h f1 f3 k1 hsb r1 rr1 c2
          have hsz : m.size = m4.size := by
            rcases c3 with rfl | ⟨l, v, _, _, c3⟩
            · rfl
            · obtain ⟨n, _, c3⟩ := R.bind_eq_ok c3
              cases c3; rfl
          rcases hu.res with ⟨l, u1, u2, u3⟩ | ⟨_, u2, _⟩
          · have hn : s1.dict.get k = none := by
              cases hg : s1.dict.get k with
              | none => rfl
              | some v =>
                have := u2.size
                rw [Map.afterUpdate, hg] at this
                dsimp only at this
                omega
            obtain ⟨m5, m6, v, _, _, y3⟩ := hu.put hn (by rw [u1]; intro h; cases h)
            obtain ⟨b, y4⟩ := putsBehind ha p y3
            rw [u1] at y4; cases y4
            refine ⟨b, ?_⟩
            rcases c3 with rfl | ⟨l', v', w1, w2, w3⟩
            · exact u3
            · rw [u1] at w1; cases w1
              have hv := (h.legal o (by simp)).val _ _ w2
              obtain ⟨n', n1, _, n3, _⟩ := u2.store hK u3 hv
              rw [n1] at w3; cases w3
              exact n3 _ _ hK u3
          · have := u2.size
            omega

/-- the first `update` of a new map, in terms of the label map alone -/
theorem first_update (a : Alias) (p : Params) (hp : p.Valid) (i : Init) (hi : i.Fits) :
    ∃ b r n0 m0, 16 ≤ b ∧ b < 64 ∧ r < 2 ^ b ∧ ((a.cfg p).T.kind = .fkhash → r = 0) ∧ (a.cfg p).L.make b = .ok n0 ∧ a.new p i = .ok m0 ∧
      ∀ k n l, Map.badKey k = false →
        (∀ m1 : Map a.Trie a.Nlm, m1.nlm = n0 → Map.putLabel (a.cfg p) m1 r k = .ok ({ m1 with nlm := n }, .ptr l)) →
        ∃ M, Map.update (a.cfg p) m0 k = .ok (M, .ptr l) := by
  have main : ∀ (sb cb0 : Nat) (hsb : 0 < sb) (m : Map a.Trie a.Nlm),
      Map.FreshM (a.trieSpec p sb cb0 hsb) (a.nlmSpec p hp) m → (a.cfg p).L.make ((a.cfg p).T.capaBits m.trie) = .ok m.nlm →
      (∃ m0, a.new p i = .ok m0 ∧ ∀ k', Map.badKey k' = false → Map.update (a.cfg p) m0 k' = (do
          let trie ← (a.cfg p).T.addRoot m.trie
          let node ← (a.cfg p).T.getRoot trie
          Map.putLabel (a.cfg p) { m with size := m.size + 1, trie := trie } node k')) →
      ∃ b r n0 m0, 16 ≤ b ∧ b < 64 ∧ r < 2 ^ b ∧ ((a.cfg p).T.kind = .fkhash → r = 0) ∧ (a.cfg p).L.make b = .ok n0 ∧ a.new p i = .ok m0 ∧
      ∀ k n l, Map.badKey k = false →
        (∀ m1 : Map a.Trie a.Nlm, m1.nlm = n0 → Map.putLabel (a.cfg p) m1 r k = .ok ({ m1 with nlm := n }, .ptr l)) →
        ∃ M, Map.update (a.cfg p) m0 k = .ok (M, .ptr l) := by
    intro sb cb0 hsb m hF hn ⟨m0, hm0, hupd⟩
    obtain ⟨b, r, t, b1, b2, b3, b4, b5, b6, b7, b8⟩ := hF.first_any hn
    rw [Alias.minb] at b1
    exact ⟨b, r, m.nlm, m0, b1, b2, b3, b4, b5, hm0, fun k n l hk hput => ⟨_, (hupd k hk).trans (b8 k n l hput)⟩⟩
  cases i with
  | default =>
    obtain ⟨m, m1, m2, _⟩ := Map.make_ok (TS := a.trieSpec p 13 0 (by decide)) (NS := a.nlmSpec p hp) (cb := 0)
      (by decide) (a.ok p hp _ 0 (by decide)).min (a.cb0_le ..) (by rw [minb]; decide)
    refine main 13 0 (by decide) m m2 (Map.make_inv m1) ⟨_, rfl, ?_⟩
    intro k' hk'
    have hd1 : (Map.default (a.cfg p)).trie = (a.cfg p).T.empty := rfl
    have hd2 : (Map.default (a.cfg p)).isReady = false := rfl
    have hd3 := (a.ok p hp 13 0 (by decide)).empty
    unfold Map.update
    rw [hd1, hd2]
    simp only [hk', Bool.false_eq_true, if_false, hd3, if_true, Bool.not_false]
    rw [show (32 : Nat) = 2 ^ (13 - 8) from rfl, m1]
    simp only [R.bind_ok]
  | make cb lam =>
    obtain ⟨⟨l, rfl⟩, h2⟩ := hi
    have hl : Nat.log2 (2 ^ l) = l := Nat.log2_two_pow
    rw [hl] at h2
    obtain ⟨m, m1, m2, _⟩ := Map.make_ok (TS := a.trieSpec p (8 + l) cb (by omega)) (NS := a.nlmSpec p hp) (cb := cb)
      (by omega) (a.ok p hp _ cb (by omega)).min (a.cb0_le ..) (by rw [minb]; exact h2)
    rw [show 8 + l - 8 = l by omega] at m1
    refine main (8 + l) cb (by omega) m m2 (Map.make_inv m1) ⟨m, m1, ?_⟩
    intro k' hk'
    have hz1 := (a.trieSpec p _ _ _).fresh_size _ m2.trie
    unfold Map.update
    simp only [hk', Bool.false_eq_true, if_false, hz1, if_true, m2.ready, Bool.not_true, R.bind_ok, R.pure_eq]

/-- where the value of the first key is -/
theorem first_offset (a : Alias) (p : Params) (hp : p.Valid) (i : Init) (hi : i.Fits) {k : Key} (hk : ¬ Malformed k)
    (hlen : k.length + p.valSize < 2 ^ 64) :
    ∃ m0 m1 blk, a.new p i = .ok m0 ∧
      Map.update (a.cfg p) m0 k = .ok (m1, .ptr ⟨blk, labelCost a p.valSize k - p.valSize⟩) := by
  obtain ⟨b, r, n0, m0, b1, b2, b3, b4, b5, b6, h⟩ := a.first_update p hp i hi
  have hbad : Map.badKey k = false := by
    have := (badKey_iff k).not.2 hk; simpa using this
  have hne : k ≠ [] := fun e => hk (Or.inl e)
  have hent : (ent (k.dropLast ++ List.replicate p.valSize 0)).length = groups7 (k.length - 1 + p.valSize) + (k.length - 1 + p.valSize) := by
    rw [ent, List.length_append, List.length_append, List.length_dropLast, List.length_replicate,
      ← VByte.size_groups (by omega), VByte.size_eq]
  have cbonsai : ∀ {n0 : CompactBonsaiNlm}, CompactBonsaiNlm.make p.chunkSize b = .ok n0 → ∃ n,
      CompactBonsaiNlm.insert p.chunkSize p.valSize n0 r k = .ok (n, ⟨.heap 0, groups7 (k.length - 1 + p.valSize) + (k.length - 1 + p.valSize) - p.valSize⟩) := by
    intro n0 b5
    obtain ⟨n, n1, _⟩ := CompactBonsaiNlm.first (vs := p.valSize) hp.chunk b1 b5 b3 hne
    rw [hent] at n1
    exact ⟨n, n1⟩
  have cfk : ∀ {n0 : CompactFkNlm}, CompactFkNlm.make b = .ok n0 → ∃ n,
      CompactFkNlm.append p.chunkSize p.valSize n0 k = .ok (n, ⟨.buf 0, groups7 (k.length - 1 + p.valSize) + (k.length - 1 + p.valSize) - p.valSize⟩) := by
    intro n0 b5
    obtain ⟨n, n1, _⟩ := CompactFkNlm.first (W := p.chunkSize) (vs := p.valSize) b5 hne
    rw [hent] at n1
    exact ⟨n, n1⟩
  cases a with
  | plainBonsai =>
    obtain ⟨n, n1, _⟩ := PlainBonsaiNlm.first (vs := p.valSize) b5 b3 k
    obtain ⟨M, hM⟩ := h k n ⟨.heap 0, k.length⟩ hbad (by
      rintro m1 rfl
      show (do let x ← PlainBonsaiNlm.insert p.valSize m1.nlm r k; pure (({ m1 with nlm := x.1 }, .ptr x.2) : Map _ _ × UpdOut)) = _
      rw [n1]; rfl)
    exact ⟨m0, M, .heap 0, b6, by rw [hM]; simp [labelCost]⟩
  | plainFkhash =>
    obtain ⟨n, n1, _⟩ := PlainFkNlm.first (vs := p.valSize) b5 k
    obtain ⟨M, hM⟩ := h k n ⟨.heap 0, k.length⟩ hbad (by
      rintro m1 rfl
      show (do let x ← PlainFkNlm.append p.valSize m1.nlm k; pure (({ m1 with nlm := x.1 }, .ptr x.2) : Map _ _ × UpdOut)) = _
      rw [n1]; rfl)
    exact ⟨m0, M, .heap 0, b6, by rw [hM]; simp [labelCost]⟩
  | semiCompactBonsai =>
    obtain ⟨n, n1⟩ := cbonsai b5
    obtain ⟨M, hM⟩ := h k n _ hbad (by
      rintro m1 rfl
      show (do let x ← CompactBonsaiNlm.insert p.chunkSize p.valSize m1.nlm r k; pure (({ m1 with nlm := x.1 }, .ptr x.2) : Map _ _ × UpdOut)) = _
      rw [n1]; rfl)
    exact ⟨m0, M, .heap 0, b6, hM⟩
  | compactBonsai =>
    obtain ⟨n, n1⟩ := cbonsai b5
    obtain ⟨M, hM⟩ := h k n _ hbad (by
      rintro m1 rfl
      show (do let x ← CompactBonsaiNlm.insert p.chunkSize p.valSize m1.nlm r k; pure (({ m1 with nlm := x.1 }, .ptr x.2) : Map _ _ × UpdOut)) = _
      rw [n1]; rfl)
    exact ⟨m0, M, .heap 0, b6, hM⟩
  | semiCompactFkhash =>
    obtain ⟨n, n1⟩ := cfk b5
    obtain ⟨M, hM⟩ := h k n _ hbad (by
      rintro m1 rfl
      show (do let x ← CompactFkNlm.append p.chunkSize p.valSize m1.nlm k; pure (({ m1 with nlm := x.1 }, .ptr x.2) : Map _ _ × UpdOut)) = _
      rw [n1]; rfl)
    exact ⟨m0, M, .buf 0, b6, hM⟩
  | compactFkhash =>
    obtain ⟨n, n1⟩ := cfk b5
    obtain ⟨M, hM⟩ := h k n _ hbad (by
      rintro m1 rfl
      show (do let x ← CompactFkNlm.append p.chunkSize p.valSize m1.nlm k; pure (({ m1 with nlm := x.1 }, .ptr x.2) : Map _ _ × UpdOut)) = _
      rw [n1]; rfl)
    exact ⟨m0, M, .buf 0, b6, hM⟩

end Alias
end Poplar
