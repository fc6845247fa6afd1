import Verif.Model.MapRun
import Verif.Proof.Aliases
/-
  The first key of a map: its label is stored at the root, and the next `find` starts by comparing its
  key with it. (For any key accepted by `update`, interior NULs included.)
-/
namespace Poplar
open Spec

namespace Map
variable {τ ν : Type} {cfg : MapCfg τ ν}

theorem make_inv {cb lam : Nat} {m : Map τ ν} (h : make cfg cb lam = .ok m) :
    cfg.L.make (cfg.T.capaBits m.trie) = .ok m.nlm := by
  unfold make at h
  split at h
  · cases h
  · obtain ⟨c, _, h⟩ := R.bind_eq_ok h
    obtain ⟨t, _, h⟩ := R.bind_eq_ok h
    obtain ⟨n, hn, h⟩ := R.bind_eq_ok h
    obtain ⟨cs, _, h⟩ := R.bind_eq_ok h
    cases h
    exact hn

theorem findLoop_first {m : Map τ ν} {f r : Nat} {k : Key} (hk : k ≠ []) :
    (∀ q mt, cfg.L.compare m.nlm r k = .ok (some q, mt) → findLoop cfg m (f + 1) r k = .ok (some q)) ∧
    (∀ e, cfg.L.compare m.nlm r k = .error e → findLoop cfg m (f + 1) r k = .error e) := by
  have he : k.isEmpty = false := by cases k with | nil => exact absurd rfl hk | cons => rfl
  constructor
  · intro q mt h
    unfold findLoop
    simp only [he, Bool.false_eq_true, if_false, h, R.bind_ok, R.pure_eq]
  · intro e h
    unfold findLoop
    simp only [he, Bool.false_eq_true, if_false, h, R.bind_error]

variable {sb N vs : Nat} {z0 : Prop} {TS : TrieSpec cfg.T sb N z0} {NS : NlmSpec cfg.L cfg.T.kind vs}

/-- the first `update` of a constructed map -/
theorem FreshM.first_any {m : Map τ ν} (h : FreshM TS NS m) (hn : cfg.L.make (cfg.T.capaBits m.trie) = .ok m.nlm) :
    ∃ b r t, TS.minb ≤ b ∧ b < 64 ∧ r < 2 ^ b ∧ (cfg.T.kind = .fkhash → r = 0) ∧ cfg.L.make b = .ok m.nlm ∧
      cfg.T.getRoot t = .ok r ∧ cfg.T.size t = 1 ∧
      ∀ k n l, (∀ m1 : Map τ ν, m1.nlm = m.nlm → putLabel cfg m1 r k = .ok ({ m1 with nlm := n }, .ptr l)) →
        (do
          let trie ← cfg.T.addRoot m.trie
          let node ← cfg.T.getRoot trie
          putLabel cfg { m with size := m.size + 1, trie := trie } node k) =
        .ok ({ m with size := m.size + 1, trie := t, nlm := n }, .ptr l) := by
  obtain ⟨t, r, t1, t2, t3, t4, t5, t6, t7, t8⟩ := TS.fresh_root m.trie h.trie
  have hc := TS.capa _ (Or.inl h.trie)
  have hb := TS.T_bound t t2 [] r (by simp [t4])
  refine ⟨cfg.T.capaBits m.trie, r, t, hc.1, hc.2.1, ?_, t8, hn, t3, t5, ?_⟩
  · rw [t7, hc.2.2.1] at hb; exact hb.1
  · intro k n l hp
    rw [t1]; simp only [R.bind_ok, t3]
    exact hp _ rfl

end Map

/-- What the user sees when he inserts one key into a new map and then calls `find`, in terms of the
label map alone. -/
theorem Alias.first (a : Alias) (p : Params) (hp : p.Valid) (i : Init) (hi : i.Fits) :
    ∃ b r n0, 16 ≤ b ∧ b < 64 ∧ r < 2 ^ b ∧ ((a.cfg p).T.kind = .fkhash → r = 0) ∧ (a.cfg p).L.make b = .ok n0 ∧
      ∀ k' n l v0, Map.badKey k' = false →
        (∀ m1 : Map a.Trie a.Nlm, m1.nlm = n0 → Map.putLabel (a.cfg p) m1 r k' = .ok ({ m1 with nlm := n }, .ptr l)) →
        (a.cfg p).L.load n l = .ok v0 →
        ∀ k, Map.badKey k = false →
          (∀ q mt v, (a.cfg p).L.compare n r k = .ok (some q, mt) → (a.cfg p).L.load n q = .ok v →
            a.answer p i [.update k'] (.find k) = .ok (.found (some v))) ∧
          (∀ q mt e, (a.cfg p).L.compare n r k = .ok (some q, mt) → (a.cfg p).L.load n q = .error e →
            a.answer p i [.update k'] (.find k) = .error e) ∧
          ((a.cfg p).L.compare n r k = .error .oob →
            a.answer p i [.update k'] (.find k) = .error .oob) := by
  -- a constructed map
  have main : ∀ (sb cb0 : Nat) (hsb : 0 < sb) (m : Map a.Trie a.Nlm),
      Map.FreshM (a.trieSpec p sb cb0 hsb) (a.nlmSpec p hp) m → (a.cfg p).L.make ((a.cfg p).T.capaBits m.trie) = .ok m.nlm →
      (∃ m0, a.new p i = .ok m0 ∧ ∀ k', Map.badKey k' = false → Map.update (a.cfg p) m0 k' = (do
          let trie ← (a.cfg p).T.addRoot m.trie
          let node ← (a.cfg p).T.getRoot trie
          Map.putLabel (a.cfg p) { m with size := m.size + 1, trie := trie } node k')) →
      ∃ b r n0, 16 ≤ b ∧ b < 64 ∧ r < 2 ^ b ∧ ((a.cfg p).T.kind = .fkhash → r = 0) ∧ (a.cfg p).L.make b = .ok n0 ∧
      ∀ k' n l v0, Map.badKey k' = false →
        (∀ m1 : Map a.Trie a.Nlm, m1.nlm = n0 → Map.putLabel (a.cfg p) m1 r k' = .ok ({ m1 with nlm := n }, .ptr l)) →
        (a.cfg p).L.load n l = .ok v0 →
        ∀ k, Map.badKey k = false →
          (∀ q mt v, (a.cfg p).L.compare n r k = .ok (some q, mt) → (a.cfg p).L.load n q = .ok v →
            a.answer p i [.update k'] (.find k) = .ok (.found (some v))) ∧
          (∀ q mt e, (a.cfg p).L.compare n r k = .ok (some q, mt) → (a.cfg p).L.load n q = .error e →
            a.answer p i [.update k'] (.find k) = .error e) ∧
          ((a.cfg p).L.compare n r k = .error .oob →
            a.answer p i [.update k'] (.find k) = .error .oob) := by
    intro sb cb0 hsb m hF hn ⟨m0, hm0, hupd⟩
    obtain ⟨b, r, t, b1, b2, b3, b4, b5, b6, b7, b8⟩ := hF.first_any hn
    rw [Alias.minb] at b1
    refine ⟨b, r, m.nlm, b1, b2, b3, b4, b5, ?_⟩
    intro k' n l v0 hk' hput hl k hk
    have hu := (hupd k' hk').trans (b8 k' n l hput)
    generalize hM : ({ m with size := m.size + 1, trie := t, nlm := n } : Map a.Trie a.Nlm) = M at hu
    have hMn : M.nlm = n := by rw [← hM]
    have hMt : M.trie = t := by rw [← hM]
    have hMr : M.isReady = true := by rw [← hM]; exact hF.ready
    have hrun : Map.run (a.cfg p) m0 [.update k'] = .ok (M, [.value v0]) := by
      simp only [Map.run, Map.exec, hu, R.bind_ok, Map.load, hMn, hl, R.pure_eq]
    have hfind : Map.find (a.cfg p) M k = Map.findLoop (a.cfg p) M (k.length + 1) r k := by
      unfold Map.find
      simp only [hk, hMr, hMt, b7, b6, Bool.false_eq_true, if_false, Bool.not_true, Bool.false_or, Nat.one_ne_zero,
        decide_false, R.bind_ok]
    have hkne : k ≠ [] := by rintro rfl; cases hk
    obtain ⟨f1, f2⟩ := Map.findLoop_first (cfg := a.cfg p) (m := M) (f := k.length) (r := r) hkne
    rw [hMn] at f1 f2
    have hans : a.answer p i [.update k'] (.find k) = (Map.exec (a.cfg p) M (.find k)).map (·.2) := by
      unfold Alias.answer
      rw [hm0, R.bind_ok, hrun, R.bind_ok]
      dsimp only
      cases Map.exec (a.cfg p) M (.find k) <;> rfl
    refine ⟨?_, ?_, ?_⟩
    · intro q mt v hc hv
      rw [hans]
      simp only [Map.exec, hfind, f1 q mt hc, Map.load, hMn, hv, R.bind_ok, R.pure_eq]
      rfl
    · intro q mt e hc hv
      rw [hans]
      simp only [Map.exec, hfind, f1 q mt hc, Map.load, hMn, hv, R.bind_error]
      rfl
    · intro hc
      rw [hans]
      simp only [Map.exec, hfind, f2 _ hc]
      rfl
  cases i with
  | default =>
    obtain ⟨m, m1, m2, _⟩ := Map.make_ok (TS := a.trieSpec p 13 0 (by decide)) (NS := a.nlmSpec p hp) (cb := 0)
      (by decide) (a.ok p hp _ 0 (by decide)).min (a.cb0_le ..) (by rw [minb]; decide)
    refine main 13 0 (by decide) m m2 (Map.make_inv m1) ⟨_, rfl, ?_⟩
    intro k' hk'
    have hd1 : (Map.default (a.cfg p)).trie = (a.cfg p).T.empty := rfl
    have hd2 : (Map.default (a.cfg p)).isReady = false := rfl
    have hd3 := (a.ok p hp 13 0 (by decide)).empty
    unfold Map.update
    rw [hd1, hd2]
    simp only [hk', Bool.false_eq_true, if_false, hd3, if_true, Bool.not_false]
    rw [show (32 : Nat) = 2 ^ (13 - 8) from rfl, m1]
    simp only [R.bind_ok]
  | make cb lam =>
    obtain ⟨⟨l, rfl⟩, h2⟩ := hi
    have hl : Nat.log2 (2 ^ l) = l := Nat.log2_two_pow
    rw [hl] at h2
    obtain ⟨m, m1, m2, _⟩ := Map.make_ok (TS := a.trieSpec p (8 + l) cb (by omega)) (NS := a.nlmSpec p hp) (cb := cb)
      (by omega) (a.ok p hp _ cb (by omega)).min (a.cb0_le ..) (by rw [minb]; exact h2)
    rw [show 8 + l - 8 = l by omega] at m1
    refine main (8 + l) cb (by omega) m m2 (Map.make_inv m1) ⟨m, m1, ?_⟩
    intro k' hk'
    have hz1 := (a.trieSpec p _ _ _).fresh_size _ m2.trie
    unfold Map.update
    simp only [hk', Bool.false_eq_true, if_false, hz1, if_true, m2.ready, Bool.not_true, R.bind_ok, R.pure_eq]

end Poplar
