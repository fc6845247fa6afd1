import Verif.Proof.Pointers
/-
  The size limit of a map depends on its current capacity only: the state of a map may be seen as that of a map
  whose constructor reserved the capacity it has now.
-/
namespace Poplar
open Spec

namespace Map
variable {τ ν : Type} {cfg : MapCfg τ ν} {sb N N' vs : Nat} {z0 : Prop}
variable {TS : TrieSpec cfg.T sb N z0} {TS' : TrieSpec cfg.T sb N' z0} {NS : NlmSpec cfg.L cfg.T.kind vs}

theorem lp_congr (hT : TS'.T = TS.T) : Lp TS' NS = Lp TS NS := by
  funext t n p e; unfold Lp; rw [hT]

theorem mm_congr (hT : TS'.T = TS.T) (U : List UInt8 → Prop) : MM TS' NS U = MM TS NS U := by
  funext m; unfold MM; rw [lp_congr hT]

theorem State.rebase {U : List UInt8 → Prop} {m : Map τ ν} {d : Dict} (hT : TS'.T = TS.T)
    (hF : TS.Fresh m.trie → TS'.Fresh m.trie) (hI : TS.Inv m.trie → TS'.Inv m.trie) (hr : m.isReady = true)
    (h : State TS NS U m d) : State TS' NS U m d := by
  rcases h with ⟨rfl, _⟩ | ⟨h, hd⟩ | h
  · cases hr
  · exact Or.inr (Or.inl ⟨⟨h.ready, h.sb8, h.lam, h.codes, h.num, hF h.trie, h.nlm, h.noLab, h.fk, h.size, h.steps⟩, hd⟩)
  · refine Or.inr (Or.inr ⟨⟨h.inv.ready, h.inv.sb8, h.inv.lam, h.inv.codes, ⟨hI h.inv.core.trie, h.inv.core.nlm, h.inv.core.nex, ?_⟩,
      h.inv.fk, ?_, ?_, ?_⟩, ?_, ?_, h.size, h.keys, h.nodes, ?_⟩)
    · rw [hT]; exact h.inv.core.labT
    · rw [hT, lp_congr hT]; exact h.inv.shape
    · rw [hT, mm_congr hT]; exact h.inv.lab
    · rw [hT, mm_congr hT]; exact h.inv.cnt
    · rw [mm_congr hT]; exact h.ainv
    · rw [mm_congr hT]; exact h.get
    · rw [mm_congr hT]; exact h.root

end Map

namespace Alias
variable {a : Alias} {p : Params} {i : Init} {K : Key → Prop} {os : List Op}

theorem rebase (hp : p.Valid) {sb cb0 c : Nat} (hsb : 0 < sb) {m : Map a.Trie a.Nlm} {d : Dict}
    (hm : Map.State (a.trieSpec p sb cb0 hsb) (a.nlmSpec p hp) K m d) (hr : m.isReady = true)
    (hc : c ≤ (a.cfg p).T.capaBits m.trie) :
    Map.State (a.trieSpec p sb c hsb) (a.nlmSpec p hp) K m d := by
  refine hm.rebase ?_ ?_ ?_ hr
  · cases a <;> rfl
  · cases a
    all_goals first | exact id | exact fun h => ⟨h.1, hc⟩
  · cases a
    all_goals first | exact id | exact fun h => ⟨h.1, hc⟩

/-- continuing a history: the limit is that of the capacity reached -/
theorem cont_room {os' : List Op} (h : a.Admissible p i K (os ++ os')) {s s' : AState} {ys ys' : List Out}
    (hs : AState.run p.valSize {} os = some (s, ys)) (hs' : AState.run p.valSize s os' = some (s', ys'))
    {m0 m : Map a.Trie a.Nlm} {xs : List Out} (h0 : a.new p i = .ok m0) (h1 : Map.run (a.cfg p) m0 os = .ok (m, xs))
    (hr : m.isReady = true) {b : Nat} (hb : (a.cfg p).T.capaSize m.trie = 2 ^ b) :
    Post (a.nodeLimit p i.symbBits b ≤ nodesFor i.lambda (inserted (os ++ os'))) (Map.run (a.cfg p) m os') (fun x => x.2 = ys') := by
  obtain ⟨hsb, r1, r2, _⟩ := reach h.append_left hs h0 h1
  have hc : (a.cfg p).T.capaBits m.trie = b := by
    have hc : (a.trieSpec p i.symbBits i.capa0 hsb).Fresh m.trie ∨ (a.trieSpec p i.symbBits i.capa0 hsb).Inv m.trie := by
      rcases r1 with ⟨rfl, _, _⟩ | ⟨h, _⟩ | h
      · cases hr
      · exact Or.inl h.trie
      · exact Or.inr h.inv.core.trie
    have := ((a.trieSpec p i.symbBits i.capa0 hsb).capa _ hc).2.2.1
    rw [hb] at this
    exact (Nat.pow_right_injective (Nat.le_refl 2) this).symm
  have r1 := rebase h.params hsb r1 hr (Nat.le_of_eq hc.symm)
  refine (Map.run_exact h.keys (a.ok p h.params _ _ hsb) os' m s r1 r2 (fun o ho => h.legal o (by simp [ho]))
    (h.z0.imp id (fun hz => hz.arun hs)) s' ys' hs' _ (Nat.le_refl _)).mono ?_ (fun x _ hx => hx.1)
  intro hl
  rw [h.init.lambda] at hl
  refine Nat.le_trans hl (nodesFor_mono fun k hk => ?_)
  rw [Spec.inserted_append]
  rcases List.mem_append.1 hk with hk | hk
  · simp [hk]
  · have := AState.run_keys hs hk
    simp only [List.map_nil, List.append_nil] at this
    simp [this]

end Alias
end Poplar
