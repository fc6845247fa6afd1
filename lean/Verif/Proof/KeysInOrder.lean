import Verif.Proof.Prefixes
import Verif.Spec.Nodes
/-
  The keys of the dictionary are those inserted, in the order of their first insertion.
-/
namespace Poplar
open Spec

namespace Spec

theorem run_dict_keys (vs : Nat) (os : List Op) : ∀ (d : Dict), (d.map (·.1)).Nodup →
    (Spec.run vs d os).1.map (·.1) = (d.map (·.1) ++ inserted os).eraseDups := by
  induction os with
  | nil =>
    intro d hd
    rw [show inserted [] = [] from rfl, List.append_nil, eraseDups_of_nodup hd]; rfl
  | cons o os ih =>
    intro d hd
    have hset : ∀ k v, ((d.set k v).map (·.1)).Nodup ∧ ∀ l, ((d.set k v).map (·.1) ++ l).eraseDups = (d.map (·.1) ++ k :: l).eraseDups := by
      intro k v
      by_cases hk : k ∈ d.map (·.1)
      · rcases Dict.set_keys d k v with ⟨_, e⟩ | ⟨e, _⟩
        · rw [e]
          refine ⟨hd, fun l => ?_⟩
          rw [List.eraseDups_append, List.eraseDups_append, List.cons_removeAll]
          simp [hk]
        · rw [Dict.length_set, if_neg (by rw [Dict.get_eq_none]; exact fun h => h hk)] at e; omega
      · rcases Dict.set_keys d k v with ⟨e, _⟩ | ⟨_, e⟩
        · rw [Dict.length_set, if_pos (Dict.get_eq_none.2 hk)] at e; omega
        · rw [e]
          refine ⟨List.nodup_append.2 ⟨hd, by simp, ?_⟩, fun l => by rw [List.append_assoc]; rfl⟩
          intro x hx y hy exy
          rw [List.mem_singleton] at hy
          exact hk (by rw [← hy, ← exy]; exact hx)
    show (Spec.run vs (Spec.step vs d o).1 os).1.map (·.1) = _
    have hskip : inserted (o :: os) = o.inserts.toList ++ inserted os := by
      simp only [inserted, List.filterMap_cons]; cases o.inserts <;> rfl
    rw [hskip]
    cases o with
    | find k =>
      simp only [Spec.step]
      split <;> exact ih d hd
    | size => exact ih d hd
    | update k =>
      by_cases hm : Malformed k
      · simp only [Spec.step, Op.inserts, hm, if_true]; exact ih d hd
      · simp only [Spec.step, Op.inserts, hm, if_false]
        cases hg : d.get k with
        | none =>
          dsimp only
          rw [ih _ (hset k _).1, (hset k _).2]; rfl
        | some v =>
          dsimp only
          have hk : k ∈ d.map (·.1) := by
            by_contra hc
            rw [Dict.get_eq_none.2 hc] at hg; cases hg
          rw [ih d hd, List.eraseDups_append, List.eraseDups_append, Option.toList, List.cons_append, List.nil_append, List.cons_removeAll]
          simp [hk]
    | write k v =>
      by_cases hm : Malformed k
      · simp only [Spec.step, Op.inserts, hm, if_true]; exact ih d hd
      · simp only [Spec.step, Op.inserts, hm, if_false]
        rw [ih _ (hset k _).1, (hset k _).2]; rfl

theorem AState.keys_eq {vs : Nat} {os : List Op} (hA : SmallAlphabet os) {s : AState} {ys : List Out}
    (hs : AState.run vs {} os = some (s, ys)) : s.dict.map (·.1) = keysInOrder os := by
  obtain ⟨bs, hb⟩ := hA.run (vs := vs)
  rw [hs] at hb
  injection hb with hb
  injection hb with hb _
  rw [hb]
  exact run_dict_keys vs os [] (by simp)

end Spec
end Poplar
