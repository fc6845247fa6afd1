import Verif.Proof.History
/-
  Histories that exhaust the byte codes.
-/
namespace Poplar
open Spec

namespace Alias
variable {a : Alias} {p : Params} {i : Init} {K : Key → Prop} {os : List Op}

theorem exhaustion (h : a.Admissible p i K os) :
    Returns (a.AtLimit p i os) (a.history p i os) (Spec.run p.valSize [] os).2 ∨
    ∃ os1 o k os2 bad, os = os1 ++ o :: os2 ∧ o.inserts = some k ∧ k ∉ inserted os1 ∧
      ¬ SmallAlphabet (os1 ++ [o]) ∧ bad ≠ 0 ∧
      ∀ os3, a.Admissible p i K (os1 ++ o :: os3) → (∀ k ∈ inserted os3, bad ∉ k) →
        Returns (a.AtLimit p i (os1 ++ o :: os3)) (a.history p i (os1 ++ o :: os3))
          ((Spec.run p.valSize [] os1).2 ++ Out.exn :: (Spec.run p.valSize (Spec.run p.valSize [] os1).1 os3).2) := by
  rcases AState.run_any p.valSize os {} AState.Wf.init (by decide) with ⟨bs, hb⟩ | ⟨os1, o, k, os2, s1, r1, r2, r3, r4, r5, r6, r7⟩
  · exact Or.inl (history_exact h hb)
  · right
    obtain ⟨bad, b1, b2, b3⟩ := AState.one_left r4 r5
    refine ⟨os1, o, k, os2, bad, r1, r2, ?_, ?_, b1, ?_⟩
    · intro hc
      exact (Spec.get_ne_none p.valSize os1 k).2 hc r3
    · intro hA
      obtain ⟨bs, hb⟩ := hA.run (vs := p.valSize)
      rw [r7, Spec.run_append] at hb
      injection hb with hb
      injection hb with _ hb
      have := List.append_cancel_left hb
      simp only [Spec.run] at this
      injection this with this
      have hm := (Spec.inserts_key r2).2.2
      revert this
      cases o with
      | find k' => cases r2
      | size => cases r2
      | update k' =>
        have := (Spec.inserts_key r2).1
        injection this with this; subst this
        simp only [step, hm, if_false]
        cases Dict.get (Spec.run p.valSize [] os1).1 k' <;> simp
      | write k' v =>
        have := (Spec.inserts_key r2).1
        injection this with this; subst this
        simp [step, hm]
    · intro os3 hadm hav
      have e2 := AState.run_avoid p.valSize os3 s1 b3 hav
      have : AState.run p.valSize {} ((os1 ++ [o]) ++ os3) = some (⟨(Spec.run p.valSize s1.dict os3).1, s1.bytes⟩,
          ((Spec.run p.valSize [] os1).2 ++ [Out.exn]) ++ (Spec.run p.valSize s1.dict os3).2) := by
        rw [AState.run_append, r7]
        simp only [Option.bind_some, e2]
        rfl
      rw [show (os1 ++ [o]) ++ os3 = os1 ++ o :: os3 by simp] at this
      have := history_exact hadm this
      rw [r6] at this
      simpa using this

end Alias
end Poplar
