import Verif.Props.Demo
import Verif.Proof.DebugAssert
/-
  C30: the assertion `key != 0` of plain_fkhash_trie.hpp:104 is wrong.
-/
namespace Poplar.Props
open Poplar Poplar.Spec

variable {a : Alias} {p : Params} {i : Init} {K : Key → Prop} {os : List Op} {k : Key}

/-- **C30** Debug builds of the two maps that use `plain_fkhash_trie`: inserting a key that starts with
NUL (for C strings: the empty string) into a map whose first key does not start with NUL aborts. -/
theorem C30_debug_assertion (ha : a.plainFk = true) (hd : p.dbg = true) (h : a.Admissible p i K os)
    (hs : Supported p.valSize os) (hk : (inserted os).head? = some k) (hk0 : k.head? ≠ some 0) {l : Key} (hl : K (0 :: l)) :
    a.answer p i os (.update (0 :: l)) = .error .assertion ∨
    (a.AtLimit p i (os ++ [.update (0 :: l)]) ∧
      (a.answer p i os (.update (0 :: l)) = .error .limit ∨ a.answer p i os (.update (0 :: l)) = .error .throw)) :=
  Alias.debug_assertion ha hd h hs hk hk0 hl

/-- **C30** Release builds insert the empty string like any other key, whatever the first key is. -/
theorem C30_release_correct (hp : p.Valid) (hd : p.dbg = false) (hi : i.Fits) (hl : ∀ o ∈ os, o.Legal p.valSize (CStrings p.valSize))
    (hs : SmallAlphabet os) (hnew : [0] ∉ inserted os) :
    Returns (a.AtLimit p i (os ++ [.update [0]])) (a.answer p i os (.update [0])) (.value (List.replicate p.valSize 0)) ∧
    Returns (a.AtLimit p i (os ++ [.update [0], .find [0], .size]))
      (a.history p i (os ++ [.update [0], .find [0], .size]))
      ((Spec.run p.valSize [] os).2 ++ [.value (List.replicate p.valSize 0), .found (some (List.replicate p.valSize 0)),
        .count (distinct (inserted os) + 1)]) := by
  have hz : CString [0] := ⟨[], by simp, rfl⟩
  have hzl : ([0] : Key).length + p.valSize < 2 ^ 64 := by have := hp.val64; simp; omega
  have hzm : ¬ Malformed [0] := by decide
  have hleg : ∀ o ∈ [Op.update [0], .find [0], .size], o.Legal p.valSize (CStrings p.valSize) := by
    intro o ho
    simp only [List.mem_cons, List.not_mem_nil, or_false] at ho
    rcases ho with rfl | rfl | rfl
    · exact ⟨fun k e => by injection e with e; subst e; exact Or.inl ⟨hz, hzl⟩, fun k v e => by cases e⟩
    · exact ⟨fun k e => by injection e with e; subst e; exact Or.inl ⟨hz, hzl⟩, fun k v e => by cases e⟩
    · exact ⟨fun k e => (by cases e), fun k v e => (by cases e)⟩
  have hadm : ∀ os' : List Op, (∀ o ∈ os', o ∈ [Op.update [0], .find [0], .size]) → a.Admissible p i (CStrings p.valSize) (os ++ os') := by
    intro os' h
    refine ⟨hp, hi, keySet_cstrings _, fun o ho => ?_, Or.inr (Or.inl hd)⟩
    rcases List.mem_append.1 ho with ho | ho
    · exact hl o ho
    · exact hleg o (h o ho)
  have hA : ∀ os' : List Op, (∀ o ∈ os', o ∈ [Op.update [0], .find [0], .size]) → SmallAlphabet (os ++ os') := by
    intro os' h
    obtain ⟨A, A1, A2⟩ := hs
    refine ⟨A, A1, fun k hk => ?_⟩
    rw [Spec.inserted_append] at hk
    rcases List.mem_append.1 hk with hk | hk
    · exact A2 k hk
    · obtain ⟨o, ho, hok⟩ := List.mem_filterMap.1 hk
      have := h o ho
      simp only [List.mem_cons, List.not_mem_nil, or_false] at this
      rcases this with rfl | rfl | rfl
      · simp only [Op.inserts, hzm, if_false, Option.some.injEq] at hok
        subst hok
        intro c hc hc0
        simp only [List.mem_cons, List.not_mem_nil, or_false] at hc
        exact absurd hc hc0
      · cases hok
      · cases hok
  have hg : (Spec.run p.valSize [] os).1.get [0] = none := by
    apply Classical.byContradiction
    intro hc; exact hnew ((Spec.get_ne_none _ _ _).1 hc)
  constructor
  · have := Alias.answer_spec (hadm [.update [0]] (by simp)) (hA _ (by simp))
    simp only [step, hzm, if_false, hg] at this
    exact this
  · have := Alias.history_spec (hadm [.update [0], .find [0], .size] (by simp)) (hA _ (by simp))
    rw [Spec.run_append] at this
    simp only [Spec.run, step, hzm, if_false, hg, Dict.get_set, if_true, Dict.length_set, Spec.length_run] at this
    exact this

/-- the hypotheses are met: `demo` does not insert the empty string -/
example : Alias.plainFkhash.answer demoParams .default demo (.update [0]) = .error .assertion :=
  (C30_debug_assertion (os := demo) (p := demoParams) (i := .default) rfl rfl (demo_admissible _ .default trivial demo (by decide) (by decide))
    ((small_of [97, 98, 99, 120] (by decide) (by decide)).supported) (k := [97, 98, 99, 0]) (by decide) (by decide) ⟨⟨[], by decide, rfl⟩, by decide⟩).resolve_right
    (fun h => within (p := demoParams) (os := demo ++ [.update [0]]) _ (by decide) rfl h.1)

example (a : Alias) : a.answer { demoParams with dbg := false } .default demo (.update [0]) = .ok (.value [0, 0, 0, 0]) :=
  (C30_release_correct (os := demo) (i := .default) (p := { demoParams with dbg := false }) ⟨by decide, by decide, by decide⟩ rfl trivial (legal_of (by decide))
    (small_of [97, 98, 99, 120] (by decide) (by decide)) (by decide)).1.ok (within a (by decide))

end Poplar.Props
