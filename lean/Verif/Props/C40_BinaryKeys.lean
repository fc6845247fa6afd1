import Verif.Props.Demo
import Verif.Props.C14_InteriorNul
/-
  C40: keys with NUL bytes inside. The maps are dictionaries for every set of keys none of which is a proper prefix of
  another one; and prefix-freeness is necessary.
-/
namespace Poplar.Props
open Poplar Poplar.Spec

variable {a : Alias} {p : Params} {i : Init} {os : List Op}

/-- the well-formed keys mentioned in a history -/
def usedKeys (os : List Op) (k : Key) : Prop := ¬ Malformed k ∧ ∃ o ∈ os, o.key? = some k

/-- **C40** Binary keys. If every well-formed key mentioned in the history ends with NUL (that is what well-formed means) and
none is a proper prefix of another one, everything the user sees is what an abstract dictionary answers. No byte is
forbidden inside the keys. -/
theorem C40_prefix_free (hp : p.Valid) (hi : i.Fits)
    (hlen : ∀ k, usedKeys os k → k.length + p.valSize < 2 ^ 64)
    (hpf : ∀ k k', usedKeys os k → usedKeys os k' → k <+: k' → k = k')
    (hval : ∀ k v, .write k v ∈ os → v.length = p.valSize)
    (hz : a.AssertOk p os) (hA : SmallAlphabet os) :
    Returns (a.AtLimit p i os) (a.history p i os) (Spec.run p.valSize [] os).2 := by
  refine Alias.history_spec (K := usedKeys os) ⟨hp, hi, ⟨fun k hk => not_malformed_iff.1 hk.1, hlen, ?_⟩, ?_, hz⟩ hA
  · intro k l hk hl
    by_cases he : k = l
    · exact Or.inl he
    · exact Or.inr ⟨fun h => he (hpf k l hk hl h), fun h => he (hpf l k hl hk h).symm⟩
  · intro o ho
    refine ⟨fun k e => ?_, fun k v e => ?_⟩
    · by_cases hm : Malformed k
      · exact Or.inr hm
      · exact Or.inl ⟨hm, o, ho, e⟩
    · subst e; exact hval k v ho

/-- **C40** Fixed-length keys: `n` arbitrary bytes (an integer, a hash value, a struct) followed by a NUL byte. -/
theorem C40_fixed_length (hp : p.Valid) (hi : i.Fits) {n : Nat} (hn : n + 1 + p.valSize < 2 ^ 64)
    (hkey : ∀ o ∈ os, ∀ k, o.key? = some k → ∃ s : List UInt8, s.length = n ∧ k = s ++ [0])
    (hval : ∀ k v, .write k v ∈ os → v.length = p.valSize)
    (hz : a.AssertOk p os) (hA : SmallAlphabet os) :
    Returns (a.AtLimit p i os) (a.history p i os) (Spec.run p.valSize [] os).2 := by
  have hl : ∀ k, usedKeys os k → k.length = n + 1 := by
    rintro k ⟨_, o, ho, e⟩
    obtain ⟨s, s1, rfl⟩ := hkey o ho k e
    simp [s1]
  refine C40_prefix_free hp hi (fun k hk => by rw [hl k hk]; exact hn) ?_ hval hz hA
  intro k k' hk hk' h
  exact h.eq_of_length (by rw [hl k hk, hl k' hk'])

/-- **C40** Prefix-freeness is exactly what is needed: for two different well-formed keys, all histories over these two keys are
answered like a dictionary if and only if neither key is a prefix of the other. -/
theorem C40_boundary (a : Alias) (hp : p.Valid) (hd : p.dbg = false) (hi : i.Fits) {k k' : Key} (hk : ¬ Malformed k) (hk' : ¬ Malformed k')
    (hne : k ≠ k') (hl : k.length + p.valSize < 2 ^ 64) (hl' : k'.length + p.valSize < 2 ^ 64)
    (hA : SmallAlphabet [.update k, .update k']) :
    (∀ (os : List Op) (o : Op), (∀ x ∈ os ++ [o], ∀ q, x.key? = some q → q = k ∨ q = k') →
        (∀ q v, .write q v ∈ os ++ [o] → v.length = p.valSize) →
        Returns (a.AtLimit p i (os ++ [o])) (a.answer p i os o) (Spec.step p.valSize (Spec.run p.valSize [] os).1 o).2) ↔
      ¬ k <+: k' ∧ ¬ k' <+: k := by
  constructor
  · -- necessity: C14
    have main : ∀ k k' : Key, ¬ Malformed k → ¬ Malformed k' → k ≠ k' → k'.length + p.valSize < 2 ^ 64 →
        (∀ o, Returns (a.AtLimit p i ([.update k'] ++ [.find k])) (a.answer p i [.update k'] (.find k)) o →
          o ≠ (Spec.step p.valSize (Spec.run p.valSize [] [.update k']).1 (.find k)).2) ∨
        (∀ o, Returns (a.AtLimit p i ([.update k] ++ [.find k'])) (a.answer p i [.update k] (.find k')) o →
          o ≠ (Spec.step p.valSize (Spec.run p.valSize [] [.update k]).1 (.find k')).2) ∨ ¬ k <+: k' := by
      intro k k' hk hk' hne hlen'
      by_cases hpre : k <+: k'
      · obtain ⟨t, rfl⟩ := hpre
        have ht : ¬ Malformed t := by
          obtain ⟨s, hs⟩ := not_malformed_iff.1 hk'
          have htn : t ≠ [] := fun e => hne (by rw [e]; simp)
          obtain ⟨u, c, rfl⟩ : ∃ u c, t = u ++ [c] := ⟨t.dropLast, t.getLast htn, (List.dropLast_append_getLast htn).symm⟩
          rw [← List.append_assoc] at hs
          have := List.append_inj_right' hs rfl
          rw [this]
          exact not_malformed_iff.2 ⟨u, rfl⟩
        have hgn : (Spec.step p.valSize (Spec.run p.valSize [] [.update (k ++ t)]).1 (.find k)).2 = .found none := by
          have : k ++ t ≠ k := fun e => hne e.symm
          simp [Spec.run, Spec.step, hk, hk', Dict.get, Dict.set, this]
        have hgn' : (Spec.step p.valSize (Spec.run p.valSize [] [.update k]).1 (.find (k ++ t))).2 = .found none := by
          simp [Spec.run, Spec.step, hk, hk', Dict.get, Dict.set, hne]
        rw [hgn, hgn']
        by_cases ha : PlainLabels a
        · left
          intro o ho
          rw [C14_prefix_found a ha p hp i hi k t hk ht] at ho
          rcases ho with ho | ⟨_, ho | ho⟩
          · injection ho with ho; rw [← ho]; simp
          · cases ho
          · cases ho
        · right; left
          intro o ho
          rw [C14_extension_found a ha p hp i hi k t hk ht (by simp only [List.length_append] at hlen'; omega)] at ho
          rcases ho with ho | ⟨_, ho | ho⟩
          · injection ho with ho; rw [← ho]; simp
          · cases ho
          · cases ho
      · exact Or.inr (Or.inr hpre)
    intro h
    have use : ∀ q q' : Key, (q = k ∨ q = k') → (q' = k ∨ q' = k') →
        Returns (a.AtLimit p i ([.update q] ++ [.find q'])) (a.answer p i [.update q] (.find q'))
          (Spec.step p.valSize (Spec.run p.valSize [] [.update q]).1 (.find q')).2 := by
      intro q q' hq hq'
      refine h [.update q] (.find q') ?_ ?_
      · intro x hx r hr
        simp only [List.cons_append, List.nil_append, List.mem_cons, List.not_mem_nil, or_false] at hx
        rcases hx with rfl | rfl <;> (injection hr with hr; subst hr; assumption)
      · intro q v hm; simp at hm
    constructor
    · rcases main k k' hk hk' hne hl' with m | m | m
      · exact absurd rfl (m _ (use k' k (Or.inr rfl) (Or.inl rfl)))
      · exact absurd rfl (m _ (use k k' (Or.inl rfl) (Or.inr rfl)))
      · exact m
    · rcases main k' k hk' hk (Ne.symm hne) hl with m | m | m
      · exact absurd rfl (m _ (use k k' (Or.inl rfl) (Or.inr rfl)))
      · exact absurd rfl (m _ (use k' k (Or.inr rfl) (Or.inl rfl)))
      · exact m
  · -- sufficiency
    rintro ⟨h1, h2⟩ os o hkey hval
    have hK : KeySet p.valSize (fun q => q = k ∨ q = k') := by
      refine ⟨?_, ?_, ?_⟩
      · rintro q (rfl | rfl)
        · exact not_malformed_iff.1 hk
        · exact not_malformed_iff.1 hk'
      · rintro q (rfl | rfl)
        · exact hl
        · exact hl'
      · rintro q r (rfl | rfl) (rfl | rfl)
        · exact Or.inl rfl
        · exact Or.inr ⟨h1, h2⟩
        · exact Or.inr ⟨h2, h1⟩
        · exact Or.inl rfl
    refine Alias.answer_spec (K := fun q => q = k ∨ q = k') ⟨hp, hi, hK, ?_, Or.inr (Or.inl hd)⟩ ?_
    · intro x hx
      exact ⟨fun q e => Or.inl (hkey x hx q e), fun q v e => hval q v (e ▸ hx)⟩
    · obtain ⟨A, A1, A2⟩ := hA
      refine ⟨A, A1, ?_⟩
      have hin : inserted [.update k, .update k'] = [k, k'] := by simp [inserted, Op.inserts, hk, hk']
      rw [hin] at A2
      intro q hq
      obtain ⟨x, hx, hxi⟩ := List.mem_filterMap.1 hq
      have := hkey x hx q (inserts_key hxi).1
      exact A2 q (by simpa using this)

/-- 16-bit integers, little endian, as keys: 0, 1, 256, 255 -/
def ints : List Op :=
  [.write [0, 0, 0] [1, 2, 3, 4], .write [1, 0, 0] [5, 6, 7, 8], .write [0, 1, 0] [9, 9, 9, 9], .update [255, 0, 0],
   .find [0, 0, 0], .find [1, 0, 0], .find [0, 1, 0], .find [1, 1, 0], .size]

/-- the hypotheses are met: all aliases, release and debug (the first key starts with NUL) -/
example (a : Alias) : a.history demoParams .default ints =
    .ok [.done, .done, .done, .value [0, 0, 0, 0], .found (some [1, 2, 3, 4]), .found (some [5, 6, 7, 8]), .found (some [9, 9, 9, 9]),
      .found none, .count 4] := by
  refine (C40_fixed_length (a := a) (i := .default) (os := ints) (n := 2) demo_valid trivial (by decide) ?_ ?_ (Or.inr (Or.inr (Or.inr ⟨[0, 0], by decide⟩)))
    (small_of [1, 255] (by decide) (by decide))).ok (within a (by decide))
  · intro o ho k hk
    simp only [ints, List.mem_cons, List.not_mem_nil, or_false] at ho
    rcases ho with rfl | rfl | rfl | rfl | rfl | rfl | rfl | rfl | rfl
    all_goals first
      | (injection hk with hk; subst hk; exact ⟨[_, _], rfl, rfl⟩)
      | cases hk
  · intro k v hm
    simp only [ints, List.mem_cons, List.not_mem_nil, or_false, Op.write.injEq, reduceCtorEq] at hm
    rcases hm with ⟨_, rfl⟩ | ⟨_, rfl⟩ | ⟨_, rfl⟩ <;> rfl

/-- both sides of the boundary occur -/
example : (¬ [0, 1, 0] <+: [1, 0, 0] ∧ ¬ [1, 0, 0] <+: ([0, 1, 0] : Key)) ∧ [1, 0] <+: ([1, 0, 0] : Key) := by decide

end Poplar.Props
