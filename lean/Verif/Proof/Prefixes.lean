import Verif.Proof.Tally
/-
  The characters of the stored parts, counted: with the characters on the edges of the trie, they are the different non-empty
  prefixes of the keys.
-/
namespace Poplar.Spec

theorem eraseDups_of_nodup {α : Type} [BEq α] [LawfulBEq α] : ∀ {l : List α}, l.Nodup → l.eraseDups = l := by
  intro l
  induction l with
  | nil => intro _; rfl
  | cons a l ih =>
    intro h
    rw [List.nodup_cons] at h
    have e : l.filter (fun b => !b == a) = l := by
      rw [List.filter_eq_self]
      intro b hb
      have : b ≠ a := by rintro rfl; exact h.1 hb
      simpa using this
    rw [List.eraseDups_cons, e, ih h.2]

theorem nodup_eraseDups {α : Type} [BEq α] [LawfulBEq α] : ∀ (n : Nat) (l : List α), l.length ≤ n → l.eraseDups.Nodup := by
  intro n
  induction n with
  | zero => intro l hl; rw [List.length_eq_zero_iff.1 (by omega : l.length = 0)]; simp
  | succ n ih =>
    intro l hl
    cases l with
    | nil => simp
    | cons a l =>
      rw [List.eraseDups_cons, List.nodup_cons]
      refine ⟨by simp, ih _ ?_⟩
      have := List.length_filter_le (fun b => !b == a) l
      simp only [List.length_cons] at hl
      omega

/-- the prefixes of a key -/
theorem mem_prefixes {x q : Key} : (∃ n < x.length, x.take (n + 1) = q) ↔ q ≠ [] ∧ q <+: x := by
  constructor
  · rintro ⟨n, hn, rfl⟩
    refine ⟨?_, List.take_prefix _ _⟩
    intro h
    have := congrArg List.length h
    simp only [List.length_take, List.length_nil] at this
    omega
  · rintro ⟨h1, h2⟩
    have hl := h2.length_le
    have h0 : 0 < q.length := List.length_pos_iff.2 h1
    refine ⟨q.length - 1, by omega, ?_⟩
    rw [show q.length - 1 + 1 = q.length by omega]
    exact (List.prefix_iff_eq_take.1 h2).symm

theorem mem_prefixes_all {ks : List Key} {q : Key} :
    q ∈ ks.flatMap (fun k => (List.range k.length).map fun n => k.take (n + 1)) ↔ q ≠ [] ∧ ∃ x ∈ ks, q <+: x := by
  rw [List.mem_flatMap]
  constructor
  · rintro ⟨x, hx, hq⟩
    rw [List.mem_map] at hq
    obtain ⟨n, hn, e⟩ := hq
    obtain ⟨h1, h2⟩ := mem_prefixes.1 ⟨n, List.mem_range.1 hn, e⟩
    exact ⟨h1, x, hx, h2⟩
  · rintro ⟨h1, x, hx, h2⟩
    obtain ⟨n, hn, e⟩ := mem_prefixes.2 ⟨h1, h2⟩
    exact ⟨x, hx, List.mem_map.2 ⟨n, List.mem_range.2 hn, e⟩⟩

/-- the count depends on the set of the keys only -/
theorem prefixCount_congr {ks ks' : List Key} (h : ∀ k, k ∈ ks ↔ k ∈ ks') : prefixCount ks = prefixCount ks' := by
  unfold prefixCount
  refine (List.Perm.length_eq ((List.perm_ext_iff_of_nodup (nodup_eraseDups _ _ (Nat.le_refl _)) (nodup_eraseDups _ _ (Nat.le_refl _))).2 ?_))
  intro q
  rw [List.mem_eraseDups, List.mem_eraseDups, mem_prefixes_all, mem_prefixes_all]
  simp only [h]

theorem take_prefix_iff_lcp {k x : Key} {j : Nat} (hj : j ≤ k.length) : k.take j <+: x ↔ j ≤ lcp k x := by
  induction k generalizing x j with
  | nil => simp at hj; subst hj; simp
  | cons a k ih =>
    cases j with
    | zero => simp
    | succ j =>
      cases x with
      | nil => simp [lcp]
      | cons b x =>
        rw [List.take_succ_cons, List.cons_prefix_cons, lcp]
        by_cases e : a = b
        · rw [if_pos e, ih (by simpa using hj)]
          exact ⟨fun h => by omega, fun h => ⟨e, by omega⟩⟩
        · rw [if_neg e]
          exact ⟨fun h => absurd h.1 e, fun h => by omega⟩

theorem le_sharedLen {ks : List Key} {k : Key} {j : Nat} (hj : 0 < j) : j ≤ sharedLen ks k ↔ ∃ x ∈ ks, j ≤ lcp k x := by
  induction ks with
  | nil => simp [sharedLen]; omega
  | cons x ks ih =>
    have e : sharedLen (x :: ks) k = max (lcp k x) (sharedLen ks k) := rfl
    rw [e]
    constructor
    · intro h
      rcases Nat.le_total (lcp k x) (sharedLen ks k) with hle | hle
      · rw [Nat.max_eq_right hle] at h
        obtain ⟨y, h1, h2⟩ := ih.1 h
        exact ⟨y, List.mem_cons_of_mem _ h1, h2⟩
      · rw [Nat.max_eq_left hle] at h
        exact ⟨x, List.mem_cons_self, h⟩
    · rintro ⟨y, h1, h2⟩
      rcases List.mem_cons.1 h1 with rfl | h1
      · omega
      · have := ih.2 ⟨y, h1, h2⟩; omega

theorem count_filter_range (n s : Nat) (h : s ≤ n) : ((List.range n).filter (fun j => decide (s ≤ j))).length = n - s := by
  induction n with
  | zero => simp
  | succ n ih =>
    rw [List.range_succ, List.filter_append, List.length_append]
    by_cases hs : s ≤ n
    · rw [ih hs]; simp [hs]; omega
    · have e : s = n + 1 := by omega
      have : (List.range n).filter (fun j => decide (s ≤ j)) = [] := by
        rw [List.filter_eq_nil_iff]
        intro j hj
        have := List.mem_range.1 hj
        simp; omega
      rw [this]; simp [e]

/-- another key adds the prefixes that are longer than what it shares with the others -/
theorem prefixCount_append {ks : List Key} {k : Key} (h : sharedLen ks k ≤ k.length) :
    prefixCount (ks ++ [k]) = prefixCount ks + (k.length - sharedLen ks k) := by
  unfold prefixCount
  rw [List.flatMap_append, List.eraseDups_append, List.length_append]
  congr 1
  rw [List.flatMap_cons, List.flatMap_nil, List.append_nil]
  generalize hP : ks.flatMap (fun k => (List.range k.length).map fun n => k.take (n + 1)) = P
  have e : ((List.range k.length).map fun n => k.take (n + 1)).removeAll P =
      ((List.range k.length).filter (fun j => decide (sharedLen ks k ≤ j))).map fun n => k.take (n + 1) := by
    rw [List.removeAll, List.filter_map]
    congr 1
    apply List.filter_congr
    intro j hj
    have hj := List.mem_range.1 hj
    have hne : k.take (j + 1) ≠ [] := by
      intro hn
      have := congrArg List.length hn
      simp only [List.length_take, List.length_nil] at this
      omega
    have key : (k.take (j + 1) ∈ P) ↔ j + 1 ≤ sharedLen ks k := by
      rw [← hP, mem_prefixes_all, le_sharedLen (by omega)]
      constructor
      · rintro ⟨_, x, h1, h2⟩; exact ⟨x, h1, (take_prefix_iff_lcp (by omega)).1 h2⟩
      · rintro ⟨x, h1, h2⟩; exact ⟨hne, x, h1, (take_prefix_iff_lcp (by omega)).2 h2⟩
    show (!P.elem (k.take (j + 1))) = _
    by_cases hm : k.take (j + 1) ∈ P
    · have := key.1 hm
      rw [List.elem_eq_true_of_mem hm]; simp; omega
    · have : ¬ j + 1 ≤ sharedLen ks k := fun h => hm (key.2 h)
      have h2 : P.elem (k.take (j + 1)) = false := by
        cases he : P.elem (k.take (j + 1)) with
        | false => rfl
        | true => exact absurd (List.mem_of_elem_eq_true he) hm
      rw [h2]; simp; omega
  rw [e, eraseDups_of_nodup, List.length_map, count_filter_range _ _ h]
  rw [List.nodup_iff_pairwise_ne] at *
  rw [List.pairwise_map]
  have hnd : ((List.range k.length).filter (fun j => decide (sharedLen ks k ≤ j))).Pairwise (· ≠ ·) :=
    List.Pairwise.filter _ List.nodup_range
  refine List.Pairwise.imp_of_mem ?_ hnd
  intro a b ha hb hab heq
  have ha := List.mem_range.1 (List.mem_filter.1 ha).1
  have hb := List.mem_range.1 (List.mem_filter.1 hb).1
  have := congrArg List.length heq
  simp only [List.length_take] at this
  omega

/-- no key is a prefix of another one -/
def PrefixFree (ks : List Key) : Prop := ks.Pairwise fun x y => ¬ x <+: y ∧ ¬ y <+: x

theorem sharedLen_lt {ks : List Key} {k : Key} (hk : k ≠ []) (h : ∀ x ∈ ks, ¬ k <+: x) : sharedLen ks k < k.length := by
  by_contra hc
  have h0 : 0 < k.length := List.length_pos_iff.2 hk
  obtain ⟨x, h1, h2⟩ := (le_sharedLen h0).1 (by omega : k.length ≤ sharedLen ks k)
  have := (take_prefix_iff_lcp (Nat.le_refl _)).2 h2
  rw [List.take_length] at this
  exact h x h1 this

theorem storedParts_total (ks : List Key) : PrefixFree ks → (∀ k ∈ ks, k ≠ []) →
    ((storedParts ks).map List.length).sum + (ks.length - 1) = prefixCount ks := by
  induction ks using List.reverseRecOn with
  | nil => intro _ _; rfl
  | append_singleton ks k ih =>
    intro h hne
    have h1 := List.pairwise_append.1 h
    have ih := ih h1.1 (fun x hx => hne x (by simp [hx]))
    have hlt := sharedLen_lt (ks := ks) (hne k (by simp)) (fun x hx => (h1.2.2 x hx k (by simp)).2)
    rw [prefixCount_append (by omega), ← ih, storedParts_append, List.map_append, List.sum_append]
    simp only [List.map_cons, List.map_nil, List.sum_cons, List.sum_nil, List.length_append, List.length_cons, List.length_nil]
    unfold storedPart
    split
    · rename_i e; subst e
      simp [sharedLen]
    · rename_i e
      have := List.length_pos_iff.2 e
      rw [List.length_drop]; omega

/-! ### the keys of a dictionary -/

theorem Dict.get_eq_none {d : Dict} {k : Key} : d.get k = none ↔ k ∉ d.map (·.1) := by
  induction d with
  | nil => simp [Dict.get]
  | cons e d ih =>
    obtain ⟨k', v⟩ := e
    simp only [Dict.get, List.map_cons, List.mem_cons]
    by_cases h : k' = k
    · simp [h]
    · rw [if_neg h, ih]
      exact ⟨fun h1 h2 => h2.elim (fun e => h e.symm) h1, fun h1 h2 => h1 (Or.inr h2)⟩

theorem Dict.set_nodup {d : Dict} (h : (d.map (·.1)).Nodup) (k : Key) (v : Val) : ((d.set k v).map (·.1)).Nodup := by
  rcases Dict.set_keys d k v with ⟨_, e⟩ | ⟨e1, e⟩
  · rw [e]; exact h
  · rw [e]
    rw [Dict.length_set] at e1
    split at e1
    · rename_i hn
      rw [Dict.get_eq_none] at hn
      rw [List.nodup_append]
      refine ⟨h, by simp, ?_⟩
      intro a ha b hb
      rw [List.mem_singleton] at hb
      subst hb
      rintro rfl
      exact hn ha
    · omega

theorem step_nodup {vs : Nat} {d : Dict} (h : (d.map (·.1)).Nodup) (o : Op) : (((step vs d o).1).map (·.1)).Nodup := by
  cases o with
  | find k => simp only [step]; split <;> exact h
  | size => exact h
  | update k =>
    simp only [step]
    split
    · exact h
    · split
      · exact h
      · exact Dict.set_nodup h _ _
  | write k v =>
    simp only [step]
    split
    · exact h
    · exact Dict.set_nodup h _ _

theorem AState.step_nodup {vs : Nat} {s s' : AState} {o : Op} {x : Out} (h : s.step vs o = some (s', x)) (hn : (s.dict.map (·.1)).Nodup) :
    (s'.dict.map (·.1)).Nodup := by
  unfold AState.step at h
  split at h
  · injection h with h; injection h with h _; subst h; exact Spec.step_nodup hn _
  · split at h
    · injection h with h; injection h with h _; subst h; exact Spec.step_nodup hn _
    · split at h
      · injection h with h; injection h with h _; subst h; exact hn
      · cases h

theorem AState.run_nodup {vs : Nat} : ∀ {os : List Op} {s s' : AState} {xs : List Out}, AState.run vs s os = some (s', xs) →
    (s.dict.map (·.1)).Nodup → (s'.dict.map (·.1)).Nodup := by
  intro os
  induction os with
  | nil => intro s s' xs h hn; cases h; exact hn
  | cons o os ih =>
    intro s s' xs h hn
    obtain ⟨s1, x, ys, f1, f2, _⟩ := AState.run_cons h
    exact ih f2 (AState.step_nodup f1 hn)

/-- the keys stored by a history that respects the key discipline are prefix-free -/
theorem KeySet.prefixFree {vs : Nat} {K : Key → Prop} (hK : KeySet vs K) {ks : List Key} (h : ∀ k ∈ ks, K k) (hn : ks.Nodup) : PrefixFree ks := by
  refine List.Pairwise.imp_of_mem ?_ hn
  intro a b ha hb hab
  exact (hK.sep a b (h a ha) (h b hb)).resolve_left hab

end Poplar.Spec
