import Verif.Proof.Aliases
import Verif.Model.MapRun
/-
  From the contracts to the user's observations of the six aliases.
-/
namespace Poplar
open Spec

/-! ### the specification -/

theorem Spec.run_append (vs : Nat) (d : Dict) (os os' : List Op) :
    Spec.run vs d (os ++ os') = ((Spec.run vs (Spec.run vs d os).1 os').1, (Spec.run vs d os).2 ++ (Spec.run vs (Spec.run vs d os).1 os').2) := by
  induction os generalizing d with
  | nil => rfl
  | cons o os ih => simp only [List.cons_append, Spec.run, ih]

theorem Spec.run_length (vs : Nat) (d : Dict) (os : List Op) : (Spec.run vs d os).2.length = os.length := by
  induction os generalizing d with
  | nil => rfl
  | cons o os ih => simp only [Spec.run, List.length_cons, ih]

theorem Spec.cost_append (os os' : List Op) : cost (os ++ os') = cost os + cost os' := by
  simp [cost]

theorem Spec.inserted_append (os os' : List Op) : inserted (os ++ os') = inserted os ++ inserted os' := by
  simp [inserted]

theorem Spec.inserted_not_malformed {os : List Op} {k : Key} (h : k ∈ inserted os) : ¬ Malformed k := by
  simp only [inserted, List.mem_filterMap] at h
  obtain ⟨o, _, h⟩ := h
  cases o <;> simp only [Op.inserts] at h
  · cases h
  · split at h
    · cases h
    next hm => injection h with h; rw [← h]; exact hm
  · split at h
    · cases h
    next hm => injection h with h; rw [← h]; exact hm
  · cases h

theorem Spec.get_run (vs : Nat) (k : Key) (os : List Op) :
    (Spec.run vs [] os).1.get k = lastValue vs k os.reverse := by
  suffices h : ∀ r : List Op, (Spec.run vs [] r.reverse).1.get k = lastValue vs k r by
    rw [← h, List.reverse_reverse]
  intro r
  induction r with
  | nil => rfl
  | cons o r ih =>
    rw [List.reverse_cons, Spec.run_append]
    simp only [Spec.run]
    generalize (Spec.run vs [] r.reverse).1 = d at ih
    cases o with
    | find k' => simp only [step, lastValue]; split <;> exact ih
    | size => exact ih
    | update k' =>
      simp only [step, lastValue]
      by_cases hm : Malformed k'
      · simp [hm, ih]
      · simp only [hm, if_false, not_false_eq_true, and_true]
        by_cases hk : k' = k
        · subst hk
          rw [if_pos rfl, ← ih]
          cases hg : d.get k' with
          | none => simp [Dict.get_set]
          | some v => simp [hg]
        · rw [if_neg hk]
          cases hg : d.get k' with
          | none => simp [Dict.get_set, Ne.symm hk, ih]
          | some v => exact ih
    | write k' v =>
      simp only [step, lastValue]
      by_cases hm : Malformed k'
      · simp [hm, ih]
      · simp only [hm, if_false, not_false_eq_true, and_true]
        by_cases hk : k' = k
        · subst hk; simp [Dict.get_set]
        · simp [Dict.get_set, Ne.symm hk, hk, ih]

theorem Spec.get_ne_none (vs : Nat) (os : List Op) (k : Key) :
    (Spec.run vs [] os).1.get k ≠ none ↔ k ∈ inserted os := by
  rw [Spec.get_run]
  have : k ∈ inserted os ↔ k ∈ inserted os.reverse := by simp [inserted]
  rw [this]
  generalize os.reverse = r
  induction r with
  | nil => simp [lastValue, inserted]
  | cons o r ih =>
    cases o with
    | find k' => simpa [lastValue, inserted, Op.inserts] using ih
    | size => simpa [lastValue, inserted, Op.inserts] using ih
    | update k' =>
      simp only [lastValue, inserted, Op.inserts, List.filterMap_cons]
      by_cases hm : Malformed k'
      · simpa [hm, inserted] using ih
      · by_cases hk : k' = k
        · subst hk; simp [hm]
        · simp only [hm, hk, false_and, if_false, List.mem_cons, Ne.symm hk, false_or]; exact ih
    | write k' v =>
      simp only [lastValue, inserted, Op.inserts, List.filterMap_cons]
      by_cases hm : Malformed k'
      · simpa [hm, inserted] using ih
      · by_cases hk : k' = k
        · subst hk; simp [hm]
        · simp only [hm, hk, false_and, if_false, List.mem_cons, Ne.symm hk, false_or]; exact ih

theorem Spec.distinct_reverse_aux (ks : List Key) (k : Key) :
    distinct (ks ++ [k]) = if k ∈ ks then distinct ks else distinct ks + 1 := by
  induction ks with
  | nil => rfl
  | cons a ks ih =>
    simp only [List.cons_append, distinct, List.mem_append, List.mem_cons, List.not_mem_nil, or_false, ih]
    by_cases h1 : a ∈ ks
    · by_cases h2 : k ∈ ks
      · simp [h1, h2]
      · have : k ≠ a := by rintro rfl; exact h2 h1
        simp [h1, h2, this]
    · by_cases h2 : k = a
      · subst h2; simp [h1]
      · by_cases h3 : k ∈ ks <;> simp [h1, Ne.symm h2, h2, h3]

theorem Spec.length_run (vs : Nat) (os : List Op) :
    (Spec.run vs [] os).1.length = distinct (inserted os) := by
  suffices h : ∀ r : List Op, (Spec.run vs [] r.reverse).1.length = distinct (inserted r.reverse) by
    have := h os.reverse; rwa [List.reverse_reverse] at this
  intro r
  induction r with
  | nil => rfl
  | cons o r ih =>
    have hg := fun k => Spec.get_ne_none vs r.reverse k
    rw [List.reverse_cons, Spec.run_append, Spec.inserted_append]
    simp only [Spec.run]
    generalize (Spec.run vs [] r.reverse).1 = d at ih hg
    generalize inserted r.reverse = ks at ih hg
    have hset : ∀ k v, (d.set k v).length = distinct (ks ++ [k]) := by
      intro k v
      rw [Dict.length_set, Spec.distinct_reverse_aux, ← ih]
      by_cases h : k ∈ ks
      · rw [if_pos h, if_neg ((hg k).2 h)]
      · rw [if_neg h, if_pos (by by_contra h2; exact h ((hg k).1 h2))]
    cases o with
    | find k => simp only [step, inserted, Op.inserts, List.filterMap_cons, List.filterMap_nil, List.append_nil]; split <;> exact ih
    | size => simp only [step, inserted, Op.inserts, List.filterMap_cons, List.filterMap_nil, List.append_nil]; exact ih
    | update k =>
      simp only [step, inserted, Op.inserts, List.filterMap_cons, List.filterMap_nil]
      by_cases hm : Malformed k
      · simpa [hm] using ih
      · simp only [hm, if_false]
        cases hk : d.get k with
        | none => exact hset k _
        | some v =>
          have := (hg k).1 (by rw [hk]; simp)
          simp only
          rw [Spec.distinct_reverse_aux, if_pos this]; exact ih
    | write k v =>
      simp only [step, inserted, Op.inserts, List.filterMap_cons, List.filterMap_nil]
      by_cases hm : Malformed k
      · simpa [hm] using ih
      · simp only [hm, if_false]; exact hset k v

theorem Spec.not_malformed_zero : ¬ Malformed [0] := by decide

/-! ### Returns -/

theorem Post.returns {α β : Type} {lim : Prop} {r : R α} {Q : α → Prop} {f : α → R β} {x : β} (h : Post lim r Q)
    (hf : ∀ a, r = .ok a → Q a → Returns lim (f a) x) : Returns lim (r >>= f) x := by
  cases r with
  | ok a => exact hf a rfl h
  | error e =>
    right
    refine ⟨h.1, ?_⟩
    rcases h.2 with rfl | rfl
    · exact Or.inl rfl
    · exact Or.inr rfl

theorem Returns.post {α : Type} {lim : Prop} {r : R α} {x : α} (h : Returns lim r x) : Post lim r (· = x) := by
  rcases h with rfl | ⟨h1, rfl | rfl⟩
  · rfl
  · exact ⟨h1, Or.inl rfl⟩
  · exact ⟨h1, Or.inr rfl⟩

theorem Returns.ok {α : Type} {lim : Prop} {r : R α} {x : α} (h : Returns lim r x) (hl : ¬ lim) : r = .ok x := by
  rcases h with h | h
  · exact h
  · exact absurd h.1 hl

theorem Returns.mono {α : Type} {lim lim' : Prop} {r : R α} {x : α} (h : Returns lim r x) (hl : lim → lim') :
    Returns lim' r x := h.imp id (fun h => ⟨hl h.1, h.2⟩)

theorem Returns.eq {α : Type} {lim : Prop} {r : R α} {x y : α} (h : Returns lim r x) (e : r = .ok y) : x = y := by
  rcases h with h | ⟨_, h | h⟩ <;> rw [h] at e
  · injection e
  · cases e
  · cases e

theorem Spec.inserted_sum_le (os : List Op) : ((inserted os).map List.length).sum ≤ cost os := by
  induction os with
  | nil => exact Nat.le_refl _
  | cons o os ih =>
    simp only [cost, inserted, List.map_cons, List.sum_cons, List.filterMap_cons] at ih ⊢
    cases hi : o.inserts with
    | none => simp only; omega
    | some k =>
      have := (inserts_key hi).2.1
      simp only [List.map_cons, List.sum_cons]; omega

/-- a crude bound -/
theorem Spec.nodesFor_le_cost (lam : Nat) (os : List Op) : nodesFor lam (inserted os) ≤ cost os := by
  refine Nat.le_trans (nodesFor_le_sum _ ?_) (inserted_sum_le os)
  rintro k hk rfl
  exact inserted_not_malformed hk (Or.inl rfl)

namespace Alias
variable {a : Alias} {p : Params} {i : Init} {K : Key → Prop} {os : List Op}

theorem AssertOk.z0 (h : a.AssertOk p os) : (a.plainFk = false ∨ p.dbg = false) ∨ Map.ZeroOk [] os := by
  rcases h with h | h | h
  · exact Or.inl (Or.inl h)
  · exact Or.inl (Or.inr h)
  · exact Or.inr h

theorem Admissible.z0 (h : a.Admissible p i K os) : (a.plainFk = false ∨ p.dbg = false) ∨ Map.ZeroOk [] os :=
  AssertOk.z0 h.assertOk

theorem AtLimit.mono {os' : List Op} (h : a.AtLimit p i os) (h1 : ∀ k ∈ inserted os, k ∈ inserted os') : a.AtLimit p i os' :=
  Nat.le_trans h (nodesFor_mono h1)

theorem AtLimit.cost (h : a.AtLimit p i os) : a.nodeLimit p i.symbBits i.capa0 ≤ cost os :=
  Nat.le_trans h (nodesFor_le_cost _ _)

theorem AssertOk.mono {os' : List Op} (h : a.AssertOk p os) (h1 : ∀ k ∈ inserted os', k ∈ inserted os)
    (h2 : inserted os' = [] ∨ (inserted os').head? = (inserted os).head?) : a.AssertOk p os' := by
  rcases h with h | h | h | h
  · exact Or.inl h
  · exact Or.inr (Or.inl h)
  · exact Or.inr (Or.inr (Or.inl fun k hc => h k (h1 _ hc)))
  · rcases h2 with h2 | h2
    · exact Or.inr (Or.inr (Or.inl (by rw [h2]; simp)))
    · exact Or.inr (Or.inr (Or.inr (h.imp fun _ h => h2.trans h)))

theorem AssertOk.append_left {os' : List Op} (h : a.AssertOk p (os ++ os')) : a.AssertOk p os := by
  rcases h with h | h | h
  · exact Or.inl h
  · exact Or.inr (Or.inl h)
  · refine Or.inr (Or.inr ?_)
    rw [Spec.inserted_append] at h
    rcases h with h | h
    · left; intro k hc; exact h k (by simp [hc])
    · cases hi : inserted os with
      | nil => left; simp
      | cons k ks => right; rw [hi] at h; simpa using h

theorem Admissible.append_left {os' : List Op} (h : a.Admissible p i K (os ++ os')) : a.Admissible p i K os :=
  ⟨h.params, h.init, h.keys, fun o ho => h.legal o (by simp [ho]), AssertOk.append_left h.assertOk⟩

theorem _root_.Poplar.Init.Fits.lambda {i : Init} (h : i.Fits) : 2 ^ (i.symbBits - 8) = i.lambda := by
  cases i with
  | default => rfl
  | make cb lam =>
    obtain ⟨⟨l, rfl⟩, _⟩ := h
    simp [Init.symbBits, Init.lambda, Nat.log2_two_pow]

theorem rel_empty {m : Map a.Trie a.Nlm} (h : ∀ c, ¬ Map.Coded m c) : Map.Rel m [] :=
  ⟨List.nodup_nil, fun c => ⟨fun hc => absurd hc (h c), fun hc => absurd hc List.not_mem_nil⟩⟩

/-- a map after a history to which the specification gives a meaning -/
theorem after_nost (h : a.Admissible p i K os) {s : AState} {xs : List Out} (hs : AState.run p.valSize {} os = some (s, xs)) :
    ∃ (hsb : 0 < i.symbBits) (m : Map a.Trie a.Nlm), a.new p i = .ok m ∧
      Post (a.AtLimit p i os) (Map.run (a.cfg p) m os) (fun x =>
        (x.2 = xs ∧
        Map.State (a.trieSpec p i.symbBits i.capa0 hsb) (a.nlmSpec p h.params) K x.1 s.dict ∧ Map.Rel x.1 s.bytes ∧
        (a.cfg p).T.size x.1.trie ≤ nodesFor i.lambda (s.dict.map (·.1))) ∧
        ((∀ k ∈ inserted os, k.length ≤ 2 ^ (i.symbBits - 8)) → s.dict ≠ [] →
          Map.NoStep (a.trieSpec p i.symbBits i.capa0 hsb) (a.nlmSpec p h.params) x.1.trie x.1.nlm)) := by
  obtain ⟨hsb, m, h1, h2, h3, h4, _⟩ := a.new_ok p h.params i h.init K
  refine ⟨hsb, m, h1, ?_⟩
  refine (Map.run_exact h.keys (a.ok p h.params _ _ hsb) os m {} h2 (rel_empty h4) h.legal h.z0 s xs hs _ (Nat.le_refl _)).mono ?_ ?_
  · intro hl; rw [h.init.lambda, List.map_nil, List.append_nil] at hl; exact hl
  · rintro x _ ⟨x1, x2, x3, _, x6, _⟩
    have x4 := x2.nodes_le (a.ok p h.params i.symbBits i.capa0 hsb).empty
    rw [h.init.lambda] at x4
    exact ⟨⟨x1, x2, x3, x4⟩, fun hl hd => x6 hl (fun hc => absurd rfl hc) hd⟩

theorem after (h : a.Admissible p i K os) {s : AState} {xs : List Out} (hs : AState.run p.valSize {} os = some (s, xs)) :
    ∃ (hsb : 0 < i.symbBits) (m : Map a.Trie a.Nlm), a.new p i = .ok m ∧
      Post (a.AtLimit p i os) (Map.run (a.cfg p) m os) (fun x =>
        x.2 = xs ∧
        Map.State (a.trieSpec p i.symbBits i.capa0 hsb) (a.nlmSpec p h.params) K x.1 s.dict ∧ Map.Rel x.1 s.bytes ∧
        (a.cfg p).T.size x.1.trie ≤ nodesFor i.lambda (s.dict.map (·.1))) := by
  obtain ⟨hsb, m, h1, h2⟩ := after_nost h hs
  exact ⟨hsb, m, h1, h2.imp (fun _ hx => hx.1)⟩

/-- what the user sees is what the specification says -/
theorem history_exact (h : a.Admissible p i K os) {s : AState} {xs : List Out} (hs : AState.run p.valSize {} os = some (s, xs)) :
    Returns (a.AtLimit p i os) (a.history p i os) xs := by
  obtain ⟨hsb, m, h1, h2⟩ := after h hs
  unfold history
  rw [h1]
  simp only [R.bind_ok]
  refine h2.returns ?_
  rintro ⟨m', xs⟩ _ ⟨h3, _⟩
  exact Or.inl (by rw [← h3]; rfl)

theorem _root_.Poplar.Spec.AState.run_snoc {vs : Nat} {s0 s s' : AState} {xs : List Out} {o : Op} {x : Out}
    (h1 : AState.run vs s0 os = some (s, xs)) (h2 : s.step vs o = some (s', x)) :
    AState.run vs s0 (os ++ [o]) = some (s', xs ++ [x]) := by
  rw [AState.run_append, h1]
  simp only [Option.bind_some, AState.run, h2, Option.bind_eq_bind]
  rfl

theorem answer_exact {o : Op} (h : a.Admissible p i K (os ++ [o])) {s s' : AState} {xs : List Out} {x : Out}
    (hs : AState.run p.valSize {} os = some (s, xs)) (ho : s.step p.valSize o = some (s', x)) :
    Returns (a.AtLimit p i (os ++ [o])) (a.answer p i os o) x := by
  obtain ⟨hsb, m, h1, h2⟩ := after h (AState.run_snoc hs ho)
  obtain ⟨_, m', h1', h2'⟩ := after h.append_left hs
  rw [h1] at h1'; injection h1' with h1'; subst h1'
  unfold answer
  rw [h1]
  simp only [R.bind_ok]
  rw [Map.run_append] at h2
  cases hr : Map.run (a.cfg p) m os with
  | error e =>
    rw [hr] at h2
    right
    refine ⟨h2.1, ?_⟩
    rcases h2.2 with rfl | rfl
    · exact Or.inl rfl
    · exact Or.inr rfl
  | ok y =>
    obtain ⟨m1, ys⟩ := y
    rw [hr] at h2 h2'
    simp only [R.bind_ok] at h2 ⊢
    have hys : ys = xs := h2'.1
    simp only [Map.run] at h2
    cases he : Map.exec (a.cfg p) m1 o with
    | error e =>
      rw [he] at h2
      right
      refine ⟨h2.1, ?_⟩
      rcases h2.2 with rfl | rfl
      · exact Or.inl rfl
      · exact Or.inr rfl
    | ok z =>
      obtain ⟨m2, z⟩ := z
      rw [he] at h2
      simp only [R.bind_ok, R.pure_eq] at h2 ⊢
      have h3 := h2.1
      rw [hys] at h3
      have := List.append_cancel_left h3
      injection this with this
      exact Or.inl (by rw [this])

/-- histories over at most 253 byte values besides NUL have the meaning of a dictionary -/
theorem _root_.Poplar.Spec.SmallAlphabet.run {vs : Nat} (hA : SmallAlphabet os) :
    ∃ bs, AState.run vs {} os = some (⟨(Spec.run vs [] os).1, bs⟩, (Spec.run vs [] os).2) := by
  obtain ⟨A, A1, A2⟩ := hA
  obtain ⟨bs, h1, _⟩ := AState.run_small vs A1 os {} AState.Wf.init (fun c hc => absurd hc List.not_mem_nil) A2
  exact ⟨bs, h1⟩

theorem _root_.Poplar.Spec.SmallAlphabet.left {os' : List Op} (hA : SmallAlphabet (os ++ os')) : SmallAlphabet os := by
  obtain ⟨A, A1, A2⟩ := hA
  exact ⟨A, A1, fun k hk => A2 k (by rw [Spec.inserted_append]; simp [hk])⟩

theorem _root_.Poplar.Spec.SmallAlphabet.supported {vs : Nat} (hA : SmallAlphabet os) : Supported vs os :=
  let ⟨_, h⟩ := hA.run (vs := vs)
  ⟨_, _, h⟩

theorem _root_.Poplar.Spec.Supported.left {vs : Nat} {os' : List Op} (h : Supported vs (os ++ os')) : Supported vs os := by
  obtain ⟨s, xs, h⟩ := h
  obtain ⟨s1, xs1, _, h1, _⟩ := AState.run_split h
  exact ⟨s1, xs1, h1⟩

theorem history_spec (h : a.Admissible p i K os) (hA : SmallAlphabet os) :
    Returns (a.AtLimit p i os) (a.history p i os) (Spec.run p.valSize [] os).2 := by
  obtain ⟨bs, hb⟩ := hA.run (vs := p.valSize)
  exact history_exact h hb

theorem answer_spec {o : Op} (h : a.Admissible p i K (os ++ [o])) (hA : SmallAlphabet (os ++ [o])) :
    Returns (a.AtLimit p i (os ++ [o])) (a.answer p i os o) (Spec.step p.valSize (Spec.run p.valSize [] os).1 o).2 := by
  obtain ⟨bs, hb⟩ := hA.left.run (vs := p.valSize)
  obtain ⟨bs', hb'⟩ := hA.run (vs := p.valSize)
  rw [AState.run_append, hb] at hb'
  simp only [Option.bind_some, AState.run, Option.bind_eq_bind] at hb'
  cases hst : AState.step p.valSize ⟨(Spec.run p.valSize [] os).1, bs⟩ o with
  | none => rw [hst] at hb'; cases hb'
  | some y =>
    obtain ⟨s', x⟩ := y
    rw [hst] at hb'
    simp only [Option.bind_some, pure, Option.map_some, Option.some.injEq, Prod.mk.injEq, Spec.run_append] at hb'
    have := List.append_cancel_left hb'.2
    simp only [Spec.run] at this
    injection this with this
    rw [← this]
    exact answer_exact h hb hst

end Alias
end Poplar
