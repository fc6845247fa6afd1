import Verif.Props.Demo
import Mathlib.Data.Finset.Card
import Mathlib.Data.List.Nodup
/-
  C01-C06, C34: the maps are dictionaries.

  In all theorems `a` is any alias, `p` its parameters (value size, chunk size, hash function of the
  plain tries, debug or release build), `i` the constructor call, and `os` any history. The side
  conditions `Alias.Admissible`, `SmallAlphabet` and `Alias.AtLimit`, and `Returns`, are in
  Spec/Limits.lean and Spec/History.lean.
-/
namespace Poplar.Props
open Poplar Poplar.Spec

variable {a : Alias} {p : Params} {i : Init} {K : Key → Prop} {os : List Op}

theorem SmallAlphabet.append_left {os os' : List Op} (h : SmallAlphabet (os ++ os')) : SmallAlphabet os := by
  obtain ⟨A, A1, A2⟩ := h
  exact ⟨A, A1, fun k hk => A2 k (by rw [Spec.inserted_append]; simp [hk])⟩

/-- **C01** Everything the user sees is what an abstract dictionary (Spec/Dict.lean) answers. -/
theorem C01_map_is_dictionary (h : a.Admissible p i K os) (hA : SmallAlphabet os) :
    Returns (a.AtLimit p i os) (a.history p i os) (Spec.run p.valSize [] os).2 :=
  Alias.history_spec h hA

/-- **C01** `find` returns the value last written for the key, or nullptr if it was never inserted. -/
theorem C01_find_last_written {k : Key} (h : a.Admissible p i K (os ++ [.find k])) (hA : SmallAlphabet os)
    (hk : ¬ Malformed k) :
    Returns (a.AtLimit p i os) (a.answer p i os (.find k)) (.found (lastValue p.valSize k os.reverse)) := by
  have hA' : SmallAlphabet (os ++ [.find k]) := by
    obtain ⟨A, A1, A2⟩ := hA
    exact ⟨A, A1, by rw [Spec.inserted_append]; simpa [inserted, Op.inserts] using A2⟩
  have := Alias.answer_spec h hA'
  simp only [step, hk, if_false, Spec.get_run] at this
  refine this.mono ?_
  intro hl
  exact hl.mono (by intro q; simp [inserted, Op.inserts])

/-- the hypotheses are met by every alias and a non-trivial history -/
example (a : Alias) : a.history demoParams .default demo =
    .ok [.done, .done, .value [0, 0, 0, 0], .found (some [1, 2, 3, 4]), .done, .exn, .exn, .count 3] :=
  (C01_map_is_dictionary (demo_admissible a .default trivial demo (by decide) (by decide)) (small_of [97, 98, 99, 120] (by decide) (by decide))).ok (within a (by decide))

/-- same with explicit constructor arguments -/
example (a : Alias) : a.history demoParams (.make 20 4) demo =
    .ok [.done, .done, .value [0, 0, 0, 0], .found (some [1, 2, 3, 4]), .done, .exn, .exn, .count 3] :=
  (C01_map_is_dictionary (demo_admissible a (.make 20 4) ⟨⟨2, rfl⟩, by decide⟩ demo (by decide) (by decide)) (small_of [97, 98, 99, 120] (by decide) (by decide))).ok (by
    cases a <;> simp only [Alias.AtLimit, Alias.nodeLimit] <;> decide)

/-- **C01** A map whose constructor reserved enough never hits a limit: if the nodes needed by the keys inserted (one per key, and
one more for every `lambda` bytes of a key, `nodesFor`) are fewer than 80 % (or `MaxFactor` per cent, if that is less) of `2^max(16, capa_bits)`, every answer is exactly that of the
dictionary (all aliases, no other outcome). -/
theorem C01_reserved {cb lam : Nat} (h : a.Admissible p (.make cb lam) K os) (hA : SmallAlphabet os)
    (hc : 100 * nodesFor lam (inserted os) + 100 ≤ min 80 p.maxFactor * 2 ^ max 16 cb) :
    a.history p (.make cb lam) os = .ok (Spec.run p.valSize [] os).2 := by
  refine (C01_map_is_dictionary h hA).ok ?_
  have hlt : ∀ f, min 80 p.maxFactor ≤ f → nodesFor lam (inserted os) < maxSize (2 ^ max 16 cb) f := by
    intro f hf
    have := Nat.mul_le_mul_right (2 ^ max 16 cb) hf
    unfold maxSize
    rw [Nat.mul_comm (2 ^ max 16 cb) f]
    omega
  have h80 := hlt 80 (Nat.min_le_left _ _)
  have hw := h.init.2
  have h90 : nodesFor lam (inserted os) < maxSize (2 ^ (63 - (8 + Nat.log2 lam))) p.maxFactor :=
    Nat.lt_of_lt_of_le (hlt _ (Nat.min_le_right _ _)) (maxSize_mono (Nat.pow_le_pow_right (by decide) (by omega)))
  simp only [Alias.AtLimit, Nat.not_le, Init.symbBits, Init.capa0, Init.lambda]
  cases a <;> simp only [Alias.nodeLimit] <;> (try split) <;> omega

/-- **C01** A plain or semi-compact map, and any map whose `MaxFactor` is at most 80, needs no reservation: the only limit is the
width of the keys of the trie's hash table (`log2` of the capacity plus `8 + log2 lambda` bits, less than 64). -/
theorem C01_unreserved (h : a.Admissible p i K os) (hA : SmallAlphabet os)
    (ha : (a ≠ .compactBonsai ∧ a ≠ .compactFkhash) ∨ p.maxFactor ≤ 80)
    (hc : 100 * nodesFor i.lambda (inserted os) + 100 ≤ p.maxFactor * 2 ^ (55 - Nat.log2 i.lambda)) :
    a.history p i os = .ok (Spec.run p.valSize [] os).2 := by
  refine (C01_map_is_dictionary h hA).ok ?_
  have hsb : 63 - i.symbBits = 55 - Nat.log2 i.lambda := by
    cases i with
    | default => simp only [Init.symbBits, Init.lambda]; decide
    | make cb lam => simp only [Init.symbBits, Init.lambda]; omega
  have hlt : nodesFor i.lambda (inserted os) < maxSize (2 ^ (63 - i.symbBits)) p.maxFactor := by
    rw [hsb]
    unfold maxSize
    rw [Nat.mul_comm (2 ^ _)]
    omega
  simp only [Alias.AtLimit, Nat.not_le]
  cases a
  case compactBonsai | compactFkhash =>
    have hm : p.maxFactor ≤ 80 := ha.resolve_left (by simp)
    simp only [Alias.nodeLimit, if_pos hm]
    exact hlt
  all_goals exact hlt

/-- the maps of bench/bench_load_factors.cpp:97-110 are covered: `MaxFactor` 80 to 95, `Dsp1Bits` 3 to 5 -/
example (os : List Op) (h : Alias.Admissible .compactBonsai { valSize := 4, maxFactor := 95, dsp1Bits := 3 } .default K os)
    (hA : SmallAlphabet os) : Returns (Alias.AtLimit .compactBonsai { valSize := 4, maxFactor := 95, dsp1Bits := 3 } .default os)
      (Alias.history .compactBonsai { valSize := 4, maxFactor := 95, dsp1Bits := 3 } .default os) (Spec.run 4 [] os).2 :=
  C01_map_is_dictionary h hA

/-- ten million million keys of up to 32 bytes in a default constructed map, plain, or compact with `MaxFactor` 80 -/
example (a : Alias) (os : List Op) (h : a.Admissible { valSize := 4, maxFactor := 80 } .default K os) (hA : SmallAlphabet os)
    (hc : nodesFor 32 (inserted os) ≤ 10 ^ 13) :
    a.history { valSize := 4, maxFactor := 80 } .default os = .ok (Spec.run 4 [] os).2 :=
  C01_unreserved h hA (Or.inr (Nat.le_refl 80)) (by
    show 100 * nodesFor 32 (inserted os) + 100 ≤ 80 * 2 ^ (55 - Nat.log2 32)
    rw [show Nat.log2 32 = 5 by decide]; omega)

/-- with `capa_bits = 30`: histories inserting up to 800 million key bytes -/
example (hp : p.maxFactor = 90) (a : Alias) (os : List Op) (h : a.Admissible p (.make 30 32) K os) (hA : SmallAlphabet os) (hc : cost os ≤ 800000000) :
    a.history p (.make 30 32) os = .ok (Spec.run p.valSize [] os).2 :=
  C01_reserved h hA (by
    have := nodesFor_le_cost 32 os
    rw [show max 16 30 = 30 from rfl, hp]; omega)

/-- with `capa_bits = 30` and `lambda = 32`: histories inserting up to 400 million distinct keys of up to 64 bytes -/
example (hp : p.maxFactor = 90) (a : Alias) (os : List Op) (h : a.Admissible p (.make 30 32) K os) (hA : SmallAlphabet os)
    (hk : ∀ k ∈ inserted os, k.length ≤ 64) (hc : distinct (inserted os) ≤ 400000000) :
    a.history p (.make 30 32) os = .ok (Spec.run p.valSize [] os).2 :=
  C01_reserved h hA (by
    have : ∀ ks : List Key, (∀ k ∈ ks, k.length ≤ 64) → nodesFor 32 ks ≤ 2 * distinct ks := by
      intro ks
      induction ks with
      | nil => intro _; exact Nat.le_refl _
      | cons x ks ih =>
        intro hx
        have h1 := ih (fun k hk => hx k (by simp [hk]))
        have h2 := hx x (by simp)
        simp only [nodesFor, distinct, keyNodes]
        split <;> omega
    have := this _ hk
    rw [show max 16 30 = 30 from rfl, hp]; omega)

/-- **C02** `update` on a key that was never inserted gives a zero value. -/
theorem C02_new_key_zero {k : Key} (h : a.Admissible p i K (os ++ [.update k])) (hA : SmallAlphabet (os ++ [.update k]))
    (hk : ¬ Malformed k) (hnew : k ∉ inserted os) :
    Returns (a.AtLimit p i (os ++ [.update k])) (a.answer p i os (.update k)) (.value (List.replicate p.valSize 0)) := by
  have := Alias.answer_spec h hA
  have hg : (Spec.run p.valSize [] os).1.get k = none := by
    by_contra hc; exact hnew ((Spec.get_ne_none _ _ _).1 hc)
  simp only [step, hk, if_false, hg] at this
  exact this

example (a : Alias) : a.answer demoParams .default demo (.update [120, 0]) = .ok (.value [0, 0, 0, 0]) :=
  (C02_new_key_zero (demo_admissible a .default trivial (demo ++ [.update [120, 0]]) (by decide) (by decide))
    (small_of [97, 98, 99, 120] (by decide) (by decide)) (by decide) (by decide)).ok (within a (by decide))

/-- **C02** `update` on a registered key gives the value stored last. -/
theorem C02_old_key_keeps_value {k : Key} (h : a.Admissible p i K (os ++ [.update k]))
    (hA : SmallAlphabet (os ++ [.update k])) (hold : k ∈ inserted os) :
    ∃ v, lastValue p.valSize k os.reverse = some v ∧
      Returns (a.AtLimit p i (os ++ [.update k])) (a.answer p i os (.update k)) (.value v) := by
  have hk := Spec.inserted_not_malformed hold
  have := Alias.answer_spec h hA
  obtain ⟨v, hv⟩ := Option.ne_none_iff_exists'.1 ((Spec.get_ne_none p.valSize os k).2 hold)
  simp only [step, hk, if_false, hv] at this
  exact ⟨v, by rw [← Spec.get_run, hv], this⟩

example (a : Alias) : a.answer demoParams .default demo (.update [97, 98, 0]) = .ok (.value [5, 6, 7, 8]) := by
  obtain ⟨v, h1, h2⟩ := C02_old_key_keeps_value (demo_admissible a .default trivial (demo ++ [.update [97, 98, 0]]) (by decide) (by decide))
    (small_of [97, 98, 99, 120] (by decide) (by decide)) (by decide)
  have : v = [5, 6, 7, 8] := by
    have h3 : lastValue 4 [97, 98, 0] demo.reverse = some [5, 6, 7, 8] := by decide
    exact Option.some.inj (h1.symm.trans h3)
  subst this
  exact h2.ok (within a (by decide))

/-- **C02** `update` on a registered key changes nothing the user can see later: any later history gives the same
observations as without the call. -/
theorem C02_old_key_changes_nothing {k : Key} {os' : List Op} (h : a.Admissible p i K (os ++ .update k :: os'))
    (hA : SmallAlphabet (os ++ .update k :: os')) (hold : k ∈ inserted os) :
    ∃ xs y ys, Returns (a.AtLimit p i (os ++ .update k :: os')) (a.history p i (os ++ .update k :: os')) (xs ++ y :: ys) ∧
      Returns (a.AtLimit p i (os ++ os')) (a.history p i (os ++ os')) (xs ++ ys) ∧ xs.length = os.length := by
  have hk := Spec.inserted_not_malformed hold
  obtain ⟨v, hv⟩ := Option.ne_none_iff_exists'.1 ((Spec.get_ne_none p.valSize os k).2 hold)
  have h' : a.Admissible p i K (os ++ os') := ⟨h.params, h.init, h.keys, fun o ho => h.legal o (by
    simp only [List.mem_append, List.mem_cons] at ho ⊢; tauto), Alias.AssertOk.mono h.assertOk (by
      intro q hc
      rw [Spec.inserted_append] at hc ⊢
      rw [List.mem_append] at hc ⊢
      rw [show Op.update k :: os' = [Op.update k] ++ os' from rfl, Spec.inserted_append, List.mem_append]
      tauto) (by
      right
      rw [Spec.inserted_append, Spec.inserted_append]
      cases hi : inserted os with
      | nil => rw [hi] at hold; cases hold
      | cons x xs => rfl)⟩
  have hA' : SmallAlphabet (os ++ os') := by
    obtain ⟨A, A1, A2⟩ := hA
    refine ⟨A, A1, fun k' hk' => A2 k' ?_⟩
    rw [Spec.inserted_append] at hk' ⊢
    rw [List.mem_append] at hk' ⊢
    rw [show Op.update k :: os' = [Op.update k] ++ os' from rfl, Spec.inserted_append, List.mem_append]
    tauto
  have h1 := Alias.history_spec h hA
  have h2 := Alias.history_spec h' hA'
  rw [Spec.run_append] at h1 h2
  simp only [Spec.run, step, hk, if_false, hv] at h1
  refine ⟨_, _, _, h1, h2, ?_⟩
  clear * -
  generalize ([] : Dict) = d
  induction os generalizing d with
  | nil => rfl
  | cons o os ih => simp only [Spec.run, List.length_cons, ih]

example (a : Alias) := C02_old_key_changes_nothing (os := demo) (os' := demo) (k := [97, 98, 0])
    (demo_admissible a .default trivial (demo ++ .update [97, 98, 0] :: demo) (by decide) (by decide))
    (small_of [97, 98, 99, 120] (by decide) (by decide)) (by decide)

/-- **C03** A write through the pointer returned for `k`, and the update that produced it, do not change what
`find` returns for another key. -/
theorem C03_no_crosstalk {k k' : Key} {v : Val} {o : Op} (ho : o = .write k v ∨ o = .update k) (hne : k' ≠ k)
    (h : a.Admissible p i K (os ++ [o, .find k'])) (hA : SmallAlphabet (os ++ [o])) {x : Out}
    (hx : a.answer p i os (.find k') = .ok x) :
    Returns (a.AtLimit p i (os ++ [o])) (a.answer p i (os ++ [o]) (.find k')) x := by
  have hadm : a.Admissible p i K (os ++ [.find k']) :=
    ⟨h.params, h.init, h.keys, fun o ho => h.legal o (by simp only [List.mem_append, List.mem_cons] at ho ⊢; tauto),
      by
        have := Alias.AssertOk.append_left h.assertOk
        exact Alias.AssertOk.mono this (by intro q; simp [inserted, Op.inserts]) (Or.inr (by simp [inserted, Op.inserts]))⟩
  by_cases hk : Malformed k'
  · -- malformed: both calls throw
    have h1 := Alias.answer_spec hadm (by
      obtain ⟨A, A1, A2⟩ := hA
      refine ⟨A, A1, fun q hq => A2 q ?_⟩
      rw [Spec.inserted_append] at hq ⊢
      simp only [List.mem_append] at hq ⊢
      rcases hq with hq | hq
      · exact Or.inl hq
      · simp [inserted, Op.inserts] at hq)
    have h2 := Alias.answer_spec (os := os ++ [o]) (o := .find k') (by simpa using h) (by
      obtain ⟨A, A1, A2⟩ := hA
      refine ⟨A, A1, fun q hq => A2 q ?_⟩
      rw [Spec.inserted_append] at hq
      simp only [List.mem_append] at hq
      rcases hq with hq | hq
      · exact hq
      · simp [inserted, Op.inserts] at hq)
    simp only [step, hk, if_true] at h1 h2
    rw [← h1.eq hx]
    exact h2.mono (fun hl => hl.mono (by intro q; simp [inserted, Op.inserts]))
  · have h1 := C01_find_last_written hadm (SmallAlphabet.append_left hA) hk
    have h2 := C01_find_last_written (os := os ++ [o]) (by simpa using h) hA hk
    rw [← h1.eq hx]
    have : lastValue p.valSize k' (os ++ [o]).reverse = lastValue p.valSize k' os.reverse := by
      rw [List.reverse_append]
      rcases ho with rfl | rfl <;> simp [lastValue, Ne.symm hne]
    rw [this] at h2
    exact h2

/-- writing the prefix "ab" leaves "abc" alone -/
example (a : Alias) : a.answer demoParams .default (demo ++ [.write [97, 98, 0] [7, 7, 7, 7]]) (.find [97, 98, 99, 0]) =
    .ok (.found (some [9, 9, 9, 9])) := by
  have h0 : a.answer demoParams .default demo (.find [97, 98, 99, 0]) = .ok (.found (some [9, 9, 9, 9])) :=
    (C01_find_last_written (demo_admissible a .default trivial (demo ++ [.find [97, 98, 99, 0]]) (by decide) (by decide))
      (small_of [97, 98, 99, 120] (by decide) (by decide)) (by decide)).ok (within a (by decide))
  exact (C03_no_crosstalk (o := .write [97, 98, 0] [7, 7, 7, 7]) (Or.inl rfl) (by decide)
    (demo_admissible a .default trivial _ (by decide) (by decide))
    (small_of [97, 98, 99, 120] (by decide) (by decide)) h0).ok (within a (by decide))

/-- **C04** `size()` is the number of distinct keys inserted. -/
theorem C04_size_counts_distinct (h : a.Admissible p i K os) (hA : SmallAlphabet os) :
    Returns (a.AtLimit p i os) (a.answer p i os .size) (.count (distinct (inserted os))) := by
  have h' : a.Admissible p i K (os ++ [.size]) :=
    ⟨h.params, h.init, h.keys, fun o ho => by
      rcases List.mem_append.1 ho with ho | ho
      · exact h.legal o ho
      · have : o = .size := by simpa using ho
        subst this
        exact ⟨(fun _ e => by cases e), (fun _ _ e => by cases e)⟩,
     Alias.AssertOk.mono h.assertOk (by intro q; simp [inserted, Op.inserts]) (Or.inr (by simp [inserted, Op.inserts]))⟩
  have := Alias.answer_spec h' (by
    obtain ⟨A, A1, A2⟩ := hA
    refine ⟨A, A1, fun q hq => A2 q ?_⟩
    rw [Spec.inserted_append, List.mem_append] at hq
    rcases hq with hq | hq
    · exact hq
    · simp [inserted, Op.inserts] at hq)
  simp only [step, Spec.length_run] at this
  exact this.mono (fun hl => hl.mono (by intro q; simp [inserted, Op.inserts]))

example (a : Alias) : a.answer demoParams .default demo .size = .ok (.count 3) :=
  (C04_size_counts_distinct (demo_admissible a .default trivial demo (by decide) (by decide)) (small_of [97, 98, 99, 120] (by decide) (by decide))).ok (within a (by decide))

/-- a history that only writes key/value pairs -/
def writes (ws : List (Key × Val)) : List Op := ws.map (fun w => .write w.1 w.2)

private theorem lastValue_writes (vs : Nat) (k : Key) (ws : List (Key × Val)) (hm : ∀ w ∈ ws, ¬ Malformed w.1)
    (hnd : (ws.map Prod.fst).Nodup) (v : Val) :
    lastValue vs k (writes ws).reverse = some v ↔ (k, v) ∈ ws := by
  suffices h : ∀ ws : List (Key × Val), (∀ w ∈ ws, ¬ Malformed w.1) → (ws.map Prod.fst).Nodup →
      (lastValue vs k (writes ws) = some v ↔ (k, v) ∈ ws) by
    have := h ws.reverse (by simpa using hm) (by rw [List.map_reverse]; exact List.nodup_reverse.2 hnd)
    simpa [writes] using this
  intro ws
  induction ws with
  | nil => intro _ _; simp [writes, lastValue]
  | cons w ws ih =>
    intro hm hnd
    obtain ⟨k', v'⟩ := w
    simp only [List.map_cons, List.nodup_cons] at hnd
    have := ih (fun w hw => hm w (by simp [hw])) hnd.2
    have hm' : ¬ Malformed k' := hm (k', v') (by simp)
    show lastValue vs k (Op.write k' v' :: writes ws) = some v ↔ _
    simp only [lastValue, hm', not_false_eq_true, and_true, List.mem_cons, Prod.mk.injEq]
    by_cases hk : k' = k
    · subst hk
      simp only [if_true, Option.some.injEq, true_and]
      constructor
      · intro e; exact Or.inl e.symm
      · rintro (e | e)
        · exact e.symm
        · exact absurd (List.mem_map_of_mem (f := Prod.fst) e) hnd.1
    · simp only [hk, Ne.symm hk, if_false, false_and, false_or]; exact this

/-- **C05** Inserting the same pairs in another order gives the same answers to every `find` and the same `size()`. -/
theorem C05_order_irrelevant {ws ws' : List (Key × Val)} (hperm : ws.Perm ws') (hnd : (ws.map Prod.fst).Nodup)
    (hm : ∀ w ∈ ws, ¬ Malformed w.1) (hA : SmallAlphabet (writes ws)) {q : Op} (hq : q = .size ∨ ∃ k, ¬ Malformed k ∧ q = .find k)
    (h : a.Admissible p i K (writes ws ++ [q])) (h' : a.Admissible p i K (writes ws' ++ [q])) :
    ∃ x, Returns (a.AtLimit p i (writes ws)) (a.answer p i (writes ws) q) x ∧
      Returns (a.AtLimit p i (writes ws)) (a.answer p i (writes ws') q) x := by
  have hp : (writes ws).Perm (writes ws') := hperm.map _
  have hins : (inserted (writes ws)).Perm (inserted (writes ws')) := hp.filterMap _
  have hA' : SmallAlphabet (writes ws') := by
    obtain ⟨A, A1, A2⟩ := hA
    exact ⟨A, A1, fun k hk => A2 k (hins.mem_iff.2 hk)⟩
  have hlim : a.AtLimit p i (writes ws') → a.AtLimit p i (writes ws) := fun hl => hl.mono (fun k hk => hins.mem_iff.2 hk)
  rcases hq with rfl | ⟨k, hk, rfl⟩
  · refine ⟨_, C04_size_counts_distinct h.append_left hA, ?_⟩
    have := C04_size_counts_distinct h'.append_left hA'
    have hd : distinct (inserted (writes ws')) = distinct (inserted (writes ws)) := by
      have hlen : ∀ l : List Key, distinct l = l.toFinset.card := by
        intro l
        induction l with
        | nil => rfl
        | cons x l ih =>
          simp only [distinct, List.toFinset_cons]
          by_cases hx : x ∈ l
          · rw [if_pos hx, ih, Finset.insert_eq_of_mem (by simpa using hx)]
          · rw [if_neg hx, ih, Finset.card_insert_of_notMem (by simpa using hx)]
      rw [hlen, hlen, List.toFinset_eq_of_perm _ _ hins]
    rw [hd] at this
    exact this.mono (hlim)
  · refine ⟨_, C01_find_last_written h hA hk, ?_⟩
    have := C01_find_last_written h' hA' hk
    have he : lastValue p.valSize k (writes ws').reverse = lastValue p.valSize k (writes ws).reverse := by
      apply Option.ext
      intro v
      rw [lastValue_writes _ _ _ hm hnd, lastValue_writes _ _ _ (fun w hw => hm w (hperm.mem_iff.2 hw))
        ((hperm.map _).nodup_iff.1 hnd), hperm.mem_iff]
    rw [he] at this
    exact this.mono (hlim)

example (a : Alias) := C05_order_irrelevant (a := a) (p := demoParams) (i := .default)
    (ws := [([97, 98, 0], [1, 2, 3, 4]), ([97, 0], [5, 6, 7, 8])]) (ws' := [([97, 0], [5, 6, 7, 8]), ([97, 98, 0], [1, 2, 3, 4])])
    (List.Perm.swap _ _ _) (by decide) (by decide) (small_of [97, 98] (by decide) (by decide))
    (Or.inr ⟨[97, 0], by decide, rfl⟩) (demo_admissible a .default trivial _ (by decide) (by decide))
    (demo_admissible a .default trivial _ (by decide) (by decide))

/-- **C06** All aliases, chunk sizes, hash functions, build types, lambdas and initial capacities give the same
observations. -/
theorem C06_configurations_agree {a' : Alias} {p' : Params} {i' : Init} (hv : p.valSize = p'.valSize)
    (h : a.Admissible p i K os) (h' : a'.Admissible p' i' K os) (hA : SmallAlphabet os) :
    ∃ xs, Returns (a.AtLimit p i os) (a.history p i os) xs ∧ Returns (a'.AtLimit p' i' os) (a'.history p' i' os) xs :=
  ⟨_, Alias.history_spec h hA, by rw [hv]; exact Alias.history_spec h' hA⟩

example : Alias.plainBonsai.history demoParams .default demo =
    Alias.semiCompactFkhash.history { valSize := 4, chunkSize := 64, hash := fun x => x } (.make 18 8) demo := by
  obtain ⟨xs, h1, h2⟩ := C06_configurations_agree (a := .plainBonsai) (a' := .semiCompactFkhash) (i := .default) (i' := .make 18 8)
    (p := demoParams) (p' := { valSize := 4, chunkSize := 64, hash := fun x => x }) rfl
    (demo_admissible _ .default trivial demo (by decide) (by decide))
    ⟨⟨by decide, by decide, by decide⟩, ⟨⟨3, rfl⟩, by decide⟩, keySet_cstrings _, legal_of (by decide), Or.inr (Or.inl rfl)⟩
    (small_of [97, 98, 99, 120] (by decide) (by decide))
  rw [h1.ok (within _ (by decide)), h2.ok (by simp only [Alias.AtLimit, Alias.nodeLimit]; decide)]

/-- **C34** README's deletion idiom: after writing an invalid value, `find` returns that value. -/
theorem C34_deletion_idiom {k : Key} {invalid : Val} (h : a.Admissible p i K (os ++ [.write k invalid, .find k]))
    (hA : SmallAlphabet (os ++ [.write k invalid])) (hk : ¬ Malformed k) :
    Returns (a.AtLimit p i (os ++ [.write k invalid])) (a.answer p i (os ++ [.write k invalid]) (.find k)) (.found (some invalid)) := by
  have := C01_find_last_written (os := os ++ [.write k invalid]) (by simpa using h) hA hk
  rw [List.reverse_append] at this
  simpa [lastValue, hk] using this

example (a : Alias) : a.answer demoParams .default (demo ++ [.write [97, 98, 0] [255, 255, 255, 255]]) (.find [97, 98, 0]) =
    .ok (.found (some [255, 255, 255, 255])) :=
  (C34_deletion_idiom (demo_admissible a .default trivial _ (by decide) (by decide))
    (small_of [97, 98, 99, 120] (by decide) (by decide)) (by decide)).ok (within a (by decide))

end Poplar.Props
