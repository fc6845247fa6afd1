import Verif.Proof.Programs
import Verif.Props.Demo
/-
  C49: the programs of the repository (test/map_test.cpp, sample/sample.cpp) succeed for every list of keys.
-/
namespace Poplar.Props
open Poplar Poplar.Spec

variable {a : Alias} {p : Params} {i : Init}

/-- **C49** Insert distinct strings and give them values; then `size()` is their number, `find` and `update` give every string its
value, and `find` gives null for every other string: `insert_keys` followed by `search_keys` of map_test.cpp succeeds on every
new map with every list of keys, within the limit on the number of nodes. Values are read and written through the pointer
returned by a single `update` per key. -/
theorem C49_insert_search {kvs : List (List UInt8 × Val)} {others : List (List UInt8)} (h : Insertable a p i (kvs.map (·.1)))
    (hn : (kvs.map (·.1)).Nodup) (hv : ∀ e ∈ kvs, e.2.length = p.valSize)
    (ho : ∀ s ∈ others, 0 ∉ s ∧ s.length + 1 + p.valSize < 2 ^ 64 ∧ s ∉ kvs.map (·.1)) : a.insertSearch p i kvs others = .ok true := by
  have hq : ∀ s ∈ others, 0 ∉ s := fun s hs => (ho s hs).1
  have hq2 : ∀ s ∈ others, s.length + 1 + p.valSize < 2 ^ 64 := fun s hs => (ho s hs).2.1
  have hs : ∀ e ∈ kvs, e.1 ∈ kvs.map (·.1) := fun e he => List.mem_map.2 ⟨e, he, rfl⟩
  obtain ⟨m0, h0, h1⟩ := h.new
  obtain ⟨m1, e1, e2, e3⟩ := h.insertKeys hq hq2 h0 kvs hv hs hn [] m0 (by simp) h1 (fun _ _ => rfl)
  rw [List.nil_append] at e2 e3
  have hd : ∀ e ∈ kvs, (Spec.run p.valSize [] (writes kvs)).1.get (e.1 ++ [0]) = some e.2 := fun e he => writes_get _ _ hn he
  have hsz := h.size hq hq2 h0 e3 e2
  rw [writes_length p.valSize [] hn (fun _ _ => rfl), List.length_nil, Nat.zero_add] at hsz
  have hf := h.findKeys hq hq2 h0 e3 e2 hs hd
  obtain ⟨m2, os', g1, g2, g3, g4⟩ := h.updateKeys hq hq2 h0 kvs hs hd (writes kvs) m1 e3 e2 rfl
  have hm := h.missKeys hq hq2 h0 g4 g2 (ks := others) (fun _ hs => hs) (fun s hs => by
    rw [g3, writes_get_other _ _ (ho s hs).2.2]; rfl)
  unfold Alias.insertSearch
  rw [h0, R.bind_ok, e1, R.bind_ok]
  dsimp only
  rw [if_neg (by simp), if_neg (by omega), hf, R.bind_ok, if_neg (by simp), g1, R.bind_ok]
  dsimp only
  rw [if_neg (by simp), hm]

/-- the total number of nodes allowed for -/
def nodeSum (lam : Nat) (ss : List (List UInt8)) : Nat := (ss.map fun s => 1 + s.length / lam).sum

theorem nodesFor_le_sum (lam : Nat) (ss : List (List UInt8)) : nodesFor lam (ss.map (· ++ [0])) ≤ nodeSum lam ss := by
  induction ss with
  | nil => exact Nat.le_refl _
  | cons s ss ih =>
    simp only [nodeSum, List.map_cons, List.sum_cons, nodesFor] at ih ⊢
    split
    · exact Nat.le_trans ih (Nat.le_add_left _ _)
    · rw [keyNodes, List.length_append, List.length_singleton, Nat.add_sub_cancel]; exact Nat.add_le_add_left ih _

theorem mem_even_odd {s : List UInt8} : ∀ (j : Nat) (keys : List (List UInt8)),
    (s ∈ (evenKeys j keys).map (·.1) → s ∈ keys) ∧ (s ∈ oddKeys keys → s ∈ keys)
  | _, [] => ⟨fun h => h, fun h => h⟩
  | _, [k] => ⟨fun h => h, fun h => absurd h List.not_mem_nil⟩
  | j, k :: l :: r => by
    obtain ⟨h1, h2⟩ := mem_even_odd (s := s) (j + 2) r
    simp only [evenKeys, oddKeys, List.map_cons, List.mem_cons]
    constructor
    · rintro (h | h)
      · exact .inl h
      · exact .inr (.inr (h1 h))
    · rintro (h | h)
      · exact .inr (.inl h)
      · exact .inr (.inr (h2 h))

theorem even_odd_nodup : ∀ (j : Nat) (keys : List (List UInt8)), keys.Nodup →
    ((evenKeys j keys).map (·.1)).Nodup ∧ ∀ s ∈ oddKeys keys, s ∉ (evenKeys j keys).map (·.1)
  | _, [], _ => ⟨List.nodup_nil, fun _ h => absurd h List.not_mem_nil⟩
  | _, [k], _ => ⟨by simp [evenKeys], fun _ h => absurd h List.not_mem_nil⟩
  | j, k :: l :: r, h => by
    simp only [List.nodup_cons, List.mem_cons, not_or] at h
    obtain ⟨⟨h1, h2⟩, h3, h4⟩ := h
    obtain ⟨i1, i2⟩ := even_odd_nodup (j + 2) r h4
    simp only [evenKeys, oddKeys, List.map_cons, List.nodup_cons, List.mem_cons, not_or]
    refine ⟨⟨fun hc => h2 ((mem_even_odd _ _).1 hc), i1⟩, ?_⟩
    rintro s (rfl | hs)
    · exact ⟨fun e => h1 e.symm, fun hc => h3 ((mem_even_odd _ _).1 hc)⟩
    · exact ⟨fun e => h2 (e ▸ (mem_even_odd j r).2 hs), i2 s hs⟩

theorem even_length : ∀ (j : Nat) (keys : List (List UInt8)), ∀ e ∈ evenKeys j keys, e.2.length = 8
  | _, [], e, h => absurd h List.not_mem_nil
  | j, [k], e, h => by rw [List.mem_singleton.1 h]; rfl
  | j, k :: _ :: r, e, h => by
    rcases List.mem_cons.1 h with rfl | h
    · rfl
    · exact even_length (j + 2) r e h

/-- number of nodes a default-constructed map of the aliases is certain to hold: 52427 for the compact maps -/
theorem default_room (a : Alias) (hp : p.maxFactor = 90) : 52428 ≤ a.nodeLimit p (Init.symbBits .default) (Init.capa0 .default) := by
  cases a <;> simp only [Alias.nodeLimit, hp] <;> decide

/-- **C49** The tests of map_test.cpp pass for every list of distinct, non-empty keys without NUL over at most 253 byte values, on
every default-constructed map (`uint64_t` values, with or without assertions), as long as the keys inserted (those at even
positions), counted with one node more for every full 32 characters, do not exceed 52427. (words.txt has 50000 of them, none
longer than 40: they count for 50068.) -/
theorem C49_map_test {keys : List (List UInt8)} (hp : p.Valid) (hm : p.maxFactor = 90) (hv : p.valSize = 8) (hne : keys ≠ [])
    (hn : keys.Nodup) (hk : ∀ s ∈ keys, s ≠ [] ∧ 0 ∉ s ∧ s.length < 2 ^ 63)
    (hA : ∃ A : List UInt8, A.length ≤ 253 ∧ ∀ s ∈ keys, ∀ c ∈ s, c ∈ A)
    (hc : nodeSum 32 ((evenKeys 0 keys).map (·.1)) ≤ 52427) : a.mapTest p keys = .ok true := by
  unfold Alias.mapTest
  rw [if_neg hne]
  obtain ⟨n1, n2⟩ := even_odd_nodup 0 keys hn
  have he : ∀ s ∈ (evenKeys 0 keys).map (·.1), s ∈ keys := fun s hs => (mem_even_odd 0 keys).1 hs
  refine C49_insert_search ⟨hp, trivial, ?_, ?_, ?_, ?_, ?_⟩ n1 ?_ ?_
  · exact fun s hs => (hk s (he s hs)).2.1
  · intro s hs
    have := (hk s (he s hs)).2.2
    rw [hv]; omega
  · obtain ⟨A, A1, A2⟩ := hA
    exact ⟨A, A1, fun s hs => A2 s (he s hs)⟩
  · have h1 := default_room a hm
    have h2 := nodesFor_le_sum 32 ((evenKeys 0 keys).map (·.1))
    show nodesFor 32 _ < _
    omega
  · exact .inr (.inr fun h => (hk [] (he [] h)).1 rfl)
  · intro e h; rw [hv]; exact even_length 0 keys e h
  · intro s hs
    have h1 := hk s ((mem_even_odd 0 keys).2 hs)
    exact ⟨h1.2.1, by rw [hv]; omega, n2 s hs⟩

/-- in particular: with up to 26213 inserted keys of less than 64 characters, or 52427 of less than 32 -/
theorem C49_map_test_lengths {keys : List (List UInt8)} (hp : p.Valid) (hm : p.maxFactor = 90) (hv : p.valSize = 8) (hne : keys ≠ [])
    (hn : keys.Nodup) (hA : ∃ A : List UInt8, A.length ≤ 253 ∧ 0 ∉ A ∧ ∀ s ∈ keys, ∀ c ∈ s, c ∈ A) (n : Nat) (hn1 : n < 2 ^ 31)
    (hk : ∀ s ∈ keys, s ≠ [] ∧ s.length < 32 * (n + 1)) (hc : (evenKeys 0 keys).length * (n + 1) ≤ 52427) : a.mapTest p keys = .ok true := by
  obtain ⟨A, A1, A2, A3⟩ := hA
  refine C49_map_test hp hm hv hne hn (fun s hs => ⟨(hk s hs).1, fun h => A2 (A3 s hs 0 h), ?_⟩) ⟨A, A1, A3⟩ ?_
  · have := (hk s hs).2; omega
  · refine Nat.le_trans ?_ hc
    have he : ∀ s ∈ (evenKeys 0 keys).map (·.1), s.length < 32 * (n + 1) := fun s hs => (hk s ((mem_even_odd 0 keys).1 hs)).2
    rw [← List.length_map (f := (·.1)) (as := evenKeys 0 keys)]
    generalize (evenKeys 0 keys).map (·.1) = l at he
    induction l with
    | nil => simp [nodeSum]
    | cons s l ih =>
      have h1 := ih fun s hs => he s (by simp [hs])
      have h2 := he s (by simp)
      simp only [nodeSum, List.map_cons, List.sum_cons, List.length_cons] at h1 ⊢
      rw [Nat.add_mul]
      omega

theorem sampleValues_keys : ∀ (j : Nat) (keys : List (List UInt8)), (sampleValues j keys).map (·.1) = keys
  | _, [] => rfl
  | j, s :: r => by rw [sampleValues, List.map_cons, sampleValues_keys (j + 1) r]

theorem sampleValues_length (j : Nat) (keys : List (List UInt8)) : (sampleValues j keys).length = keys.length := by
  rw [← List.length_map (f := (·.1)), sampleValues_keys]

/-- **C49** The sample program, with any distinct keys without NUL instead of its nine and any other missing key, exits with 0 and
prints the number of keys last, whichever map it uses. -/
theorem C49_sample {keys : List (List UInt8)} {missing : List UInt8} (h : Insertable a p .default keys) (hv : p.valSize = 4)
    (hn : keys.Nodup) (h1 : 0 ∉ missing) (h2 : missing.length < 2 ^ 63) (h3 : missing ∉ keys) :
    a.sampleMain p keys missing = .ok (0, some keys.length) := by
  have hq : ∀ s ∈ [missing], 0 ∉ s := fun s hs => by rw [List.mem_singleton.1 hs]; exact h1
  have hq2 : ∀ s ∈ [missing], s.length + 1 + p.valSize < 2 ^ 64 := fun s hs => by rw [List.mem_singleton.1 hs, hv]; omega
  obtain ⟨m0, e0, e1⟩ := h.new
  obtain ⟨m1, f1, f2, f3⟩ := h.sampleInsert hv hq hq2 e0 keys (fun _ hs => hs) 0 [] m0 (by simp) e1
  rw [List.nil_append] at f2 f3
  have hk := sampleValues_keys 0 keys
  have hn' : ((sampleValues 0 keys).map (·.1)).Nodup := by rw [hk]; exact hn
  have hf := h.findKeys hq hq2 e0 f3 f2 (kvs := sampleValues 0 keys) (fun e he => by rw [← hk]; exact List.mem_map.2 ⟨e, he, rfl⟩)
    (fun e he => writes_get _ _ hn' he)
  have hm := h.missKeys hq hq2 e0 f3 f2 (ks := [missing]) (fun _ hs => hs) (fun s hs => by
    rw [List.mem_singleton.1 hs, writes_get_other _ _ (by rw [hk]; exact h3)]; rfl)
  have hs := h.size hq hq2 e0 f3 f2
  rw [writes_length _ _ hn' (fun _ _ => rfl), List.length_nil, Nat.zero_add, sampleValues_length] at hs
  unfold Alias.sampleMain
  rw [e0, R.bind_ok, f1, R.bind_ok]
  dsimp only
  rw [if_neg (by simp), hf, R.bind_ok, if_neg (by simp), hm, R.bind_ok, if_neg (by simp), hs]
  rfl

/-- **C49** The benchmark bench_maps.cpp, with at least one run, never reports "critical error for search results" and reports the
exact numbers: of the lines of the key file (repeated keys count), of the queries, of the queries that are keys (`ok`) and of those
that are not (`ng`), for every map, every admissible capacity and lambda, every key file and every query file of strings without
NUL (within the limit on the number of nodes). -/
theorem C49_bench {keys : List (List UInt8)} {queries : Option (List (List UInt8))} {cb lam runs : Nat}
    (h : Insertable a p (.make cb lam) keys) (hv : p.valSize = 4) (hr : 1 ≤ runs)
    (hq : ∀ qs, queries = some qs → ∀ s ∈ qs, 0 ∉ s ∧ s.length < 2 ^ 63) :
    a.bench p cb lam runs keys queries = .ok (some
      { numKeys := keys.length
        numQueries := (queries.getD keys).length
        ok := ((queries.getD keys).filter fun s => decide (s ∈ keys)).length
        ng := ((queries.getD keys).filter fun s => decide (s ∉ keys)).length }) := by
  have hq' : ∀ s ∈ queries.getD keys, 0 ∉ s ∧ s.length + 1 + p.valSize < 2 ^ 64 := by
    cases queries with
    | none => exact fun s hs => ⟨h.nul s hs, h.len s hs⟩
    | some qs => exact fun s hs => ⟨(hq qs rfl s hs).1, by have := (hq qs rfl s hs).2; omega⟩
  unfold Alias.bench
  dsimp only
  generalize queries.getD keys = qs at hq' ⊢
  have hq1 : ∀ s ∈ qs, 0 ∉ s := fun s hs => (hq' s hs).1
  have hq2 : ∀ s ∈ qs, s.length + 1 + p.valSize < 2 ^ 64 := fun s hs => (hq' s hs).2
  obtain ⟨m0, m, e0, e1, _⟩ := h.benchRun hv hq1 hq2
  rw [e0, R.bind_ok, e1, R.bind_ok]
  dsimp only
  rw [if_neg (by simp), h.benchRuns hv hq1 hq2 runs true (0, 0) (.inl ⟨rfl, by omega⟩), R.bind_ok]
  simp only [List.countP_eq_length_filter]
  rfl

/-- without a query file all the queries are found -/
theorem C49_bench_keys {keys : List (List UInt8)} {cb lam runs : Nat} (h : Insertable a p (.make cb lam) keys) (hv : p.valSize = 4)
    (hr : 1 ≤ runs) : a.bench p cb lam runs keys none = .ok (some ⟨keys.length, keys.length, keys.length, 0⟩) := by
  rw [C49_bench h hv hr (by simp)]
  have e1 : keys.filter (fun s => decide (s ∈ keys)) = keys := List.filter_eq_self.2 (by simp)
  have e2 : keys.filter (fun s => decide (s ∉ keys)) = [] := List.filter_eq_nil_iff.2 (by simp)
  simp only [Option.getD_none, e1, e2, List.length_nil]

/-- three keys, one repeated, and four queries, on the aliases of bench_maps.cpp with the default arguments (capacity 2^16, lambda 32) -/
example : Alias.bench .compactBonsai { valSize := 4 } 16 32 10 [[97], [98, 99], [97]] (some [[98, 99], [98], [], [97]]) =
    .ok (some ⟨3, 4, 2, 2⟩) := by
  refine (C49_bench ⟨⟨by decide, by decide, by decide⟩, ⟨⟨5, rfl⟩, by decide⟩, by decide, by decide,
    ⟨[97, 98, 99], by decide, by decide⟩, ?_, .inl rfl⟩ rfl (by decide) ?_).trans rfl
  · exact Nat.lt_of_lt_of_le (m := 100) (by decide) (Nat.le_trans (by decide) (default_room .compactBonsai rfl))
  · intro qs e; injection e with e; subst e; decide

/-- the test `Tiny` -/
example (a : Alias) : a.mapTest { valSize := 8, dbg := true } (["trie", "denying", "defies", "defy", "tries", "defying", "defied",
    "denied", "trying", "deny", "try", "denies", "tried"].map fun s => s.toList.map fun c => UInt8.ofNat c.toNat) = .ok true := by
  refine C49_map_test_lengths ⟨by decide, by decide, by decide⟩ rfl rfl (by decide) (by decide)
    ⟨[116, 114, 105, 101, 100, 110, 121, 103, 102, 115], by decide, by decide, by decide⟩ 0 (by decide) (by decide) (by decide)

/-- the sample program -/
example : Alias.sampleMain .plainBonsai { valSize := 4 } (["Aoba", "Yun", "Hajime", "Hihumi", "Kou", "Rin", "Hazuki", "Umiko", "Nene"].map
    fun s => s.toList.map fun c => UInt8.ofNat c.toNat) ("Hotaru".toList.map fun c => UInt8.ofNat c.toNat) = .ok (0, some 9) := by
  refine C49_sample ⟨⟨by decide, by decide, by decide⟩, trivial, by decide, by decide,
    ⟨(List.range 64).map fun x => UInt8.ofNat (x + 64), by decide, by decide⟩, ?_, .inl rfl⟩ rfl (by decide) (by decide) (by decide) (by decide)
  exact Nat.lt_of_lt_of_le (m := 100) (by decide) (Nat.le_trans (by decide) (default_room .plainBonsai rfl))

end Poplar.Props
