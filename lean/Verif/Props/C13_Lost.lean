import Verif.Proof.LostHistory
import Verif.Props.C36_Exhaustion
/-
  C13: what happens after `update` has thrown because the byte values are used up.

  `AState` (Spec/Alphabet.lean) is a dictionary together with the set of non-NUL byte values at which inserted keys
  have branched off the keys present at that time. When that set has 254 elements, `update` has thrown
  (`C36_throws_iff`), and one byte value is left.
-/
namespace Poplar.Props
open Poplar Poplar.Spec

variable {a : Alias} {p : Params} {i : Init} {K : Key → Prop} {os : List Op}

/-- **C13** After the exception, no `update` of a well-formed key throws any more, whatever the keys and values are:
the map accepts every key, also those it cannot store. -/
theorem C13_never_throws_again (h : a.Admissible p i K os) {s : AState} {xs : List Out}
    (hs : AState.run p.valSize {} os = some (s, xs)) (hb : s.bytes.length = 254)
    (os' : List Op) {zs : List Out} (hz : a.history p i (os ++ os') = .ok zs) (j : Nat) (k : Key) (hk : ¬ Malformed k)
    (ho : os'[j]? = some (.update k) ∨ ∃ v, os'[j]? = some (.write k v)) : zs[os.length + j]? ≠ some .exn := by
  rcases ho with ho | ⟨v, ho⟩
  · exact Alias.no_more_throw h hs hb os' hz j _ k ho (by simp [Op.inserts, hk])
  · exact Alias.no_more_throw h hs hb os' hz j _ k ho (by simp [Op.inserts, hk])

/-- **C13** Without assertions, the `update` of a key `k` that needs the last byte value returns a zero value, as
if `k` had been inserted, and `size()` grows by one. But `find` does not find `k` afterwards, and every other key is
found as before. Keys not longer than `lambda`. -/
theorem C13_lost_key {k : Key} (h : a.Admissible p i K (os ++ [.update k])) (hp : p.dbg = false) {s : AState} {xs : List Out}
    (hs : AState.run p.valSize {} os = some (s, xs)) (hb : s.bytes.length = 254)
    (hk : K k) {c : UInt8}
    (hbr : BranchesAt s.dict k c) (h0 : c ≠ 0) (hc : c ∉ s.bytes)
    (hlam : ∀ k' ∈ inserted (os ++ [.update k]), k'.length ≤ 2 ^ (i.symbBits - 8))
    (qs : List Key) (hq : ∀ q ∈ qs, K q) :
    Returns (a.AtLimit p i (os ++ [.update k]))
      (a.history p i (os ++ .update k :: (.find k :: qs.map .find ++ [.size])))
      (xs ++ .value (List.replicate p.valSize 0) ::
        (.found none :: qs.map (fun q => .found (s.dict.get q)) ++ [.count (s.dict.length + 1)])) := by
  have hl := Alias.lost h hs hb hbr h0 hc (k :: qs) (by
    intro q hm
    rcases List.mem_cons.1 hm with rfl | hm
    · exact hk
    · exact hq q hm) hk
  simp only [List.map_cons, hbr.2.1] at hl
  cases hr : a.history p i (os ++ .update k :: (.find k :: qs.map .find ++ [.size])) with
  | ok zs => rw [hr] at hl; exact Or.inl (by rw [hl.2])
  | error e =>
    rw [hr] at hl
    rcases hl with ⟨h1, rfl | rfl⟩ | ⟨_, h1 | ⟨k', h1, h2⟩⟩
    · exact Or.inr ⟨h1, Or.inl rfl⟩
    · exact Or.inr ⟨h1, Or.inr rfl⟩
    · rw [hp] at h1; cases h1
    · have := hlam k' h1; omega

/-- **C13** The same for keys of any length: the key is lost, or (if some key is longer than `lambda`) the `update`
runs into a node without a label. -/
theorem C13_lost_key_long {k : Key} (h : a.Admissible p i K (os ++ [.update k])) {s : AState} {xs : List Out}
    (hs : AState.run p.valSize {} os = some (s, xs)) (hb : s.bytes.length = 254)
    (hk : K k) {c : UInt8}
    (hbr : BranchesAt s.dict k c) (h0 : c ≠ 0) (hc : c ∉ s.bytes)
    (qs : List Key) (hq : ∀ q ∈ qs, K q) :
    Returns (a.AtLimit p i (os ++ [.update k]))
      (a.history p i (os ++ .update k :: (.find k :: qs.map .find ++ [.size])))
      (xs ++ .value (List.replicate p.valSize 0) ::
        (.found none :: qs.map (fun q => .found (s.dict.get q)) ++ [.count (s.dict.length + 1)])) ∨
    a.history p i (os ++ .update k :: (.find k :: qs.map .find ++ [.size])) = .error .assertion := by
  have hl := Alias.lost h hs hb hbr h0 hc (k :: qs) (by
    intro q hm
    rcases List.mem_cons.1 hm with rfl | hm
    · exact hk
    · exact hq q hm) hk
  simp only [List.map_cons, hbr.2.1] at hl
  cases hr : a.history p i (os ++ .update k :: (.find k :: qs.map .find ++ [.size])) with
  | ok zs => rw [hr] at hl; exact Or.inl (Or.inl (by rw [hl.2]))
  | error e =>
    rw [hr] at hl
    rcases hl with ⟨h1, rfl | rfl⟩ | ⟨rfl, _⟩
    · exact Or.inl (Or.inr ⟨h1, Or.inl rfl⟩)
    · exact Or.inl (Or.inr ⟨h1, Or.inr rfl⟩)
    · exact Or.inr rfl

/-- **C13** With assertions compiled in, such an `update` aborts the program. -/
theorem C13_debug_abort {k : Key} (h : a.Admissible p i K (os ++ [.update k])) (hp : p.dbg = true) {s : AState} {xs : List Out}
    (hs : AState.run p.valSize {} os = some (s, xs)) (hb : s.bytes.length = 254)
    (hk : K k) {c : UInt8}
    (hbr : BranchesAt s.dict k c) (h0 : c ≠ 0) (hc : c ∉ s.bytes) :
    a.answer p i os (.update k) = .error .assertion ∨
      (a.AtLimit p i (os ++ [.update k]) ∧
        (a.answer p i os (.update k) = .error .limit ∨ a.answer p i os (.update k) = .error .throw)) := by
  have hl := Alias.lost h hs hb hbr h0 hc [] (by simp) hk
  have he : ∀ e, a.history p i (os ++ .update k :: ([].map .find ++ [.size])) = .error e →
      a.answer p i os (.update k) = .error e := by
    intro e he
    unfold Alias.history at he
    unfold Alias.answer
    cases hn : a.new p i with
    | error e' => rw [hn] at he; injection he with he; subst he; rfl
    | ok m =>
      rw [hn] at he
      simp only [R.bind_ok] at he ⊢
      rw [Map.run_append] at he
      cases hr : Map.run (a.cfg p) m os with
      | error e' => rw [hr] at he; injection he with he; subst he; rfl
      | ok y =>
        obtain ⟨m1, ys⟩ := y
        rw [hr] at he
        simp only [R.bind_ok, Map.run] at he ⊢
        cases hx : Map.exec (a.cfg p) m1 (.update k) with
        | error e' => rw [hx] at he; injection he with he; subst he; rfl
        | ok z => rw [hx] at he; simp [Map.run, Map.exec] at he
  cases hr : a.history p i (os ++ .update k :: ([].map .find ++ [.size])) with
  | ok zs => rw [hr, ] at hl; have := hl.1; rw [hp] at this; cases this
  | error e =>
    rw [hr] at hl
    have := he e hr
    rcases hl with ⟨h1, rfl | rfl⟩ | ⟨rfl, _⟩
    · exact Or.inr ⟨h1, Or.inl this⟩
    · exact Or.inr ⟨h1, Or.inr this⟩
    · exact Or.inl this

/-- a build without assertions -/
def relParams : Params := { demoParams with dbg := false }

/-- `fill` uses up 253 byte values (2 .. 254); `[255, 0]` is refused; the byte value 1 is left -/
def fill3 : List Op := fill ++ [.update [255, 0]]

theorem fill3_run : AState.run 4 {} fill3 = some (⟨ones 4 (1 :: bytes253), 255 :: bytes253.reverse⟩,
    List.replicate 254 (.value [0, 0, 0, 0]) ++ [.exn]) := by
  have h255 : (255 : UInt8) ∉ (1 :: bytes253) := by
    simp only [List.mem_cons, bytes253_mem, not_or]; decide
  have h255' : (255 : UInt8) ∉ bytes253.reverse := by
    rw [List.mem_reverse, bytes253_mem]; decide
  have hne : ones 4 (1 :: bytes253) ≠ [] := by simp [ones]
  have hm1 : ¬ Malformed [255, 0] := by decide
  have n1 : AState.newByte ⟨ones 4 (1 :: bytes253), bytes253.reverse⟩ (.update [255, 0]) = some 255 := by
    rw [AState.newByte_iff]
    refine ⟨[255, 0], by simp [Op.inserts, hm1], ⟨hne, get_ones 4 _ _ h255, ?_⟩, by decide, ?_⟩
    · rw [branchByte, branchPos_ones 4 _ _ _ h255]; rfl
    · dsimp only; exact h255'
  have s1 : AState.step 4 ⟨ones 4 (1 :: bytes253), bytes253.reverse⟩ (.update [255, 0]) =
      some (⟨ones 4 (1 :: bytes253), 255 :: bytes253.reverse⟩, .exn) := by
    simp only [AState.step, n1]
    rw [if_neg (by simp [bytes253_length]), if_pos (by simp [bytes253_length])]
  rw [fill3, AState.run_append, run_fill253, Option.bind_some]
  simp only [AState.run, Option.bind_eq_bind]
  rw [s1, Option.bind_some]
  rfl

theorem fill3_admissible (a : Alias) (q : Params) (hq : q.Valid) (h4 : q.valSize = 4) : a.Admissible q .default (CStrings 4) (fill3 ++ [.update [2, 1, 0]]) :=
  ⟨hq, trivial, h4 ▸ keySet_cstrings 4, by
    intro o ho
    rw [h4]
    rcases List.mem_append.1 ho with h | h
    · rcases List.mem_append.1 h with h | h
      · exact fill_legal (by decide) o h
      · exact legal_of (by decide) o h
    · exact legal_of (by decide) o h, by
    refine Or.inr (Or.inr (Or.inl ?_))
    intro k hk
    rw [fill3, Spec.inserted_append, Spec.inserted_append, List.mem_append, List.mem_append] at hk
    rcases hk with (hk | hk) | hk
    · exact fill_no_zero k hk
    · revert k; decide
    · revert k; decide⟩

theorem fill3_cost : cost (fill3 ++ [.update [2, 1, 0]]) < 50000 := by
  have : cost (fill3 ++ [.update [2, 1, 0]]) = cost fill + 5 := by simp [cost, fill3, Op.cost]
  rw [this, fill_total]; decide

theorem fill3_branches : BranchesAt (ones 4 (1 :: bytes253)) [2, 1, 0] 1 := by
  have h2 : (2 : UInt8) ∈ (1 :: bytes253) := by
    simp only [List.mem_cons, bytes253_mem]; decide
  exact ⟨by simp [ones], get_ones_long 4 _ 2 1 [0] (by decide), by
    rw [branchByte, branchPos_ones_mem 4 _ 2 1 [0] h2 (by decide)]; rfl⟩

theorem fill3_left : (1 : UInt8) ∉ 255 :: bytes253.reverse := by
  rw [List.mem_cons, List.mem_reverse, bytes253_mem]; decide

theorem fill3_short : ∀ k' ∈ inserted (fill3 ++ [.update [2, 1, 0]]), k'.length ≤ 2 ^ (Init.default.symbBits - 8) := by
  intro k' hk'
  rw [fill3, Spec.inserted_append, Spec.inserted_append, List.mem_append, List.mem_append] at hk'
  have h32 : 2 ^ (Init.default.symbBits - 8) = 32 := rfl
  rw [h32]
  rcases hk' with (hk' | hk') | hk'
  · rw [fill, fill_inserted, List.mem_map] at hk'
    obtain ⟨c, _, rfl⟩ := hk'
    simp
  · have : k' = [255, 0] := by
      have hm : ¬ Malformed [255, 0] := by decide
      simpa [inserted, Op.inserts, hm] using hk'
    rw [this]; decide
  · have : k' = [2, 1, 0] := by
      have hm : ¬ Malformed [2, 1, 0] := by decide
      simpa [inserted, Op.inserts, hm] using hk'
    rw [this]; decide

/-- the hypotheses are met: `update([2, 1, 0])` answers like an insertion, `find` disagrees -/
example (a : Alias) : a.history relParams .default (fill3 ++ [.update [2, 1, 0], .find [2, 1, 0], .find [2, 0], .size]) =
    .ok (List.replicate 254 (.value [0, 0, 0, 0]) ++ [.exn] ++
      [.value [0, 0, 0, 0], .found none, .found (some [0, 0, 0, 0]), .count 255]) := by
  have hg : (ones 4 (1 :: bytes253)).get [2, 0] = some [0, 0, 0, 0] := rfl
  have hl : (ones 4 (1 :: bytes253)).length = 254 := by simp [ones, bytes253_length]
  have h := (C13_lost_key (a := a) (fill3_admissible a relParams ⟨by decide, by decide, by decide⟩ rfl) rfl fill3_run (by simp [bytes253_length])
    (k := [2, 1, 0]) ⟨⟨[2, 1], by decide, rfl⟩, by decide⟩ fill3_branches (by decide) fill3_left fill3_short
    [[2, 0]] (by intro q hq; simp only [List.mem_singleton] at hq; subst hq; exact ⟨⟨[2], by decide, rfl⟩, by decide⟩)).ok
    (within a fill3_cost)
  simp only [hl] at h
  exact h

/-- with assertions compiled in -/
example (a : Alias) : a.answer demoParams .default fill3 (.update [2, 1, 0]) = .error .assertion := by
  have h := C13_debug_abort (a := a) (fill3_admissible a demoParams demo_valid rfl) rfl
    fill3_run (by simp [bytes253_length])
    (k := [2, 1, 0]) ⟨⟨[2, 1], by decide, rfl⟩, by decide⟩ fill3_branches (by decide) fill3_left
  rcases h with h | ⟨h, _⟩
  · exact h
  · exact absurd h (within a fill3_cost)

/-- and no exception any more -/
example (a : Alias) (zs : List Out) (hz : a.history demoParams .default (fill3 ++ [.update [2, 1, 0]]) = .ok zs) :
    zs[255]? ≠ some .exn := by
  have hlen : fill3.length = 255 := by simp [fill3, fill, fillKeys, bytes253_length]
  have := C13_never_throws_again (a := a) (fill3_admissible a demoParams demo_valid rfl).append_left fill3_run (by simp [bytes253_length])
    [.update [2, 1, 0]] hz 0 [2, 1, 0] (by decide) (Or.inl rfl)
  rwa [hlen] at this

end Poplar.Props
