import Verif.Props.Fill
/-
  C36: exactly when the byte codes are exhausted.

  `AState` (Spec/Alphabet.lean) is a dictionary together with the set of non-NUL byte values at which inserted keys
  have branched off the keys present at that time.
-/
namespace Poplar.Props
open Poplar Poplar.Spec

variable {a : Alias} {p : Params} {i : Init} {K : Key → Prop} {os : List Op}

/-- **C36** All observations, as long as no insertion needs a 255th byte value: an insertion is refused with an
exception exactly if the new key branches off at the 254th byte value, which changes nothing else. -/
theorem C36_exact (h : a.Admissible p i K os) {s : AState} {xs : List Out} (hs : AState.run p.valSize {} os = some (s, xs)) :
    Returns (a.AtLimit p i os) (a.history p i os) xs :=
  Alias.history_exact h hs

/-- **C36** A well-formed `update` throws exactly if 253 byte values are used up and the new key branches off at
another one. -/
theorem C36_throws_iff {k : Key} (h : a.Admissible p i K (os ++ [.update k])) (hk : ¬ Malformed k)
    {s : AState} {xs : List Out} (hs : AState.run p.valSize {} os = some (s, xs)) (hlen : s.bytes.length ≤ 253) :
    ∃ x, Returns (a.AtLimit p i (os ++ [.update k])) (a.answer p i os (.update k)) x ∧
      (x = .exn ↔ s.bytes.length = 253 ∧ ∃ c, BranchesAt s.dict k c ∧ c ≠ 0 ∧ c ∉ s.bytes) := by
  have hin : (Op.update k).inserts = some k := by simp [Op.inserts, hk]
  have hnoexn : (step p.valSize s.dict (.update k)).2 ≠ .exn := by
    simp only [step, hk, if_false]
    cases s.dict.get k <;> simp
  have hnb := fun c => s.newByte_iff (.update k) c
  simp only [hin, Option.some.injEq] at hnb
  cases hn : s.newByte (.update k) with
  | none =>
    refine ⟨_, Alias.answer_exact h hs (by simp only [AState.step, hn]; rfl), ⟨fun e => absurd e hnoexn, ?_⟩⟩
    rintro ⟨_, c, hc⟩
    have := (hnb c).2 ⟨k, rfl, hc⟩
    rw [hn] at this; cases this
  | some c =>
    obtain ⟨_, rfl, hc⟩ := (hnb c).1 hn
    by_cases hlt : s.bytes.length < 253
    · refine ⟨_, Alias.answer_exact h hs (by simp only [AState.step, hn, hlt, if_true]; rfl), ⟨fun e => absurd e hnoexn, fun e => by omega⟩⟩
    · have heq : s.bytes.length = 253 := by omega
      refine ⟨.exn, Alias.answer_exact h hs (by simp only [AState.step, hn, heq]; rfl), ⟨fun _ => ⟨heq, c, hc⟩, fun _ => rfl⟩⟩

/-- `fill` uses up 253 byte values; then: another byte value, a key that branches off at a used one, and a look at the
result -/
def fill2 : List Op := fill ++ [.update [255, 0], .update [2, 3, 0], .find [255, 0], .size]

theorem fill2_run : ∃ s, AState.run 4 {} fill2 = some (s, List.replicate 254 (.value [0, 0, 0, 0]) ++
    [.exn, .value [0, 0, 0, 0], .found none, .count 255]) := by
  have h255 : (255 : UInt8) ∉ (1 :: bytes253) := by
    simp only [List.mem_cons, bytes253_mem, not_or]; decide
  have h255' : (255 : UInt8) ∉ bytes253.reverse := by
    rw [List.mem_reverse, bytes253_mem]; decide
  have h2 : (2 : UInt8) ∈ (1 :: bytes253) := by
    simp only [List.mem_cons, bytes253_mem]; decide
  have h3 : (3 : UInt8) ∈ bytes253.reverse := by
    rw [List.mem_reverse, bytes253_mem]; decide
  have hne : ones 4 (1 :: bytes253) ≠ [] := by simp [ones]
  have hm1 : ¬ Malformed [255, 0] := by decide
  have hm2 : ¬ Malformed [2, 3, 0] := by decide
  have n1 : AState.newByte ⟨ones 4 (1 :: bytes253), bytes253.reverse⟩ (.update [255, 0]) = some 255 := by
    rw [AState.newByte_iff]
    refine ⟨[255, 0], by simp [Op.inserts, hm1], ⟨hne, get_ones 4 _ _ h255, ?_⟩, by decide, ?_⟩
    · rw [branchByte, branchPos_ones 4 _ _ _ h255]; rfl
    · dsimp only; exact h255'
  have s1 : AState.step 4 ⟨ones 4 (1 :: bytes253), bytes253.reverse⟩ (.update [255, 0]) =
      some (⟨ones 4 (1 :: bytes253), 255 :: bytes253.reverse⟩, .exn) := by
    simp only [AState.step, n1]
    rw [if_neg (by simp [bytes253_length]), if_pos (by simp [bytes253_length])]
  have n2 : AState.newByte ⟨ones 4 (1 :: bytes253), 255 :: bytes253.reverse⟩ (.update [2, 3, 0]) = none := by
    simp only [AState.newByte, Op.inserts, hm2, if_false, hne, get_ones_long 4 _ 2 3 [0] (by decide), branchByte,
      branchPos_ones_mem 4 _ 2 3 [0] h2 (by decide)]
    simp [h3]
  have s2 : AState.step 4 ⟨ones 4 (1 :: bytes253), 255 :: bytes253.reverse⟩ (.update [2, 3, 0]) =
      some (⟨ones 4 (1 :: bytes253) ++ [([2, 3, 0], [0, 0, 0, 0])], 255 :: bytes253.reverse⟩, .value [0, 0, 0, 0]) := by
    simp only [AState.step, n2, step, hm2, if_false, get_ones_long 4 _ 2 3 [0] (by decide),
      set_ones_length 4 _ 2 3 [0] _ (by decide)]
    rfl
  have hg : (ones 4 (1 :: bytes253) ++ [(([2, 3, 0] : Key), ([0, 0, 0, 0] : Val))]).get [255, 0] = none := by
    rw [← set_ones_length 4 _ 2 3 [0] _ (by decide), Dict.get_set, if_neg (by decide), get_ones 4 _ _ h255]
  have hl : (ones 4 (1 :: bytes253) ++ [(([2, 3, 0] : Key), ([0, 0, 0, 0] : Val))]).length = 255 := by
    simp [ones, bytes253_length]
  have hm3 : ¬ Malformed [255, 0] := by decide
  have s3 : AState.step 4 ⟨ones 4 (1 :: bytes253) ++ [([2, 3, 0], [0, 0, 0, 0])], 255 :: bytes253.reverse⟩ (.find [255, 0]) =
      some (⟨ones 4 (1 :: bytes253) ++ [([2, 3, 0], [0, 0, 0, 0])], 255 :: bytes253.reverse⟩, .found none) := by
    have : AState.newByte ⟨ones 4 (1 :: bytes253) ++ [([2, 3, 0], [0, 0, 0, 0])], 255 :: bytes253.reverse⟩
      (.find [255, 0]) = none := rfl
    simp only [AState.step, this, step, hm3, if_false, hg]
  have s4 : AState.step 4 ⟨ones 4 (1 :: bytes253) ++ [([2, 3, 0], [0, 0, 0, 0])], 255 :: bytes253.reverse⟩ .size =
      some (⟨ones 4 (1 :: bytes253) ++ [([2, 3, 0], [0, 0, 0, 0])], 255 :: bytes253.reverse⟩, .count 255) := by
    have : AState.newByte ⟨ones 4 (1 :: bytes253) ++ [([2, 3, 0], [0, 0, 0, 0])], 255 :: bytes253.reverse⟩
      .size = none := rfl
    simp only [AState.step, this, step, hl]
  refine ⟨⟨ones 4 (1 :: bytes253) ++ [([2, 3, 0], [0, 0, 0, 0])], 255 :: bytes253.reverse⟩, ?_⟩
  rw [fill2, AState.run_append, run_fill253, Option.bind_some]
  simp only [AState.run, Option.bind_eq_bind]
  rw [s1, Option.bind_some]
  dsimp only
  rw [s2, Option.bind_some]
  dsimp only
  rw [s3, Option.bind_some]
  dsimp only
  rw [s4, Option.bind_some]
  simp only [Option.bind_some, Option.pure_def, Option.map_some]
  rfl

theorem fill2_admissible (a : Alias) : a.Admissible demoParams .default (CStrings 4) fill2 :=
  ⟨demo_valid, trivial, keySet_cstrings 4, by
    intro o ho
    rcases List.mem_append.1 ho with h | h
    · exact fill_legal (by decide) o h
    · exact legal_of (by decide) o h, by
    refine Or.inr (Or.inr (Or.inl ?_))
    intro k hk
    rw [fill2, Spec.inserted_append, List.mem_append] at hk
    rcases hk with hk | hk
    · exact fill_no_zero k hk
    · revert k; decide⟩

theorem fill2_cost : cost fill2 < 50000 := by
  have : cost fill2 = cost fill + 5 := by simp [cost, fill2, Op.cost]
  rw [this, fill_total]; decide

/-- the hypotheses are met: the 254th byte value is refused, and the map goes on working -/
example (a : Alias) : a.history demoParams .default fill2 = .ok (List.replicate 254 (.value [0, 0, 0, 0]) ++
    [.exn, .value [0, 0, 0, 0], .found none, .count 255]) := by
  obtain ⟨s, h⟩ := fill2_run
  exact (C36_exact (fill2_admissible a) h).ok (within a fill2_cost)

end Poplar.Props
