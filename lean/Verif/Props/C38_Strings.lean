import Verif.Proof.Strings
import Verif.Props.Demo
/-
  C38: the `std::string` overloads and `make_char_range`.
-/
namespace Poplar.Props
open Poplar Poplar.Spec

variable {a : Alias} {p : Params} {i : Init} {os : List SOp}

/-- what C38 assumes about a history of string operations: `std::string`s contain no NUL, `const char*`s are terminated; and
the debug assertion of plain_fkhash_trie.hpp:104 is not in the way (see C30) -/
structure StrUse (a : Alias) (p : Params) (i : Init) (os : List SOp) : Prop where
  params : p.Valid
  init : i.Fits
  legal : ∀ o ∈ os, o.Legal p.valSize
  assertOk : a.plainFk = false ∨ p.dbg = false ∨ [] ∉ sinserted os ∨ (sinserted os).head? = some []

/-- **C38** A map used through `find(const std::string&)`, `update(const std::string&)` and `make_char_range(const char*)` is a
dictionary keyed by character strings: the empty string is an ordinary key, the same characters given either way are the
same key, and nothing ever throws (as long as the strings use at most 253 different characters). -/
theorem C38_string_dictionary (h : StrUse a p i os)
    (hA : ∃ A : List UInt8, A.length ≤ 253 ∧ ∀ s ∈ sinserted os, ∀ c ∈ s, c ∈ A) :
    Returns (a.nodeLimit p i.symbBits i.capa0 ≤ nodesFor i.lambda ((sinserted os).map (· ++ [0]))) (a.shistory p i os) (srun p.valSize [] os).2 := by
  have hadm : a.Admissible p i (CStrings p.valSize) (os.map SOp.toOp) := by
    refine ⟨h.params, h.init, keySet_cstrings _, ?_, ?_⟩
    · intro o ho
      obtain ⟨o', ho', rfl⟩ := List.mem_map.1 ho
      exact (h.legal o' ho').toOp
    · have hl := h.legal
      rcases h.assertOk with h | h | h | h
      · exact Or.inl h
      · exact Or.inr (Or.inl h)
      · refine Or.inr (Or.inr (Or.inl ?_))
        rw [inserted_toOp]
        intro k hc hk
        obtain ⟨s, hs, rfl⟩ := List.mem_map.1 hc
        cases s with
        | nil => exact h hs
        | cons c s =>
          simp only [List.cons_append, List.head?_cons, Option.some.injEq] at hk
          subst hk
          obtain ⟨o, ho, hos⟩ := List.mem_filterMap.1 hs
          have hq : ∃ q, o.key? = some q ∧ q.chars = 0 :: s := by
            cases o <;> simp only [SOp.inserts, Option.some.injEq, reduceCtorEq] at hos
            · exact ⟨_, rfl, hos⟩
            · exact ⟨_, rfl, hos⟩
          obtain ⟨q, q1, q2⟩ := hq
          have := KeySrc.Legal.nul ((hl o ho).1 q q1).1
          rw [q2] at this
          exact this (by simp)
      · refine Or.inr (Or.inr (Or.inr ?_))
        rw [inserted_toOp, List.head?_map, h]; exact ⟨[], rfl⟩
  have hsm : SmallAlphabet (os.map SOp.toOp) := by
    obtain ⟨A, A1, A2⟩ := hA
    refine ⟨A, A1, ?_⟩
    rw [inserted_toOp]
    intro k hk c hc h0
    obtain ⟨s, hs, rfl⟩ := List.mem_map.1 hk
    rcases List.mem_append.1 hc with hc | hc
    · exact A2 s hs c hc
    · exact absurd (List.mem_singleton.1 hc) h0
  have := Alias.history_spec hadm hsm
  have hr : (run p.valSize [] (os.map SOp.toOp)).2 = (srun p.valSize [] os).2 := by
    have := congrArg Prod.snd (srun_eq p.valSize os [])
    exact this
  rw [hr, Alias.AtLimit, inserted_toOp] at this
  unfold Alias.shistory
  unfold Alias.history at this
  cases hm : a.new p i with
  | error e => rw [hm] at this; exact this
  | ok m =>
    rw [hm] at this
    simp only [R.bind_ok] at this ⊢
    rw [Map.srun_eq (a.cfg p) os m (fun o ho k hk => ((h.legal o ho).1 k hk).1)]
    exact this

/-- **C38** `make_char_range(const char*)` reads the memory up to the first NUL only: what comes after it does not matter, the
range it makes is never rejected as malformed and is the one made for the `std::string` with the same characters. Without a
NUL in the accessible memory it is undefined behaviour. -/
theorem C38_c_strings (mem : List UInt8) :
    (∀ s r, mem = s ++ 0 :: r → 0 ∉ s →
      makeCharRangeC mem = .ok (s ++ [0]) ∧ makeCharRangeS s = makeCharRangeC mem ∧ CString (s ++ [0]) ∧ ¬ Malformed (s ++ [0])) ∧
    (0 ∉ mem → makeCharRangeC mem = .error .oob) := by
  constructor
  · rintro s r rfl hs
    have hw : (s ++ 0 :: r).takeWhile (· ≠ 0) = s := by
      rw [List.takeWhile_append_of_pos (by intro c hc; simp only [ne_eq, decide_eq_true_eq]; rintro rfl; exact hs hc)]
      simp
    have h := makeCharRangeC_eq (mem := s ++ 0 :: r) (by simp)
    rw [hw] at h
    exact ⟨h, by rw [h]; exact makeCharRangeS_eq s, ⟨s, fun c hc e => hs (e ▸ hc), rfl⟩, not_malformed_term s⟩
  · intro h
    unfold makeCharRangeC
    rw [strlen_oob h]; rfl

/-- **C38** The argument checks of `find` and `update` never fire for a `std::string`, whatever it contains; and the
`std::string` overload and the `const char*` of the same string (`s.c_str()`) mean the same key exactly when it contains no
NUL. -/
theorem C38_never_malformed (s : List UInt8) :
    (∃ k, makeCharRangeS s = .ok k ∧ ¬ Malformed k) ∧ (makeCharRangeC (s ++ [0]) = makeCharRangeS s ↔ 0 ∉ s) := by
  refine ⟨⟨_, makeCharRangeS_eq s, not_malformed_term s⟩, ?_⟩
  rw [makeCharRangeC_eq (by simp), makeCharRangeS_eq]
  constructor
  · intro h
    injection h with h
    have := List.append_cancel_right h
    rw [← this]
    exact not_mem_takeWhile _
  · intro h
    have hw : (s ++ [0]).takeWhile (· ≠ 0) = s := by
      rw [List.takeWhile_append_of_pos (by intro c hc; simp only [ne_eq, decide_eq_true_eq]; rintro rfl; exact h hc)]
      simp
    rw [hw]

/-- the hypotheses are met, with the empty string and both kinds of keys -/
example (a : Alias) (h : a.plainFk = false) : a.shistory demoParams .default
    [.write (.string []) [1, 2, 3, 4], .write (.string [97, 98]) [5, 6, 7, 8], .find (.cstr [97, 98, 0, 120]), .find (.cstr [0]),
     .find (.string [97]), .size] =
    .ok [.done, .done, .found (some [5, 6, 7, 8]), .found (some [1, 2, 3, 4]), .found none, .count 2] := by
  refine (C38_string_dictionary (a := a) (p := demoParams) (i := .default) (os :=
    [.write (.string []) [1, 2, 3, 4], .write (.string [97, 98]) [5, 6, 7, 8], .find (.cstr [97, 98, 0, 120]), .find (.cstr [0]),
     .find (.string [97]), .size]) ⟨demo_valid, trivial, ?_, Or.inl h⟩ ⟨[97, 98], by decide, by decide⟩).ok ?_
  · intro o ho
    simp only [List.mem_cons, List.not_mem_nil, or_false] at ho
    rcases ho with rfl | rfl | rfl | rfl | rfl | rfl
    all_goals refine ⟨?_, ?_⟩
    all_goals first
      | (intro k hk; injection hk with hk; subst hk; exact ⟨by simp [KeySrc.Legal], by decide⟩)
      | (intro k hk; cases hk; done)
      | (intro k v e; injection e with e1 e2; subst e2; rfl)
      | (intro k v e; cases e)
  · have : 50000 ≤ a.nodeLimit demoParams 13 (Init.capa0 .default) := by cases a <;> decide
    have hc : nodesFor 32 ((sinserted [.write (.string []) [1, 2, 3, 4], .write (.string [97, 98]) [5, 6, 7, 8], .find (.cstr [97, 98, 0, 120]),
      .find (.cstr [0]), .find (.string [97]), .size]).map (· ++ [0])) = 2 := by decide
    simp only [Init.symbBits, Init.lambda]
    omega

end Poplar.Props
