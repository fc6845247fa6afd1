import Verif.Props.C07_Map
import Verif.Proof.FillKeys
import Verif.Proof.FillBKeys
/-
  C48: the size limit of `compact_fkhash_map` and `compact_bonsai_map` is real.
-/
namespace Poplar.Props
open Poplar Poplar.Spec

variable {p : Params}

/-- a word of lower-case letters, followed by NUL -/
def Word (n : Nat) (k : Key) : Prop := ∃ s : List UInt8, k = s ++ [0] ∧ s ≠ [] ∧ s.length ≤ n ∧ ∀ c ∈ s, 97 ≤ c.toNat ∧ c.toNat ≤ 122

theorem nodesFor_words {ks : List Key} (h : ∀ k ∈ ks, Word 41 k) : nodesFor 32 ks ≤ 2 * ks.length := by
  induction ks with
  | nil => exact Nat.le_refl _
  | cons k ks ih =>
    have := ih fun k hk => h k (by simp [hk])
    obtain ⟨s, rfl, _, hs, _⟩ := h k (by simp)
    rw [nodesFor, List.length_cons]
    split
    · omega
    · rw [keyNodes, List.length_append, List.length_singleton]
      omega

theorem Word.not_malformed {n : Nat} {k : Key} (h : Word n k) : ¬ Malformed k := by
  obtain ⟨s, rfl, _, _, _⟩ := h
  rintro (h | ⟨t, c, h, hc⟩)
  · simp at h
  · have := congrArg List.getLast? h
    simp at this
    exact hc this.symm

theorem Word.cstring {n : Nat} {k : Key} (h : Word n k) : CString k := by
  obtain ⟨s, rfl, _, _, h⟩ := h
  refine ⟨s, fun c hc e => ?_, rfl⟩
  have := h c hc
  subst e
  simp at this

theorem inserted_words {n : Nat} {ks : List Key} (h : ∀ k ∈ ks, Word n k) : inserted (ks.map .update) = ks := by
  induction ks with
  | nil => rfl
  | cons k ks ih =>
    have h1 := (h k (by simp)).not_malformed
    have h2 := ih fun k hk => h k (by simp [hk])
    simp only [inserted, List.map_cons, List.filterMap_cons, Op.inserts, if_neg h1] at h2 ⊢
    rw [h2]

/-- up to the limit, words can be inserted -/
theorem words_inserted {a : Alias} {i : Init} (hp : p.Valid) (hv : p.valSize < 2 ^ 63) (hi : i.Fits) (hl : i.lambda = 32) {ks : List Key}
    (h : ∀ k ∈ ks, Word 41 k) (hlim : 2 * ks.length < a.nodeLimit p i.symbBits i.capa0) :
    ∃ xs, a.history p i (ks.map .update) = .ok xs ∧ xs.length = ks.length := by
  have hin := inserted_words h
  have hadm : a.Admissible p i (CStrings p.valSize) (ks.map .update) := by
    refine ⟨hp, hi, keySet_cstrings _, ?_, .inr (.inr (.inl ?_))⟩
    · intro o ho
      obtain ⟨k, hk, rfl⟩ := List.mem_map.mp ho
      refine ⟨fun k' e => ?_, fun _ _ e => by cases e⟩
      injection e with e
      subst e
      refine .inl ⟨(h k hk).cstring, ?_⟩
      obtain ⟨s, rfl, _, hs, _⟩ := h k hk
      rw [List.length_append, List.length_singleton]
      omega
    · rw [hin]
      intro k hk
      obtain ⟨s, rfl, hne, hs, hc⟩ := h k hk
      cases s with
      | nil =>
        exact absurd rfl hne
      | cons c s =>
        intro e
        simp at e
        have := hc c (by simp)
        rw [e] at this
        simp at this
  have hA : SmallAlphabet (ks.map .update) := by
    refine ⟨(List.range 26).map (fun n => UInt8.ofNat (97 + n)), by simp, ?_⟩
    rw [hin]
    intro k hk c hc h0
    obtain ⟨s, rfl, _, hs, hs2⟩ := h k hk
    rcases List.mem_append.mp hc with hc | hc
    · have := hs2 c hc
      refine List.mem_map.mpr ⟨c.toNat - 97, List.mem_range.mpr (by omega), ?_⟩
      rw [show 97 + (c.toNat - 97) = c.toNat by omega]
      simp
    · exact absurd (List.mem_singleton.mp hc) h0
  obtain ⟨xs, e1, e2⟩ := C07_no_undefined_behaviour hadm (C07_small_alphabet_supported _ hA) (by
    rw [Alias.AtLimit, hin, hl]
    have := nodesFor_words h
    omega)
  exact ⟨xs, e1, by simpa using e2⟩

/-- the maps without the table of displacements take the words -/
theorem plain_words {i : Init} (hi : i = .default ∨ ∃ cb ≤ 16, i = .make cb 32) (hp : p.Valid) (hv : p.valSize < 2 ^ 63) (hf : 81 ≤ p.maxFactor)
    {ks : List Key} (h : ∀ k ∈ ks, Word 41 k) (hl : ks.length < 60000) {a : Alias} (ha1 : a ≠ .compactFkhash) (ha2 : a ≠ .compactBonsai) :
    ∃ xs, a.history p i (ks.map .update) = .ok xs := by
  have hsb : i.symbBits = 13 ∧ i.lambda = 32 ∧ i.Fits := by
    rcases hi with rfl | ⟨cb, hcb, rfl⟩
    · exact ⟨rfl, rfl, trivial⟩
    · have h5 : Nat.log2 32 = 5 := by decide
      refine ⟨by simp only [Init.symbBits]; omega, rfl, ⟨5, rfl⟩, ?_⟩
      omega
  have hlim : a.nodeLimit p 13 i.capa0 = maxSize (2 ^ 50) p.maxFactor := by
    cases a
    case compactBonsai => exact absurd rfl ha2
    case compactFkhash => exact absurd rfl ha1
    all_goals rfl
  obtain ⟨xs, e, _⟩ := words_inserted (a := a) hp hv hsb.2.2 hsb.2.1 h (by
    rw [hsb.1, hlim]
    unfold maxSize
    omega)
  exact ⟨xs, e⟩

/-- a large table takes the words -/
theorem large_words (hp : p.Valid) (hv : p.valSize < 2 ^ 63) (hf : 81 ≤ p.maxFactor) {ks : List Key} (h : ∀ k ∈ ks, Word 41 k) (hl : ks.length < 60000)
    {a : Alias} {cb : Nat} (h18 : 18 ≤ cb) (hcb : cb + 13 < 64) : ∃ xs, a.history p (.make cb 32) (ks.map .update) = .ok xs := by
  have h5 : Nat.log2 32 = 5 := by decide
  have e0 : maxSize (2 ^ 18) 80 = 209715 := by decide
  have hlim : 209715 ≤ a.nodeLimit p 13 cb := by
    have e1 : 2 ^ 18 ≤ 2 ^ max 16 cb := Nat.pow_le_pow_right (by decide) (by omega)
    have e3 : maxSize (2 ^ 18) 80 ≤ maxSize (2 ^ max 16 cb) 80 := maxSize_mono e1
    have e4 : 209715 ≤ maxSize (2 ^ 50) p.maxFactor := by unfold maxSize; omega
    cases a <;> simp only [Alias.nodeLimit]
    case compactBonsai => rw [if_neg (by omega)]; exact Nat.le_min.mpr ⟨e4, by omega⟩
    case compactFkhash => rw [if_neg (by omega)]; exact Nat.le_min.mpr ⟨e4, by omega⟩
    all_goals exact e4
  obtain ⟨xs, e, _⟩ := words_inserted (a := a) (i := .make cb 32) hp hv ⟨⟨5, rfl⟩, by omega⟩ rfl h (by
    have e3 : Init.symbBits (.make cb 32) = 13 := by simp only [Init.symbBits]; omega
    rw [e3]
    show _ < a.nodeLimit p 13 cb
    omega)
  exact ⟨xs, e⟩

/-- **C48** `compact_fkhash_map` keeps the displacements of 15 and more in a second table of fixed size, which can
overflow before the map grows: with the template arguments of the alias (a load limit of 81 % or more, `Dsp1Bits` 4, `Dsp2Bits` 7) there are 52654
different words of at most 41 lower-case letters such that inserting them one after the other into a new map runs into
the limit of that table (the model's `.error .limit`; in the code the assertion of compact_hash_table.hpp:53 fails, and in
release builds the new table is given a negative number of quotient bits), although the number of the words is smaller than the number of nodes up to
which the table of nodes is filled before it grows. So the hypothesis `¬ AtLimit` of C01 and the other
theorems on histories is needed; the limit in it, 52428 nodes, is less than half a percent below the number of these words. The four other kinds
of map without this second table take the same words, and so does `compact_fkhash_map` if 2^18 slots or more are
reserved by the constructor. -/
theorem C48_limit_is_real (hp : p.Valid) (h1 : p.dsp1Bits = 4) (h2 : p.dsp2Bits = 7) (hf : 81 ≤ p.maxFactor) (hv : p.valSize < 2 ^ 63) :
    ∃ ks : List Key, ks.length = 52654 ∧ ks.Nodup ∧ (∀ k ∈ ks, Word 41 k) ∧ ks.length < 2 ^ 16 * p.maxFactor / 100 ∧
      ∀ i : Init, (i = .default ∨ ∃ cb ≤ 16, i = .make cb 32) →
        Alias.history .compactFkhash p i (ks.map .update) = .error .limit ∧
        (∀ a : Alias, a ≠ .compactFkhash → a ≠ .compactBonsai → ∃ xs, a.history p i (ks.map .update) = .ok xs) ∧
        ∀ cb, 18 ≤ cb → cb + 13 < 64 → ∃ xs, Alias.history .compactFkhash p (.make cb 32) (ks.map .update) = .ok xs := by
  refine ⟨Fill.fillKeys, Fill.fillKeys_length, Fill.fillKeys_nodup, Fill.fillKeys_words, ?_, fun i hi => ⟨?_, ?_, ?_⟩⟩
  · rw [Fill.fillKeys_length]; omega
  · have hs : Fill.Std (Alias.compactCfg p) := by
      refine ⟨Alias.compactOK p, ?_, ?_, hf⟩
      · show 2 ^ p.dsp1Bits - 1 = 15
        rw [h1]
      · show 2 ^ p.dsp2Bits - 1 = 127
        rw [h2]
    have mk : ∀ cb ≤ 16, ∃ m, Map.make (Alias.cfg .compactFkhash p) cb 32 = .ok m ∧
        Map.FreshM (Alias.trieSpec .compactFkhash p 13 0 (by decide)) (Alias.nlmSpec .compactFkhash p hp) m ∧ m.trie.capa.bits = 16 := by
      intro cb hcb
      obtain ⟨m, e1, e2, e3⟩ := Map.make_ok (cfg := Alias.cfg .compactFkhash p) (TS := Alias.trieSpec .compactFkhash p 13 0 (by decide))
        (NS := Alias.nlmSpec .compactFkhash p hp) (by decide) (Alias.ok .compactFkhash p hp 13 0 (by decide)).min (cb := cb)
        (Nat.le_trans (Alias.cb0_le .compactFkhash p 13 0 (by decide)) (Nat.zero_le _)) (by rw [Alias.minb]; omega)
      refine ⟨m, e1, e2, ?_⟩
      rw [Alias.minb] at e3
      exact e3.trans (by omega)
    have key : ∃ m0, Alias.new .compactFkhash p i = .ok m0 ∧ Map.run (Alias.cfg .compactFkhash p) m0 (Fill.fillKeys.map .update) = .error .limit := by
      rcases hi with rfl | ⟨cb, hcb, rfl⟩
      · obtain ⟨m, e1, e2, e3⟩ := mk 0 (by decide)
        exact ⟨_, rfl, Fill.fill_limit hs hv e2 e3 (.inr ⟨rfl, e1⟩)⟩
      · obtain ⟨m, e1, e2, e3⟩ := mk cb hcb
        exact ⟨m, e1, Fill.fill_limit hs hv e2 e3 (.inl rfl)⟩
    generalize Fill.fillKeys = ks at key
    obtain ⟨m0, k1, k2⟩ := key
    unfold Alias.history
    rw [k1, R.bind_ok, k2]
    rfl
  · intro a ha1 ha2
    exact plain_words hi hp hv hf Fill.fillKeys_words (by rw [Fill.fillKeys_length]; decide) ha1 ha2
  · intro cb h18 hcb
    exact large_words hp hv hf Fill.fillKeys_words (by rw [Fill.fillKeys_length]; decide) h18 hcb

/-- **C48** The same for `compact_bonsai_map`, with 52655 other words. Its table of nodes would be doubled at 53084 nodes or more, but the
table of displacements overflows before. -/
theorem C48_limit_is_real_bonsai (hp : p.Valid) (h1 : p.dsp1Bits = 4) (h2 : p.dsp2Bits = 7) (hf : 81 ≤ p.maxFactor) (hv : p.valSize < 2 ^ 63) :
    ∃ ks : List Key, ks.length = 52655 ∧ ks.Nodup ∧ (∀ k ∈ ks, Word 41 k) ∧ ks.length < 2 ^ 16 * p.maxFactor / 100 ∧
      ∀ i : Init, (i = .default ∨ ∃ cb ≤ 16, i = .make cb 32) →
        Alias.history .compactBonsai p i (ks.map .update) = .error .limit ∧
        (∀ a : Alias, a ≠ .compactFkhash → a ≠ .compactBonsai → ∃ xs, a.history p i (ks.map .update) = .ok xs) ∧
        ∀ cb, 18 ≤ cb → cb + 13 < 64 → ∃ xs, Alias.history .compactBonsai p (.make cb 32) (ks.map .update) = .ok xs := by
  refine ⟨FillB.fillKeys, FillB.fillKeys_length, FillB.fillKeys_nodup, FillB.fillKeys_words, ?_, fun i hi => ⟨?_, ?_, ?_⟩⟩
  · rw [FillB.fillKeys_length]; omega
  · have hs : Fill.Std (Alias.compactCfg p) := by
      refine ⟨Alias.compactOK p, ?_, ?_, hf⟩
      · show 2 ^ p.dsp1Bits - 1 = 15
        rw [h1]
      · show 2 ^ p.dsp2Bits - 1 = 127
        rw [h2]
    have mk : ∀ cb ≤ 16, ∃ m, Map.make (Alias.cfg .compactBonsai p) cb 32 = .ok m ∧
        Map.FreshM (Alias.trieSpec .compactBonsai p 13 0 (by decide)) (Alias.nlmSpec .compactBonsai p hp) m ∧ m.trie.capa.bits = 16 := by
      intro cb hcb
      obtain ⟨m, e1, e2, e3⟩ := Map.make_ok (cfg := Alias.cfg .compactBonsai p) (TS := Alias.trieSpec .compactBonsai p 13 0 (by decide))
        (NS := Alias.nlmSpec .compactBonsai p hp) (by decide) (Alias.ok .compactBonsai p hp 13 0 (by decide)).min (cb := cb)
        (Nat.le_trans (Alias.cb0_le .compactBonsai p 13 0 (by decide)) (Nat.zero_le _)) (by rw [Alias.minb]; omega)
      refine ⟨m, e1, e2, ?_⟩
      rw [Alias.minb] at e3
      exact e3.trans (by omega)
    have key : ∃ m0, Alias.new .compactBonsai p i = .ok m0 ∧ Map.run (Alias.cfg .compactBonsai p) m0 (FillB.fillKeys.map .update) = .error .limit := by
      rcases hi with rfl | ⟨cb, hcb, rfl⟩
      · obtain ⟨m, e1, e2, e3⟩ := mk 0 (by decide)
        exact ⟨_, rfl, FillB.fill_limit hs hv e2 e3 (.inr ⟨rfl, e1⟩)⟩
      · obtain ⟨m, e1, e2, e3⟩ := mk cb hcb
        exact ⟨m, e1, FillB.fill_limit hs hv e2 e3 (.inl rfl)⟩
    generalize FillB.fillKeys = ks at key
    obtain ⟨m0, k1, k2⟩ := key
    unfold Alias.history
    rw [k1, R.bind_ok, k2]
    rfl
  · intro a ha1 ha2
    exact plain_words hi hp hv hf FillB.fillKeys_words (by rw [FillB.fillKeys_length]; decide) ha1 ha2
  · intro cb h18 hcb
    exact large_words hp hv hf FillB.fillKeys_words (by rw [FillB.fillKeys_length]; decide) h18 hcb

/-- the template arguments of the alias meet the hypotheses -/
example : ∃ ks : List Key, ks.length = 52655 ∧ ks.Nodup ∧
    Alias.history .compactBonsai demoParams .default (ks.map .update) = .error .limit := by
  obtain ⟨ks, a, b, _, _, c⟩ := C48_limit_is_real_bonsai demo_valid rfl rfl (by decide) (by decide)
  exact ⟨ks, a, b, (c _ (.inl rfl)).1⟩

/-- the template arguments of the alias meet the hypotheses -/
example : ∃ ks : List Key, ks.length = 52654 ∧ ks.Nodup ∧
    Alias.history .compactFkhash demoParams .default (ks.map .update) = .error .limit := by
  obtain ⟨ks, a, b, _, _, c⟩ := C48_limit_is_real demo_valid rfl rfl (by decide) (by decide)
  exact ⟨ks, a, b, (c _ (.inl rfl)).1⟩

end Poplar.Props
