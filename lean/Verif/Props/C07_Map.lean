import Verif.Props.Demo
import Verif.Proof.Exhaustion
/-
  C07-C12, C15, C17: safety, argument checks, constructors, alphabet exhaustion, pointers, capacity.
-/
namespace Poplar.Props
open Poplar Poplar.Spec

variable {a : Alias} {p : Params} {i : Init} {K : Key → Prop} {os : List Op}

/-- **C07** No history within the size limits reads or writes out of bounds, dereferences a null pointer, fails
an assertion, runs forever or lets an exception escape in the middle: every call returns. (All these are `.error`
in the model.) -/
theorem C07_no_undefined_behaviour (h : a.Admissible p i K os) (hs : Supported p.valSize os) (hl : ¬ a.AtLimit p i os) :
    ∃ xs, a.history p i os = .ok xs ∧ xs.length = os.length := by
  obtain ⟨s, xs, hs⟩ := hs
  exact ⟨xs, (Alias.history_exact h hs).ok hl, AState.run_length hs⟩

/-- **C07** Without any assumption on sizes: the only possible fault is the documented size limit. -/
theorem C07_only_limit_faults (h : a.Admissible p i K os) (hs : Supported p.valSize os) :
    a.history p i os ≠ .error .oob ∧ a.history p i os ≠ .error .assertion ∧ a.history p i os ≠ .error .diverge := by
  obtain ⟨s, xs, hs⟩ := hs
  rcases Alias.history_exact h hs with h | ⟨_, h | h⟩ <;> rw [h] <;> simp

/-- **C07** Histories over at most 253 byte values besides NUL are supported. -/
theorem C07_small_alphabet_supported (vs : Nat) (hA : SmallAlphabet os) : Supported vs os := hA.supported

example (a : Alias) := C07_no_undefined_behaviour (demo_admissible a .default trivial demo (by decide) (by decide))
  (C07_small_alphabet_supported _ (small_of [97, 98, 99, 120] (by decide) (by decide))) (within a (by decide))

/-- **C08** In every state whatsoever, `find` and `update` on a malformed key throw, and the map is unchanged. -/
theorem C08_malformed_rejected (a : Alias) (p : Params) (m : Map a.Trie a.Nlm) {k : Key} (hk : Malformed k) :
    Map.find (a.cfg p) m k = .error .throw ∧ Map.update (a.cfg p) m k = .ok (m, .exn) := by
  have hb := (badKey_iff k).2 hk
  constructor
  · unfold Map.find; rw [if_pos hb]
  · unfold Map.update; rw [if_pos hb]; rfl

theorem keySet_singleton {vs : Nat} {k : Key} (hk : ¬ Malformed k) (hl : k.length + vs < 2 ^ 64) : KeySet vs (· = k) :=
  ⟨by rintro _ rfl; exact not_malformed_iff.1 hk, by rintro _ rfl; exact hl, by rintro _ _ rfl rfl; exact Or.inl rfl⟩

/-- **C08** Conversely, well-formed keys are not rejected by the argument check: in a new map `find` answers
"not there". -/
theorem C08_wellformed_accepted (hp : p.Valid) (hi : i.Fits) {k : Key} (hk : ¬ Malformed k) (hl : k.length + p.valSize < 2 ^ 64) :
    a.answer p i [] (.find k) = .ok (.found none) := by
  have := Alias.answer_spec (os := []) (o := .find k) (a := a) (p := p) (i := i) (K := (· = k)) ⟨hp, hi, keySet_singleton hk hl, fun o ho => by
    have : o = .find k := by simpa using ho
    subst this
    exact ⟨fun k' e => by injection e with e; subst e; exact Or.inl rfl, (fun _ _ e => by cases e)⟩,
    Or.inr (Or.inr (Or.inl (by simp [inserted, Op.inserts])))⟩ ⟨[], by decide, by simp [inserted, Op.inserts]⟩
  simp only [step, hk, if_false, Spec.run, Dict.get] at this
  refine this.ok ?_
  simp only [Alias.AtLimit, Nat.not_le]
  show 0 < a.nodeLimit p i.symbBits i.capa0
  have hs : i.symbBits ≤ 47 := by
    cases i with
    | default => decide
    | make cb lam =>
      have := hi.2
      simp only [Init.symbBits]; omega
  have h16 : 2 ^ 16 ≤ 2 ^ (63 - i.symbBits) := Nat.pow_le_pow_right (by decide) (by omega)
  have : maxSize (2 ^ 16) p.maxFactor ≤ maxSize (2 ^ (63 - i.symbBits)) p.maxFactor := maxSize_mono h16
  have h0 : 0 < maxSize (2 ^ 16) p.maxFactor := by have := p.factor_ok.1; unfold maxSize; omega
  have h80 : 0 < maxSize (2 ^ max 16 i.capa0) 80 :=
    Nat.lt_of_lt_of_le (show 0 < maxSize (2 ^ 16) 80 by decide) (maxSize_mono (Nat.pow_le_pow_right (by decide) (by omega)))
  cases a <;> simp only [Alias.nodeLimit] <;> (try split) <;> omega

example : Malformed [97, 98] ∧ Malformed [] ∧ ¬ Malformed [97, 0] ∧ ¬ Malformed [97, 0, 0] := by decide

/-- **C09** `map(capa_bits, lambda)` throws for every `lambda` that is not a power of two. -/
theorem C09_bad_lambda (a : Alias) (p : Params) (cb : Nat) {lam : Nat} (h : ¬ ∃ l, lam = 2 ^ l) :
    a.new p (.make cb lam) = .error .throw := by
  show Map.make _ _ _ = _
  unfold Map.make
  have : isPower2 lam = false := by
    have := (isPower2_iff lam).not.2 h; simpa using this
  simp [this]

/-- **C09** It succeeds for every power of two within the table-width limit, giving an empty map with that
`lambda` and capacity `2^max(16, capa_bits)`. -/
theorem C09_good_lambda (a : Alias) (hp : p.Valid) {cb lam : Nat} (hi : (Init.make cb lam).Fits) :
    ∃ m, a.new p (.make cb lam) = .ok m ∧ m.lambda = lam ∧ m.size = 0 ∧ Map.capaSize (a.cfg p) m = 2 ^ max 16 cb := by
  obtain ⟨⟨l, rfl⟩, h2⟩ := hi
  rw [Nat.log2_two_pow] at h2
  have hsb : 0 < 8 + l := by omega
  obtain ⟨m, m1, m2, m3⟩ := Map.make_ok (TS := a.trieSpec p (8 + l) cb hsb) (NS := a.nlmSpec p hp) (cb := cb)
    (by omega) (a.ok p hp _ cb hsb).min (a.cb0_le ..) (by rw [Alias.minb]; exact h2)
  rw [show 8 + l - 8 = l by omega] at m1
  refine ⟨m, m1, ?_, m2.size, ?_⟩
  · have := m2.lam; rw [show 8 + l - 8 = l by omega] at this; exact this
  · have := ((a.trieSpec p (8 + l) cb hsb).capa m.trie (Or.inl m2.trie)).2.2.1
    rw [m3, Alias.minb] at this
    exact this

/-- **C09** Beyond the width limit the constructor fails (undefined shift, or exception). -/
theorem C09_too_wide (a : Alias) (p : Params) {cb l : Nat} (hl : l < 64) (hw : 64 ≤ max 16 cb + (8 + l)) :
    a.new p (.make cb (2 ^ l)) = .error .limit ∨ a.new p (.make cb (2 ^ l)) = .error .throw := by
  have hsb : 0 < 8 + l := by omega
  obtain ⟨e, e1, e2⟩ := Map.make_fail (TS := a.trieSpec p (8 + l) cb hsb) (by omega) (by omega) (cb := cb) (by rw [Alias.minb]; exact hw)
  rw [show 8 + l - 8 = l by omega] at e1
  rcases e2 with rfl | rfl
  · exact Or.inl e1
  · exact Or.inr e1

example : (¬ ∃ l, 24 = 2 ^ l) ∧ (¬ ∃ l, 0 = 2 ^ l) ∧ (Init.make 20 64).Fits :=
  ⟨(isPower2_iff 24).not.1 (by decide), (isPower2_iff 0).not.1 (by decide), ⟨6, rfl⟩, by decide⟩

/-- **C10** A default-constructed map is empty: `size()` is 0 and every `find` on a well-formed key gives nullptr. -/
theorem C10_default_is_empty (a : Alias) (p : Params) {k : Key} (hk : ¬ Malformed k) :
    Map.find (a.cfg p) (Map.default (a.cfg p)) k = .ok none ∧ (Map.default (a.cfg p)).size = 0 := by
  have hb : Map.badKey k = false := by
    have := (badKey_iff k).not.2 hk; simpa using this
  refine ⟨?_, rfl⟩
  have hd2 : (Map.default (a.cfg p)).isReady = false := rfl
  unfold Map.find
  simp only [hb, hd2]; rfl

/-- **C10** The first `update` on a default-constructed map does exactly the same as on a map constructed by
`map(0, 32)`: same result, same resulting object. -/
theorem C10_first_update (a : Alias) (hp : p.Valid) (k : Key) (hk : ¬ Malformed k) :
    ∃ m, a.new p (.make 0 32) = .ok m ∧ Map.update (a.cfg p) (Map.default (a.cfg p)) k = Map.update (a.cfg p) m k := by
  obtain ⟨m, m1, m2, _⟩ := Map.make_ok (TS := a.trieSpec p 13 0 (by decide)) (NS := a.nlmSpec p hp) (cb := 0)
    (by omega) (a.ok p hp _ 0 _).min (a.cb0_le ..) (by rw [Alias.minb]; decide)
  refine ⟨m, m1, ?_⟩
  have hb : Map.badKey k = false := by
    have := (badKey_iff k).not.2 hk; simpa using this
  have hready := m2.ready
  have m3 := (a.trieSpec p 13 0 (by decide)).fresh_size _ m2.trie
  have hd1 : (Map.default (a.cfg p)).trie = (a.cfg p).T.empty := rfl
  have hd2 : (Map.default (a.cfg p)).isReady = false := rfl
  have hempty := (a.ok p hp 13 0 (by decide)).empty
  have hmk : Map.make (a.cfg p) 0 32 = .ok m := m1
  unfold Map.update
  rw [hd1, hd2]
  simp only [hb, Bool.false_eq_true, if_false, hempty, if_true, Bool.not_false, hmk, R.bind_ok, m3, hready, Bool.not_true, R.pure_eq]

/-- **C10** Whole histories cannot tell `map()` from `map(0, 32)`. -/
theorem C10_default_like_explicit (h : a.Admissible p .default K os) (hA : SmallAlphabet os) :
    ∃ xs, Returns (a.AtLimit p .default os) (a.history p .default os) xs ∧
      Returns (a.AtLimit p .default os) (a.history p (.make 0 32) os) xs := by
  refine ⟨_, Alias.history_spec h hA, ?_⟩
  have h2 : a.Admissible p (.make 0 32) K os := ⟨h.params, ⟨⟨5, rfl⟩, by decide⟩, h.keys, h.legal, h.assertOk⟩
  refine (Alias.history_spec h2 hA).mono ?_
  intro hl
  have : Init.symbBits (.make 0 32) = Init.symbBits .default := by decide
  simp only [Alias.AtLimit] at hl ⊢
  rwa [this] at hl

example (a : Alias) := C10_default_like_explicit (demo_admissible a .default trivial demo (by decide) (by decide))
  (small_of [97, 98, 99, 120] (by decide) (by decide))

/-- **C11** Any history over any bytes either behaves like the dictionary throughout, or up to an operation `o`
that throws. In the latter case: `o` inserts a key that is not there yet; the keys seen so far have more than 253
distinct non-NUL bytes; and the call leaves all contents unchanged: every continuation `os3`, as long as it does
not insert the one byte `bad` that has no code, gives what the dictionary *before* `o` answers. -/
theorem C11_exhaustion_keeps_contents (h : a.Admissible p i K os) :
    Returns (a.AtLimit p i os) (a.history p i os) (Spec.run p.valSize [] os).2 ∨
    ∃ os1 o k os2 bad, os = os1 ++ o :: os2 ∧ o.inserts = some k ∧ k ∉ inserted os1 ∧
      ¬ SmallAlphabet (os1 ++ [o]) ∧ bad ≠ 0 ∧
      ∀ os3, a.Admissible p i K (os1 ++ o :: os3) → (∀ k ∈ inserted os3, bad ∉ k) →
        Returns (a.AtLimit p i (os1 ++ o :: os3)) (a.history p i (os1 ++ o :: os3))
          ((Spec.run p.valSize [] os1).2 ++ Out.exn :: (Spec.run p.valSize (Spec.run p.valSize [] os1).1 os3).2) :=
  Alias.exhaustion h

/-- **C12** If the inserted keys use at most 253 distinct non-NUL bytes, an operation throws only if its key is
malformed. -/
theorem C12_small_alphabet_never_throws (h : a.Admissible p i K os) (hA : SmallAlphabet os) :
    ∃ xs, Returns (a.AtLimit p i os) (a.history p i os) xs ∧
      List.Forall₂ (fun o x => x = Out.exn → ∃ k, o.key? = some k ∧ Malformed k) os xs := by
  refine ⟨_, Alias.history_spec h hA, ?_⟩
  clear * -
  generalize ([] : Dict) = d
  induction os generalizing d with
  | nil => exact .nil
  | cons o os ih =>
    simp only [Spec.run]
    refine .cons ?_ (ih _)
    cases o with
    | size => intro h; cases h
    | find k =>
      simp only [step]
      split
      next hm => intro _; exact ⟨k, rfl, hm⟩
      next => intro h; cases h
    | update k =>
      simp only [step]
      split
      next hm => intro _; exact ⟨k, rfl, hm⟩
      next => cases Dict.get d k <;> (intro h; cases h)
    | write k v =>
      simp only [step]
      split
      next hm => intro _; exact ⟨k, rfl, hm⟩
      next => intro h; cases h

/-- **C12** Keys that are UTF-8 encodings of character sequences satisfy the condition. -/
theorem C12_utf8 (hu : ∀ k ∈ inserted os, ∃ cs : List Char, k = cs.flatMap String.utf8EncodeChar ++ [0]) :
    SmallAlphabet os := by
  refine ⟨(List.range 248).map UInt8.ofNat |>.drop 1, by simp, ?_⟩
  intro k hk c hc h0
  obtain ⟨cs, rfl⟩ := hu k hk
  rw [List.mem_append] at hc
  rcases hc with hc | hc
  · obtain ⟨ch, _, hc⟩ := List.mem_flatMap.1 hc
    have hlt : c.toNat < 248 := by
      simp only [String.utf8EncodeChar] at hc
      split at hc
      · simp only [List.mem_cons, List.not_mem_nil, or_false] at hc
        subst hc; simp only [UInt8.toNat_ofNat']; omega
      · split at hc
        · simp only [List.mem_cons, List.not_mem_nil, or_false] at hc
          rcases hc with rfl | rfl <;> simp only [UInt8.toNat_ofNat'] <;> omega
        · split at hc
          · simp only [List.mem_cons, List.not_mem_nil, or_false] at hc
            rcases hc with rfl | rfl | rfl <;> simp only [UInt8.toNat_ofNat'] <;> omega
          · simp only [List.mem_cons, List.not_mem_nil, or_false] at hc
            rcases hc with rfl | rfl | rfl | rfl <;> simp only [UInt8.toNat_ofNat'] <;> omega
    have hpos : 0 < c.toNat := by
      rcases Nat.eq_zero_or_pos c.toNat with h | h
      · exact absurd (UInt8.toNat_inj.1 h) h0
      · exact h
    rw [List.mem_iff_getElem]
    refine ⟨c.toNat - 1, by simp; omega, ?_⟩
    simp only [List.getElem_drop, List.getElem_map, List.getElem_range]
    rw [show 1 + (c.toNat - 1) = c.toNat by omega]; simp
  · simp only [List.mem_cons, List.not_mem_nil, or_false] at hc
    exact absurd hc h0

example (a : Alias) := C12_small_alphabet_never_throws (demo_admissible a .default trivial demo (by decide) (by decide))
  (small_of [97, 98, 99, 120] (by decide) (by decide))

example : SmallAlphabet [.update (("日本語".toList.flatMap String.utf8EncodeChar) ++ [0])] :=
  C12_utf8 (by
    intro k hk
    simp only [inserted, List.filterMap_cons, Op.inserts] at hk
    split at hk
    next h => simp at hk
    next h =>
      split at h
      · cases h
      · injection h with h
        simp only [List.filterMap_nil, List.mem_cons, List.not_mem_nil, or_false] at hk
        exact ⟨_, hk.trans h.symm⟩)

end Poplar.Props
