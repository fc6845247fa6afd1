import Verif.Proof.Tests
import Verif.Proof.Prefixes
import Verif.Props.C18_Hash
import Verif.Props.C21_Bits
import Verif.Props.C22_HashTables
import Verif.Props.C24_Tries
/-
  C50: the test programs of the components (test/*.cpp) succeed for every input, except that of `bit_vector`, which fails if and only if
  a power of two occurs.
-/
namespace Poplar.Props
open Poplar Poplar.Spec Poplar.BitTools

/-! ### hash_trie_test.cpp -/

/-- the nodes of a trie of the keys: at most their prefixes -/
theorem pre_length {keys : List (List UInt8)} (ps : List Path) (hn : ps.Nodup) (hp : ∀ p ∈ ps, TrieTest.Pre keys p) :
    ps.length ≤ 1 + prefixCount keys := by
  let back : Path → List UInt8 := fun p => (p.map UInt8.ofNat).reverse
  have hb : ∀ p ∈ ps, ∃ k ∈ keys, back p <+: k ∧ p = keyPath (back p) := by
    intro p hm
    obtain ⟨k, hk, q, hq⟩ := hp p hm
    have h1 : k = back p ++ back q := by
      show k = (p.map UInt8.ofNat).reverse ++ (q.map UInt8.ofNat).reverse
      rw [← List.reverse_append, ← List.map_append, hq, keyPath_back]
    refine ⟨k, hk, ⟨back q, h1.symm⟩, ?_⟩
    have h2 : keyPath k = keyPath (back q) ++ keyPath (back p) := by
      rw [h1]; simp [keyPath]
    rw [← hq] at h2
    refine (List.append_inj_right' h2 ?_)
    simp [keyPath, back]
  have hnd : (ps.map back).Nodup := by
    refine List.Nodup.map_on ?_ hn
    intro p h1 q h2 e
    obtain ⟨_, _, _, e1⟩ := hb p h1
    obtain ⟨_, _, _, e2⟩ := hb q h2
    rw [e1, e2, e]
  rw [← List.length_map (f := back) (as := ps), Nat.add_comm]
  refine (List.subperm_of_subset (l₂ := [] :: (keys.flatMap fun k => (List.range k.length).map fun n => k.take (n + 1)).eraseDups) hnd ?_).length_le
  intro x hx
  obtain ⟨p, h1, rfl⟩ := List.mem_map.1 hx
  obtain ⟨k, hk, hpre, _⟩ := hb p h1
  by_cases he : back p = []
  · rw [he]; simp
  · refine List.mem_cons_of_mem _ (List.mem_eraseDups.2 (List.mem_flatMap.2 ⟨k, hk, List.mem_map.2 ⟨(back p).length - 1, ?_, ?_⟩⟩))
    · have := hpre.length_le
      have := List.length_pos_iff.2 he
      rw [List.mem_range]; omega
    · have := List.length_pos_iff.2 he
      rw [show (back p).length - 1 + 1 = (back p).length by omega]
      exact (List.prefix_iff_eq_take.1 hpre).symm

/-- **C50** hash_trie_test.cpp (`insert_keys`, `search_keys` and `restore_keys`) succeeds for each of the four trie classes, each
initial capacity and every non-empty list of distinct keys, as long as the number of different prefixes of the keys stays below the
limit of the class. The walks up to the root are as long as the keys (`fuel`). In a `plain_fkhash_trie` compiled with assertions no key
may start with NUL (C30). -/
theorem C50_hash_trie_test {c : TrieClass} {cb sb fuel : Nat} {keys : List (List UInt8)} (hc : c.Valid) (hsb : 8 ≤ sb)
    (hw : max c.minCapaBits cb + sb < 64) (hn : keys.Nodup) (hne : keys ≠ [])
    (ha : match c with
      | .plainFkhash cfg => cfg.dbg = false ∨ ∀ k ∈ keys, k.head? ≠ some 0
      | _ => True)
    (hl : 1 + prefixCount keys < c.nodeLimit sb cb) (hfuel : ∀ k ∈ keys, k.length ≤ fuel) :
    c.trieTest fuel cb sb keys = .ok true := by
  have hroom : ∀ ps : List Path, ps.Nodup → (∀ p ∈ ps, TrieTest.Pre keys p) → ps.length < c.nodeLimit sb cb :=
    fun ps h1 h2 => Nat.lt_of_le_of_lt (pre_length ps h1 h2) hl
  have h0 : 0 < sb := by omega
  match c, hc, hw, ha, hroom with
  | .plainBonsai cfg, hc, hw, ha, hroom =>
    refine TrieClass.trieTest_ok (.plainBonsai cfg) (PlainBonsai.spec cfg ⟨hc.1, hc.2.1, hc.2.2.1⟩ sb h0) (Nat.zero_le _) hw hroom
      (.inl trivial) hsb hc.1 hn hne ?_ hfuel
    intro _ t ht x p i hT
    obtain ⟨v, hv⟩ := (PlainBonsai.spec cfg ⟨hc.1, hc.2.1, hc.2.2.1⟩ sb h0).T_prefix t ht x p i hT
    refine ⟨v, hv, ?_⟩
    change tpath (some 1) (t.child sb) (x :: p) = some i at hT
    change tpath (some 1) (t.child sb) p = some v at hv
    rw [tpath, hv] at hT
    exact PlainBonsai.Inv.parentSymb_ok ht hT
  | .compactBonsai cfg, hc, hw, ha, hroom =>
    refine TrieClass.trieTest_ok (.compactBonsai cfg) (CompactBonsai.spec cfg (cfgOK hc) sb h0 cb) (Nat.le_refl _) hw hroom
      (.inl trivial) hsb hc.1 hn hne ?_ hfuel
    intro _ t ht x p i hT
    obtain ⟨v, hv⟩ := (CompactBonsai.spec cfg (cfgOK hc) sb h0 cb).T_prefix t ht x p i hT
    refine ⟨v, hv, ?_⟩
    change tpath (some 0) (t.child cfg sb) (x :: p) = some i at hT
    change tpath (some 0) (t.child cfg sb) p = some v at hv
    rw [tpath, hv] at hT
    exact CompactBonsai.Inv.parentSymb_ok ht.1 hT
  | .plainFkhash cfg, hc, hw, ha, hroom =>
    exact TrieClass.trieTest_ok (.plainFkhash cfg) (PlainFk.spec cfg ⟨hc.1, hc.2.1, hc.2.2.1⟩ sb) (Nat.zero_le _) hw hroom
      ha hsb hc.1 hn hne (fun hk => by cases hk) hfuel
  | .compactFkhash cfg, hc, hw, ha, hroom =>
    exact TrieClass.trieTest_ok (.compactFkhash cfg) (CompactFk.spec cfg (cfgOK hc) sb h0 cb) (Nat.le_refl _) hw hroom
      (.inl trivial) hsb hc.1 hn hne (fun hk => by cases hk) hfuel

/-- the test `tiny` (capacity 0, 8 symbol bits), for all four classes with their default template arguments, compiled with
assertions; 42 nodes -/
example (c : TrieClass) (hc : c = .plainBonsai ⟨16, 90, vignaHash⟩ ∨ c = .compactBonsai ⟨16, 90, {}⟩ ∨
    c = .plainFkhash ⟨⟨16, 90, vignaHash⟩, true⟩ ∨ c = .compactFkhash ⟨16, 90, {}⟩) :
    c.trieTest 7 0 8 (["trie", "denying", "defies", "defy", "tries", "defying", "defied",
    "denied", "trying", "deny", "try", "denies", "tried"].map fun s => s.toList.map fun c => UInt8.ofNat c.toNat) = .ok true := by
  refine C50_hash_trie_test ?_ (by decide) ?_ (by decide) (by decide) ?_ ?_ (by decide)
  · rcases hc with rfl | rfl | rfl | rfl <;> refine ⟨by decide, by decide, by decide, ?_⟩ <;> trivial
  · rcases hc with rfl | rfl | rfl | rfl <;> decide
  · rcases hc with rfl | rfl | rfl | rfl <;> trivial
  · have hp : prefixCount (["trie", "denying", "defies", "defy", "tries", "defying", "defied",
      "denied", "trying", "deny", "try", "denies", "tried"].map fun s => s.toList.map fun c => UInt8.ofNat c.toNat) < 100 := by decide +kernel
    have : 101 < c.nodeLimit 8 0 := by
      rcases hc with rfl | rfl | rfl | rfl <;> simp only [TrieClass.nodeLimit] <;> decide
    omega

/-! ### compact_hash_table_test.cpp -/

theorem chtTestSet_run (cfg : ChtCfg) (m : List (Nat × Nat)) : ∀ (t t' : Cht) (b : List Bool), Cht.run cfg t m = .ok (t', b) →
    chtTestSet cfg t m = .ok t' := by
  induction m with
  | nil => intro t t' b h; injection h with h; injection h with h _; rw [chtTestSet, h]
  | cons e m ih =>
    intro t t' b h
    obtain ⟨k, v⟩ := e
    simp only [Cht.run] at h
    obtain ⟨⟨t1, b1⟩, e1, h⟩ := R.bind_eq_ok h
    obtain ⟨⟨t2, b2⟩, e2, h⟩ := R.bind_eq_ok h
    injection h with h
    injection h with h _
    dsimp only at e1 e2 h
    rw [chtTestSet, e1, R.bind_ok, ih t1 t2 b2 e2, h]

/-- **C50** compact_hash_table_test.cpp succeeds for every map with keys in the universe and values below `2^ValBits - 1` (the test
avoids that value, which is the empty mark: C23), for every universe, initial capacity and maximum load, as long as the map has at
most `MaxFactor` per cent of the keys of the universe. -/
theorem C50_compact_hash_table_test {vb mf u c : Nat} (ha : ChtArgs vb mf u c) {m : List (Nat × Nat)} (hn : (m.map (·.1)).Nodup)
    (hk : ∀ e ∈ m, e.1 < 2 ^ u ∧ e.2 < 2 ^ vb - 1) (hs : m.length ≤ chtLimit mf u) :
    chtTest (chtWith vb mf) u c m = .ok true := by
  have hd : m = [] ∨ KV.distinct m.dropLast < chtLimit mf u := by
    by_cases h : m = []
    · exact .inl h
    · refine .inr (Nat.lt_of_le_of_lt (m := m.dropLast.length) ?_ ?_)
      · unfold KV.distinct
        refine Nat.le_trans ((List.subperm_of_subset (nodup_eraseDups _ _ (Nat.le_refl _)) (fun x hx => List.mem_eraseDups.1 hx)).length_le) ?_
        rw [List.length_map]
      · rw [List.length_dropLast]
        have := List.length_pos_iff.2 h
        omega
  obtain ⟨t, t', e1, e2, _, e4⟩ := C23_compact_hash_table ha m (fun e he => (hk e he).1) (fun e he => (hk e he).2) hd
  have hl : ∀ e ∈ m, KV.lookup m e.1 = some e.2 := by
    intro e he
    unfold KV.lookup
    have hx : m.reverse.find? (fun p => p.1 == e.1) ≠ none := by
      rw [Ne, List.find?_eq_none]
      intro h
      exact h e (List.mem_reverse.2 he) (by simp)
    obtain ⟨x, hx⟩ := Option.ne_none_iff_exists'.1 hx
    have h1 : x.1 = e.1 := by simpa using List.find?_some hx
    have h2 : x ∈ m := List.mem_reverse.1 (List.mem_of_find?_eq_some hx)
    have : x = e := List.inj_on_of_nodup_map hn h2 he h1
    rw [hx, this]; rfl
  unfold chtTest
  rw [e1, R.bind_ok, chtTestSet_run _ _ _ _ _ e2, R.bind_ok]
  suffices ∀ l : List (Nat × Nat), (∀ e ∈ l, e ∈ m) → chtTestGet (chtWith vb mf) t' l = .ok true from this m fun _ h => h
  intro l
  induction l with
  | nil => intro _; rfl
  | cons e l ih =>
    intro h
    have he := h e (by simp)
    have hg := e4 e.1 (hk e he).1
    rw [hl e he, Option.getD_some] at hg
    obtain ⟨k, v⟩ := e
    rw [chtTestGet, hg, R.bind_ok, if_pos rfl]
    exact ih fun e he => h e (by simp [he])

theorem chtTestSet_error (cfg : ChtCfg) {f : Fault} (m : List (Nat × Nat)) : ∀ (t : Cht), Cht.run cfg t m = .error f →
    chtTestSet cfg t m = .error f := by
  induction m with
  | nil => intro t h; cases h
  | cons e m ih =>
    intro t h
    obtain ⟨k, v⟩ := e
    simp only [Cht.run] at h
    rw [chtTestSet]
    cases he : Cht.set cfg t k v with
    | error e => rw [he] at h; injection h with h; rw [h]; rfl
    | ok x =>
      rw [he, R.bind_ok] at h
      rw [R.bind_ok]
      apply ih
      cases hr : Cht.run cfg x.1 m with
      | error e => rw [hr] at h; injection h with h; rw [h]
      | ok y => rw [hr] at h; cases h

/-- **C50** ... and this bound is exact: with more keys the test leaves the defined domain (it would build a table larger than the
universe: C32). -/
theorem C50_compact_hash_table_test_limit {vb mf u c : Nat} (ha : ChtArgs vb mf u c) {m : List (Nat × Nat)} (hn : (m.map (·.1)).Nodup)
    (hk : ∀ e ∈ m, e.1 < 2 ^ u ∧ e.2 < 2 ^ vb - 1) (hs : chtLimit mf u < m.length) :
    chtTest (chtWith vb mf) u c m = .error .limit := by
  obtain ⟨t, e1, _⟩ := cht_make ha
  have h := C32_compact_hash_table_limit ha t e1 m (fun e he => (hk e he).1) (fun e he => (hk e he).2)
  have hd : KV.distinct m.dropLast = m.length - 1 := by
    unfold KV.distinct
    rw [eraseDups_of_nodup, List.length_map, List.length_dropLast]
    rw [List.map_dropLast]
    exact hn.sublist (List.dropLast_sublist _)
  have hne : m ≠ [] := by rintro rfl; simp at hs
  rw [if_neg (by rw [hd]; rintro (h | h); exact hne h; omega)] at h
  unfold chtTest
  rw [e1, R.bind_ok, chtTestSet_error _ _ _ h]
  rfl

/-- the arguments of the test: 16 value bits, universe 2^14, capacity bits 8, 2^13 keys -/
example : ChtArgs 16 80 14 8 ∧ 2 ^ 13 ≤ chtLimit 80 14 := by
  refine ⟨⟨⟨by decide, by decide⟩, by decide, by decide, by decide, by decide⟩, by decide⟩

/-! ### bijective_hash_test.cpp -/

theorem hashTestCheck_ok {u : Nat} (h0 : 0 < u) (h1 : u < 64) {hs : SplitMix} (hm : SplitMix.make u = .ok hs) (xs : List Nat)
    (hx : ∀ x ∈ xs, x < 2 ^ u) : hashTestCheck hs xs = .ok true := by
  induction xs with
  | nil => rfl
  | cons x xs ih =>
    obtain ⟨hs', e, h⟩ := C18_split_mix_bijection u h0 h1
    rw [hm] at e
    injection e with e
    subst e
    obtain ⟨⟨y, y1, _, y3⟩, _⟩ := h x (hx x (by simp))
    rw [hashTestCheck, y1, R.bind_ok, y3, R.bind_ok, if_pos rfl]
    exact ih fun x h => hx x (by simp [h])

/-- **C50** bijective_hash_test.cpp succeeds for whatever the random number generator returns. -/
theorem C50_bijective_hash_test (rnd : Nat → List Nat) : bijectionTest rnd 63 1 = .ok true := by
  suffices ∀ n i, 0 < i → i + n ≤ 64 → bijectionTest rnd n i = .ok true from this 63 1 (by decide) (by decide)
  intro n
  induction n with
  | zero => intro i _ _; rfl
  | succ n ih =>
    intro i h0 h1
    have hb : checkBijection i (rnd i) = .ok true := by
      obtain ⟨hs, e, _⟩ := C18_split_mix_bijection i h0 (by omega)
      have hu : hs.univ.size = 2 ^ i := by
        rw [SplitMix.make_ok h0 (by omega)] at e
        injection e with e
        subst e
        simp only [SplitMix.std, SizeP2.size]
        have := Nat.two_pow_pos i
        omega
      unfold checkBijection
      rw [e, R.bind_ok, hu]
      split
      · exact hashTestCheck_ok h0 (by omega) e _ fun x hx => List.mem_range.1 hx
      · rename_i hlt
        refine hashTestCheck_ok h0 (by omega) e _ fun x hx => ?_
        obtain ⟨y, _, rfl⟩ := List.mem_map.1 hx
        have := Nat.mod_lt y (show 2 ^ 10 > 0 by decide)
        omega
    rw [bijectionTest, hb, R.bind_ok, if_pos rfl]
    exact ih (i + 1) (by omega) (by omega)

/-! ### bit_vector_test.cpp -/

/-- the calls of the test -/
def bvTestOps (xs : List Nat) : List BitOp := xs.map fun x => .appendBits x (Nat.clog 2 x)

theorem bvTestOps_legal {xs : List Nat} (h : ∀ x ∈ xs, x < 2 ^ 64 ∧ ∀ k, x ≠ 2 ^ k) : ∀ l, BitOp.LegalAll l (bvTestOps xs) := by
  induction xs with
  | nil => intro l; trivial
  | cons x xs ih =>
    intro l
    obtain ⟨h1, h2⟩ := h x (by simp)
    refine ⟨⟨?_, ?_⟩, ih (fun x hx => h x (by simp [hx])) _⟩
    · exact Nat.clog_le_of_le_pow (by omega)
    · exact Nat.lt_of_le_of_ne (Nat.le_pow_clog (by decide) x) (h2 _)

theorem bvTestAppend_run {xs : List Nat} (h : ∀ x ∈ xs, x < 2 ^ 64) : ∀ bv, bvTestAppend bv xs = bvRun bv (bvTestOps xs) := by
  induction xs with
  | nil => intro bv; rfl
  | cons x xs ih =>
    intro bv
    rw [bvTestAppend, ceilLog2_ok (h x (by simp)), R.bind_ok]
    show _ = bvRun bv (.appendBits x (Nat.clog 2 x) :: bvTestOps xs)
    simp only [bvRun, bvStep]
    congr 1
    funext v
    exact ih (fun x hx => h x (by simp [hx])) v

theorem ofBits_bitsOf {x len : Nat} (h : x < 2 ^ len) : ofBits (bitsOf x len) = x := by
  induction len generalizing x with
  | zero => have : x = 0 := by simpa using h
            subst this; rfl
  | succ len ih =>
    have : bitsOf x (len + 1) = x.testBit 0 :: bitsOf (x / 2) len := by
      unfold bitsOf
      rw [List.range_succ_eq_map, List.map_cons, List.map_map]
      congr 1
      apply List.map_congr_left
      intro j _
      simp [Nat.testBit_succ]
    rw [this, ofBits, ih (by rw [Nat.pow_succ] at h; omega), Nat.testBit_zero]
    by_cases hx : x % 2 = 1 <;> simp [hx] <;> omega

theorem bvTestOps_bits (xs : List Nat) : ∀ l, (bvTestOps xs).foldl BitOp.apply l = l ++ xs.flatMap fun x => bitsOf x (Nat.clog 2 x) := by
  induction xs with
  | nil => intro l; simp [bvTestOps]
  | cons x xs ih =>
    intro l
    show (bvTestOps xs).foldl BitOp.apply (l ++ bitsOf x (Nat.clog 2 x)) = _
    rw [ih, List.flatMap_cons, List.append_assoc]

/-- **C50** bit_vector_test.cpp succeeds for all numbers (of up to 63 bits; the test draws 32) none of which is a power of two ... -/
theorem C50_bit_vector_test {xs : List Nat} (h : ∀ x ∈ xs, x < 2 ^ 63 ∧ ∀ k, x ≠ 2 ^ k) : bvTest xs = .ok true := by
  obtain ⟨v, e1, e2, _, e4⟩ := C21_bit_vector 0 (bvTestOps xs) (bvTestOps_legal (fun x hx => ⟨by have := (h x hx).1; omega, (h x hx).2⟩) _)
  rw [bvTestOps_bits, List.replicate_zero, List.nil_append] at e2 e4
  unfold bvTest
  have e0 : bvTestAppend {} xs = .ok v := by
    rw [bvTestAppend_run (fun x hx => by have := (h x hx).1; omega)]; exact e1
  rw [e0, R.bind_ok]
  suffices ∀ (done todo : List Nat), done ++ todo = xs →
      bvTestCheck v (done.flatMap fun x => bitsOf x (Nat.clog 2 x)).length todo = .ok true from this [] xs rfl
  intro done todo
  induction todo generalizing done with
  | nil => intro _; rfl
  | cons x todo ih =>
    intro he
    have hx := h x (by rw [← he]; simp)
    have hlen : (bitsOf x (Nat.clog 2 x)).length = Nat.clog 2 x := by simp [bitsOf]
    have hlt : x < 2 ^ Nat.clog 2 x := Nat.lt_of_le_of_ne (Nat.le_pow_clog (by decide) x) (hx.2 _)
    have hx63 : Nat.clog 2 x ≤ 63 := Nat.clog_le_of_le_pow (by omega)
    rw [← he] at e2 e4
    rw [bvTestCheck, ceilLog2_ok (by omega), R.bind_ok]
    rw [e4 _ _ (by rw [e2, List.flatMap_append, List.length_append, List.flatMap_cons, List.length_append, hlen]; omega) (by omega)]
    rw [List.flatMap_append, List.drop_left, List.flatMap_cons, List.take_left' hlen, ofBits_bitsOf hlt, R.bind_ok, if_pos rfl]
    have := ih (done ++ [x]) (by simpa using he)
    rw [List.flatMap_append, List.length_append, List.flatMap_singleton, hlen] at this
    exact this

/-- **C50** ... and aborts on an assertion of `append_bits` if a power of two occurs (also 1): `ceil_log2(2^k)` is `k`, but `2^k` has
`k + 1` bits. -/
theorem C50_bit_vector_test_fails {xs : List Nat} (h : ∀ x ∈ xs, x < 2 ^ 63) {k : Nat} (hk : 2 ^ k ∈ xs) :
    bvTest xs = .error .assertion := by
  suffices ∀ bv : BitVector, bv.WF → bvTestAppend bv xs = .error .assertion by
    unfold bvTest
    rw [this {} (BitVector.make_wf 0).1]
    rfl
  induction xs with
  | nil => cases hk
  | cons x xs ih =>
    intro bv hw
    have hx := h x (by simp)
    rw [bvTestAppend, ceilLog2_ok (by omega), R.bind_ok]
    by_cases hp : ∃ j, x = 2 ^ j
    · obtain ⟨j, rfl⟩ := hp
      have hj : j < 63 := (Nat.pow_lt_pow_iff_right (by decide)).1 hx
      have : bv.appendBits (2 ^ j) (Nat.clog 2 (2 ^ j)) = .error .assertion := by
        rw [Nat.clog_pow _ _ (by decide)]
        unfold BitVector.appendBits
        rw [if_neg (by omega)]
        have : ¬ (j = 64 ∨ 2 ^ j >>> j = 0) := by
          rw [Nat.shiftRight_eq_div_pow, Nat.div_self (Nat.two_pow_pos j)]; omega
        rw [decide_eq_false this]
        rfl
      rw [this]
      rfl
    · have hne : x ≠ 2 ^ k := fun e => hp ⟨k, e⟩
      obtain ⟨v', e, w', _⟩ := hw.appendBits_ok (bits := x) (len := Nat.clog 2 x) (Nat.clog_le_of_le_pow (by omega))
        (Nat.lt_of_le_of_ne (Nat.le_pow_clog (by decide) x) fun e => hp ⟨_, e⟩)
      rw [e, R.bind_ok]
      exact ih (fun x hx => h x (by simp [hx])) (by
        rcases List.mem_cons.1 hk with hk | hk
        · exact absurd hk.symm hne
        · exact hk) v' w'

/-- **C50** Without assertions the test would fail as well: `get_bits(pos, len)` is always below `2^len`, whatever the vector contains. -/
theorem C50_get_bits_lt {v : BitVector} (hv : ∀ w ∈ v.chunks, w < 2 ^ 64) {pos len x : Nat} (h : v.getBits pos len = .ok x) :
    x < 2 ^ len := by
  unfold BitVector.getBits at h
  obtain ⟨_, _, h⟩ := R.bind_eq_ok h
  split at h
  · injection h with h; subst h; exact Nat.two_pow_pos _
  · split at h
    · cases h
    · have hm : 2 ^ len - 1 < 2 ^ len := by have := Nat.two_pow_pos len; omega
      dsimp only at h
      split at h
      · obtain ⟨a, _, h⟩ := R.bind_eq_ok h
        injection h with h
        subst h
        exact Nat.lt_of_le_of_lt Nat.and_le_right hm
      · rename_i hlen
        obtain ⟨a, ha, h⟩ := R.bind_eq_ok h
        obtain ⟨b, _, h⟩ := R.bind_eq_ok h
        injection h with h
        subst h
        refine Nat.or_lt_two_pow ?_ (Nat.lt_of_le_of_lt Nat.and_le_right hm)
        have ha' : a < 2 ^ 64 := by
          unfold rd at ha
          split at ha
          case h_1 y hy =>
            injection ha with ha
            exact ha ▸ hv y (Array.mem_of_getElem? hy)
          case h_2 => cases ha
        rw [Nat.shiftRight_eq_div_pow]
        refine Nat.div_lt_of_lt_mul (Nat.lt_of_lt_of_le ha' ?_)
        rw [← Nat.pow_add]
        exact Nat.pow_le_pow_right (by decide) (by omega)

/-- three numbers across a word boundary; and 4 is a power of two -/
example : bvTest [0xFFFFFFFF, 0xABCDEF01, 5, 0] = .ok true ∧ bvTest [5, 4, 7] = .error .assertion := by
  refine ⟨C50_bit_vector_test ?_, C50_bit_vector_test_fails (k := 2) (by decide) (by decide)⟩
  have hp : ∀ x, ¬ (∃ j < 64, x = 2 ^ j) → x < 2 ^ 63 → x < 2 ^ 63 ∧ ∀ k, x ≠ 2 ^ k := by
    intro x h1 h2
    refine ⟨h2, fun k e => h1 ⟨k, ?_, e⟩⟩
    have := (Nat.pow_lt_pow_iff_right (a := 2) (by decide)).1 (e ▸ h2)
    omega
  intro x hx
  simp only [List.mem_cons, List.not_mem_nil, or_false] at hx
  rcases hx with rfl | rfl | rfl | rfl <;> exact hp _ (by decide) (by decide)

end Poplar.Props
