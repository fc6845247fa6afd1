import Verif.Proof.KV
/-
  C22, C33: `standard_hash_table`; C23, C31, C32: `compact_hash_table`.
  `Spec.KV.lookup`, `distinct` and `flags` say what a history of `set` calls means.
-/
namespace Poplar.Props
open Poplar Poplar.Spec.KV

/-- `standard_hash_table<MaxFactor, Hasher>` -/
def shtWith (mf : Nat) (hash : Nat → Nat) : ShtCfg := { ShtCfg.std with maxFactor := mf, hash := hash }

/-- `compact_hash_table<ValBits, MaxFactor>` -/
def chtWith (vb mf : Nat) : ChtCfg := { ChtCfg.std with valBits := vb, maxFactor := mf }

/-- the `static_assert` of standard_hash_table.hpp:34 and compact_hash_table.hpp:36 -/
def FactorIn (mf : Nat) : Prop := 0 < mf ∧ mf < 100

/-- the instances the library itself uses are among these -/
example : ShtCfg.std = shtWith 80 vignaHash ∧ ChtCfg.std = chtWith 7 80 ∧ FactorIn 80 := ⟨rfl, rfl, by unfold FactorIn; decide⟩

/-- a new `standard_hash_table`: default constructed, or constructed with `capa_bits` -/
inductive NewSht (cfg : ShtCfg) : Sht → Prop
  | default : NewSht cfg {}
  | capa (c : Nat) (t : Sht) : c < 64 → Sht.make cfg c = .ok t → NewSht cfg t

theorem std_factor {mf : Nat} (hm : FactorIn mf) (hash : Nat → Nat) : Sht.Factor (shtWith mf hash) :=
  ⟨hm.1, hm.2, show 6 ≤ 6 by decide⟩

theorem NewSht.rel {mf : Nat} {hash : Nat → Nat} {t : Sht} (h : NewSht (shtWith mf hash) t) : Sht.Rel (shtWith mf hash) t [] := by
  cases h with
  | default => exact ⟨Sht.Inv.default, fun k => by rw [Sht.M_default]; rfl, rfl⟩
  | capa c t hc e =>
    obtain ⟨t', e', h1, h2, h3⟩ := Sht.Inv.make (cfg := shtWith mf hash) (c := c) (by
      have : (shtWith mf hash).minCapaBits = 6 := rfl
      omega)
    rw [e] at e'; injection e' with e'; subst e'
    exact ⟨h1, fun k => by rw [h3]; rfl, h2⟩

theorem sht_run {mf : Nat} (hm : FactorIn mf) {hash : Nat → Nat} {t : Sht} (hn : NewSht (shtWith mf hash) t) (h : List (Nat × Nat))
    (hk : keysAre h (· ≠ u64max)) (hd : distinct h < 2 ^ 63 * mf / 100) :
    ∃ t', Sht.run (shtWith mf hash) t h = .ok (t', flags [] h) ∧ Sht.Rel (shtWith mf hash) t' h := by
  have he : Poplar.maxSize (2 ^ 63) (shtWith mf hash).maxFactor = 2 ^ 63 * mf / 100 := rfl
  exact Sht.run_ok (std_factor hm hash) (show 6 < 64 by decide) h [] t hn.rel hk (by rw [he, List.nil_append]; omega) (by rw [he]; omega)

/-- **C22.** For every `MaxFactor` and hash function, every new table and every history of `set` calls (keys other
than `UINT64_MAX`, fewer than `MaxFactor` per cent of `2^63` distinct ones): all calls return normally, each returns `true` iff
its key is new, `size()` is the number of distinct keys, and `get` returns the value last set for
the key, or `nil`. -/
theorem C22_standard_hash_table {mf : Nat} (hm : FactorIn mf) (hash : Nat → Nat) (t : Sht) (hn : NewSht (shtWith mf hash) t)
    (h : List (Nat × Nat)) (hk : keysAre h (· ≠ u64max)) (hd : distinct h < 2 ^ 63 * mf / 100) :
    ∃ t', Sht.run (shtWith mf hash) t h = .ok (t', flags [] h) ∧ t'.size = distinct h ∧
      ∀ k, Sht.get (shtWith mf hash) t' k = .ok ((lookup h k).getD u64max) := by
  obtain ⟨t', e, hr⟩ := sht_run hm hn h hk hd
  exact ⟨t', e, hr.2.2, hr.get_ok⟩

/-- **C33.** On every reachable table, `set(UINT64_MAX, v)` returns `true` and increments `size()`,
but `get(UINT64_MAX)` still returns `nil`; all other keys are unaffected. -/
theorem C33_reserved_key {mf : Nat} (hm : FactorIn mf) (hash : Nat → Nat) (t : Sht) (hn : NewSht (shtWith mf hash) t)
    (h : List (Nat × Nat)) (hk : keysAre h (· ≠ u64max)) (hd : distinct h < 2 ^ 63 * mf / 100) (v : Nat) :
    ∃ t' t'' b, Sht.run (shtWith mf hash) t h = .ok (t', b) ∧ Sht.set (shtWith mf hash) t' u64max v = .ok (t'', true) ∧
      t''.size = distinct h + 1 ∧ Sht.get (shtWith mf hash) t'' u64max = .ok u64max ∧
      ∀ k, Sht.get (shtWith mf hash) t'' k = .ok ((lookup h k).getD u64max) := by
  obtain ⟨t', e, hi, hM, hs⟩ := sht_run hm hn h hk hd
  have he : Poplar.maxSize (2 ^ 63) (shtWith mf hash).maxFactor = 2 ^ 63 * mf / 100 := rfl
  obtain ⟨⟨t2, b⟩, e2, hc, hb, hs2, hM2⟩ := (hi.set_max (std_factor hm hash) (show 6 < 64 by decide) (val := v)).get (by rw [he]; omega)
  dsimp only at hc hb hs2 hM2
  subst hb
  exact ⟨t', t2, _, e, e2, by rw [hs2, hs], by rw [hc.get_ok, Sht.M_max]; rfl, fun k => by rw [hc.get_ok, hM2, hM]⟩

/-- the load limit of a `compact_hash_table` over a `u`-bit universe: `MaxFactor` per cent of `2^u` -/
def chtLimit (mf u : Nat) : Nat := 2 ^ u * mf / 100

/-- The constructor arguments of a `compact_hash_table<ValBits, MaxFactor>` are in order: `univ_bits` between `min_capa_bits`
and 63, the initial capacity is not above the universe, and a slot (quotient, value and two status bits) has fewer than 64 bits. -/
structure ChtArgs (vb mf u c : Nat) : Prop where
  factor : FactorIn mf
  univ : 12 ≤ u
  univ64 : u < 64
  capa : c ≤ u
  slot : u - max 12 c + vb + 2 < 64

theorem cht_factor {vb mf : Nat} (h : FactorIn mf) : FactorOK (chtWith vb mf).minCapaBits (chtWith vb mf).maxFactor := by
  show FactorOK 12 mf
  obtain ⟨h1, h2⟩ := h
  refine ⟨h2, ?_, ?_⟩ <;> unfold maxSize <;> omega

theorem cht_make {vb mf u c : Nat} (ha : ChtArgs vb mf u c) :
    ∃ t, Cht.make (chtWith vb mf) u c = .ok t ∧ Cht.Rel (chtWith vb mf) u t [] := by
  have hmin : (chtWith vb mf).minCapaBits = 12 := rfl
  have hvb : (chtWith vb mf).valBits = vb := rfl
  obtain ⟨_, h1, h2, h3, h4⟩ := ha
  obtain ⟨t, e, h1, h2, _, h4⟩ := Cht.Holds.make (cfg := chtWith vb mf) (u := u) (c := c) (by rw [hmin]; omega) (by omega) h2
    (by rw [hmin, hvb]; omega)
  exact ⟨t, e, h1, h4, h2⟩

/-- **C23.** For every `ValBits` and `MaxFactor`, every universe width `12..63`, every initial capacity and every
history of `set` calls with keys in the universe and values below `2^ValBits - 1` that stays within the load limit: all calls
return normally, each returns `true` iff its key is new, `size()` is the number of distinct keys,
and `get` returns the value last set for the key, or `nil`. -/
theorem C23_compact_hash_table {vb mf u c : Nat} (ha : ChtArgs vb mf u c)
    (h : List (Nat × Nat)) (hk : keysAre h (· < 2 ^ u)) (hv : valsAre h (· < 2 ^ vb - 1))
    (hd : h = [] ∨ distinct h.dropLast < chtLimit mf u) :
    ∃ t t', Cht.make (chtWith vb mf) u c = .ok t ∧ Cht.run (chtWith vb mf) t h = .ok (t', flags [] h) ∧
      t'.size = distinct h ∧ ∀ k < 2 ^ u, Cht.get (chtWith vb mf) t' k = .ok ((lookup h k).getD u64max) := by
  obtain ⟨t, e, hr⟩ := cht_make ha
  obtain ⟨t', e', hr'⟩ := Cht.run_ok (cht_factor ha.factor) u h [] t hr hk hv hd
  exact ⟨t, t', e, e', hr'.2.1, fun k hk => hr'.1.get_ok (by rw [hr'.2.2]; exact hk)⟩

/-- **C32.** A history of valid `set` calls runs without failure exactly as long as fewer than `MaxFactor`
per cent (80 by default) of the universe's keys are stored before each call; the call after that (also one that only
overwrites an old key) leaves the defined domain: it would build a table larger than its universe. -/
theorem C32_compact_hash_table_limit {vb mf u c : Nat} (ha : ChtArgs vb mf u c)
    (t : Cht) (ht : Cht.make (chtWith vb mf) u c = .ok t)
    (h : List (Nat × Nat)) (hk : keysAre h (· < 2 ^ u)) (hv : valsAre h (· < 2 ^ vb - 1)) :
    if h = [] ∨ distinct h.dropLast < chtLimit mf u then (Cht.run (chtWith vb mf) t h).isOk
    else Cht.run (chtWith vb mf) t h = .error .limit := by
  obtain ⟨t0, e, hr⟩ := cht_make ha
  rw [ht] at e; injection e with e; subst e
  split
  next h1 =>
    obtain ⟨t', e', -⟩ := Cht.run_ok (cht_factor ha.factor) u h [] t hr hk hv h1
    rw [e']; rfl
  next h1 =>
    have h2 : h ≠ [] := fun e => h1 (Or.inl e)
    have h3 : chtLimit mf u ≤ distinct h.dropLast := by
      have : ¬ distinct h.dropLast < chtLimit mf u := fun e => h1 (Or.inr e)
      omega
    exact Cht.run_limit (cht_factor ha.factor) u h [] t hr hk hv (Nat.zero_le _) h2 h3

/-- **C31.** `clone` into a new table over the same universe. On a non-empty table it terminates
(within `capacity` iterations of its inner loop) and the target then answers every `get` like the
source, provided the target can hold the items; on an empty table it runs for ever: no number of
iterations is enough. -/
theorem C31_clone {vb mf u c c' : Nat} (ha : ChtArgs vb mf u c) (ha' : ChtArgs vb mf u c')
    (h : List (Nat × Nat)) (hk : keysAre h (· < 2 ^ u)) (hv : valsAre h (· < 2 ^ vb - 1))
    (hd : h = [] ∨ distinct h.dropLast < chtLimit mf u)
    (t t' n : Cht) (b : List Bool) (ht : Cht.make (chtWith vb mf) u c = .ok t) (hr : Cht.run (chtWith vb mf) t h = .ok (t', b))
    (hn : Cht.make (chtWith vb mf) u c' = .ok n) :
    (h = [] → ∀ fuel, Cht.clone (chtWith vb mf) fuel t' n = .error .diverge) ∧
    (h ≠ [] → distinct h < 2 ^ max 12 c' * mf / 100 → ∀ fuel, 2 ^ t'.capa.bits ≤ fuel →
      ∃ n', Cht.clone (chtWith vb mf) fuel t' n = .ok n' ∧ n'.size = distinct h ∧
        ∀ k < 2 ^ u, Cht.get (chtWith vb mf) n' k = Cht.get (chtWith vb mf) t' k ∧
          Cht.get (chtWith vb mf) n' k = .ok ((lookup h k).getD u64max)) := by
  obtain ⟨t0, e, hr0⟩ := cht_make ha
  rw [ht] at e; injection e with e; subst e
  obtain ⟨t1, e', hr1⟩ := Cht.run_ok (cht_factor ha.factor) u h [] t hr0 hk hv hd
  rw [hr] at e'; injection e' with e'; injection e' with e' _; subst e'
  have hmin : (chtWith vb mf).minCapaBits = 12 := rfl
  have hvb : (chtWith vb mf).valBits = vb := rfl
  have hu1 := ha'.univ
  have hu2 := ha'.capa
  have hu3 := ha'.slot
  obtain ⟨n0, en, hn1, hn2, hn3, hn4⟩ := Cht.Holds.make (cfg := chtWith vb mf) (u := u) (c := c') (by rw [hmin]; omega) (by omega) ha'.univ64
    (by rw [hmin, hvb]; omega)
  rw [hn] at en; injection en with en; subst en
  rw [List.nil_append] at hr1
  refine ⟨?_, ?_⟩
  · rintro rfl fuel
    refine Cht.Holds.clone_empty (cht_factor ha.factor) ?_ hn4 fuel
    exact hr1.1
  · intro hne hfit fuel hfuel
    have hmax : t'.size < n.maxSize := by rw [hr1.2.1, hn1.core.maxs, hn3]; exact hfit
    have huu : n.univ = t'.univ := by
      rw [hn1.core.univ, hr1.1.core.univ, hn2, hr1.2.2]
    have hsz : t'.size ≠ 0 := by
      rw [hr1.2.1]
      cases h with
      | nil => exact absurd rfl hne
      | cons p r => unfold distinct; rw [List.map_cons, List.eraseDups_cons]; simp
    obtain ⟨n', e1, e2, e3⟩ := hr1.1.clone_ok (cht_factor ha.factor) hsz hn1 huu (by omega) (Or.inl hmax) hfuel
    refine ⟨n', e1, ?_, ?_⟩
    · rw [e2.size_eq, e3, ← hr1.1.size_eq, hr1.2.1]
    · intro k hk
      have h1 := e2.get_ok (k := k) (by rw [e3, hr1.2.2]; exact hk)
      have h2 := hr1.1.get_ok (k := k) (by rw [hr1.2.2]; exact hk)
      exact ⟨by rw [h1, h2], h1⟩

/-! ### the hypotheses are met by concrete histories -/

/-- a hash function with collisions: every key goes to slot 3 -/
example : NewSht (shtWith 80 fun _ => 3) {} ∧ keysAre [(5, 1), (6, 2), (5, 3), (0, 4)] (· ≠ u64max) ∧
    distinct [(5, 1), (6, 2), (5, 3), (0, 4)] = 3 ∧ flags [] [(5, 1), (6, 2), (5, 3), (0, 4)] = [true, true, false, true] ∧
    lookup [(5, 1), (6, 2), (5, 3), (0, 4)] 5 = some 3 ∧ lookup [(5, 1), (6, 2), (5, 3), (0, 4)] 7 = none := by
  refine ⟨.default, ?_, by decide, by decide, by decide, by decide⟩
  intro x hx; revert x; decide

example : (do let r ← Sht.run (shtWith 80 fun _ => 3) {} [(5, 1), (6, 2), (5, 3), (0, 4)]; Sht.get (shtWith 80 fun _ => 3) r.1 5) = .ok 3 := by
  decide +kernel

example : keysAre [(5, 1), (6, 2), (5, 3), (4095, 126)] (· < 2 ^ 12) ∧ valsAre [(5, 1), (6, 2), (5, 3), (4095, 126)] (· < 127) ∧
    distinct [(5, 1), (6, 2), (5, 3)] < chtLimit 80 12 ∧ chtLimit 80 12 = 3276 ∧ ChtArgs 7 80 12 0 := by
  refine ⟨?_, ?_, by decide, by decide, ⟨by unfold FactorIn; decide, by decide, by decide, by decide, by decide⟩⟩ <;> (intro x hx; revert x; decide)

/-- the keys `0, 1, …, n-1` -/
theorem distinct_range (v n : Nat) : distinct ((List.range n).map (fun k => (k, v))) = n := by
  induction n with
  | zero => rfl
  | succ n ih =>
    rw [List.range_succ, List.map_append, List.map_singleton, distinct_snoc, ih, if_pos]
    simp

/-- the limit of C32 is reached by concrete histories: `chtLimit mf u` keys fit, the next call fails -/
example {vb mf u : Nat} (ha : ChtArgs vb mf u 0) (hvb : 3 ≤ vb) : ∃ t t' b, Cht.make (chtWith vb mf) u 0 = .ok t ∧
    Cht.run (chtWith vb mf) t ((List.range (chtLimit mf u)).map (fun k => (k, 5))) = .ok (t', b) ∧
    t'.size = chtLimit mf u ∧ Cht.set (chtWith vb mf) t' 0 5 = .error .limit := by
  obtain ⟨t, e, hr⟩ := cht_make ha
  have hlt : chtLimit mf u < 2 ^ u := by
    unfold chtLimit
    have := Nat.two_pow_pos u
    have : 2 ^ u * mf ≤ 2 ^ u * 99 := Nat.mul_le_mul_left _ (by have := ha.factor.2; omega)
    omega
  have hpos : 0 < chtLimit mf u := by
    unfold chtLimit
    have : 2 ^ 12 ≤ 2 ^ u := Nat.pow_le_pow_right (by omega) ha.univ
    have : 2 ^ u * 1 ≤ 2 ^ u * mf := Nat.mul_le_mul_left _ ha.factor.1
    omega
  have hv5 : 5 < 2 ^ vb - 1 := by
    have := Nat.pow_le_pow_right (n := 2) (by decide) hvb
    omega
  generalize hL : chtLimit mf u = L at *
  have hd : distinct ((List.range L).map (fun k => (k, 5))).dropLast < chtLimit mf u := by
    obtain ⟨m, rfl⟩ : ∃ m, L = m + 1 := ⟨L - 1, by omega⟩
    rw [List.range_succ, List.map_append, List.map_singleton, List.dropLast_concat, distinct_range]; omega
  obtain ⟨t', e', hr'⟩ := Cht.run_ok (cht_factor ha.factor) u ((List.range L).map (fun k => (k, 5))) [] t hr
    (by intro x hx; simp at hx; obtain ⟨a, ha, rfl⟩ := hx; dsimp only; omega)
    (by intro x hx; simp at hx; obtain ⟨a, ha, rfl⟩ := hx; exact hv5) (Or.inr hd)
  refine ⟨t, t', _, e, e', by rw [hr'.2.1, List.nil_append, distinct_range], ?_⟩
  exact hr'.set_limit (cht_factor ha.factor) (by rw [List.nil_append, distinct_range, ← hL]; rfl) (Nat.two_pow_pos u) hv5

end Poplar.Props
