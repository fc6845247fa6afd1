import Verif.Proof.FillPath
/-
  A compact_fkhash_trie is filled with the nodes of `FillData.lean`.
-/
namespace Poplar.Fill
variable {cfg : CompactCfg} {t : CompactFk}

theorem cnt_step (p : Nat → Bool) (n : Nat) : cnt p (n + 1) = cnt p n + (if p n then 1 else 0) := rfl

theorem cnt_len {p : Nat → Bool} {n m : Nat} (hnm : n ≤ m) : cnt p n ≤ cnt p m := by
  obtain ⟨k, rfl⟩ : ∃ k, m = n + k := ⟨m - n, by omega⟩
  induction k with
  | zero => exact Nat.le_refl _
  | succ k ih =>
    have := ih (by omega)
    rw [show n + (k + 1) = n + k + 1 by omega, cnt_step]
    omega

/-- the symbol of the `k`-th child of the root -/
def psym (k : Nat) : Nat := k / 25 * 256 + (k % 25 + 1)

/-- the template arguments -/
structure Std (cfg : CompactCfg) : Prop where
  ok : cfg.OK
  m1 : cfg.dsp.dsp1Mask = 15
  m2 : cfg.dsp.dsp2Mask = 127
  mf : 81 ≤ cfg.maxFactor

theorem psym_lt {k : Nat} (h : k < 200) : psym k < 8192 := by unfold psym; omega

theorem psym_inj {j k : Nat} (h : psym j = psym k) : j = k := by unfold psym at h; omega

theorem E_eq' : E = (List.range 200).map (fun k => h29 (psym k) % 65536) := rfl

theorem E_nodup : E.Nodup := by rw [E_eq]; decide +kernel

theorem mem_E {i : Nat} : i ∈ E ↔ ∃ k < 200, i = h29 (psym k) % 65536 := by
  rw [E_eq', List.mem_map]
  constructor
  · rintro ⟨k, hk, rfl⟩; exact ⟨k, List.mem_range.mp hk, rfl⟩
  · rintro ⟨k, hk, rfl⟩; exact ⟨k, List.mem_range.mpr hk, rfl⟩

theorem home_inj {j k : Nat} (hj : j < 200) (hk : k < 200) (h : h29 (psym j) % 65536 = h29 (psym k) % 65536) : j = k := by
  have hn := E_nodup
  rw [E_eq', List.Nodup, List.pairwise_iff_getElem] at hn
  rcases Nat.lt_trichotomy j k with h1 | h1 | h1
  · exact (hn j k (by simpa using hj) (by simpa using hk) h1 (by simp only [List.getElem_map, List.getElem_range]; exact h)).elim
  · exact h1
  · exact (hn k j (by simpa using hk) (by simpa using hj) h1 (by simp only [List.getElem_map, List.getElem_range]; exact h.symm)).elim

/-- the first `q` children of the root are there, each in its home slot -/
structure Start (cfg : CompactCfg) (q : Nat) (t : CompactFk) : Prop where
  inv : CompactFk.Inv cfg 13 t
  bits : t.capa.bits = 16
  size : t.size = 1 + q
  occ : ∀ i < 65536, (t.occ cfg 13 i).isSome = true ↔ ∃ k < q, i = h29 (psym k) % 65536
  par : ∀ k < q, t.M cfg 13 (psym k) = some (k + 1)
  old : ∀ k x, t.M cfg 13 k = some x → ∃ j < q, k = psym j

/-- the slots before `f` and those of the children of the root are used -/
structure Stage (cfg : CompactCfg) (f r g n : Nat) (t : CompactFk) : Prop where
  inv : CompactFk.Inv cfg 13 t
  bits : t.capa.bits = 16
  size : t.size = n
  occ : ∀ i < 65536, (t.occ cfg 13 i).isSome = true ↔ i < f ∨ i ∈ E
  par : ∀ k < 200, t.M cfg 13 (psym k) = some (k + 1)
  old : ∀ k x, t.M cfg 13 k = some x → k < 8192 ∨ rot (h29 k) < r
  cnt : g ≤ cnt (fun i => decide (15 ≤ t.d.dsp cfg.dsp i ∧ t.d.dsp cfg.dsp i < 142)) f

theorem room (hs : Std cfg) (h : CompactFk.Inv cfg 13 t) (hb : t.capa.bits = 16) : 53084 ≤ t.maxSize := by
  rw [h.maxs, hb]
  have := hs.mf
  unfold Poplar.maxSize
  show 53084 ≤ 65536 * _ / 100
  omega

theorem none_of {i : Nat} (h : ¬ (t.occ cfg 13 i).isSome = true) : t.occ cfg 13 i = none := by
  cases hh : t.occ cfg 13 i with
  | none => rfl
  | some x => rw [hh] at h; simp at h

theorem Start.step (hs : Std cfg) {q : Nat} (hq : q < 200) (h : Start cfg q t) :
    CompactFk.addChild cfg t 0 (psym q) = .error .limit ∨
      ∃ t', CompactFk.addChild cfg t 0 (psym q) = .ok (t', q + 1, true) ∧ Start cfg (q + 1) t' := by
  have hp := psym_lt hq
  have hroom := room hs h.inv h.bits
  have hsz := h.size
  have hbits := h.bits
  have key := h.inv.add_at hs.ok (p := []) (v := 0) (s := psym q) (u := 0) rfl hp (by omega)
  rw [hbits, Nat.zero_mul, Nat.zero_add, h29_eq (by omega), Nat.add_zero] at key
  have hnew : t.M cfg 13 (psym q) = none := by
    cases hM : t.M cfg 13 (psym q) with
    | none => rfl
    | some x =>
      obtain ⟨j, hj, e⟩ := h.old _ _ hM
      have := psym_inj e
      omega
  have hfree : t.occ cfg 13 (h29 (psym q) % 2 ^ 16) = none := by
    refine none_of fun hc => ?_
    obtain ⟨k, hk, e⟩ := (h.occ _ (Nat.mod_lt _ (by decide))).mp hc
    have := home_inj hq (by omega) e
    omega
  rcases key hnew (by decide) hfree (fun s' h' => absurd h' (Nat.not_lt_zero _)) with h1 | ⟨t', h1, h2, h3, h4, h5, h6⟩
  · exact .inl h1
  · refine .inr ⟨t', by rw [h1, hsz, Nat.add_comm], h2, by rw [h3, hbits], by rw [h4, hsz]; omega, ?_, ?_, ?_⟩
    · intro i hi
      rw [(h6 i hi).1]
      split
      · rename_i e
        simp only [Option.isSome_some, true_iff]
        exact ⟨q, by omega, e⟩
      · rename_i e
        rw [h.occ i hi]
        constructor
        · rintro ⟨k, hk, e'⟩; exact ⟨k, by omega, e'⟩
        · rintro ⟨k, hk, e'⟩
          rcases Nat.lt_succ_iff_lt_or_eq.mp hk with hk | rfl
          · exact ⟨k, hk, e'⟩
          · exact absurd e' e
    · intro k hk
      rw [h5]
      split
      · rename_i e
        rw [psym_inj e, hsz, Nat.add_comm]
      · rename_i e
        rcases Nat.lt_succ_iff_lt_or_eq.mp hk with hk | rfl
        · exact h.par k hk
        · exact absurd rfl e
    · intro k x hx
      rw [h5] at hx
      split at hx
      · rename_i e; exact ⟨q, by omega, e⟩
      · obtain ⟨j, hj, e⟩ := h.old k x hx; exact ⟨j, by omega, e⟩

theorem Start.stage (h : Start cfg 200 t) : Stage cfg 0 0 0 201 t where
  inv := h.inv
  bits := h.bits
  size := h.size
  occ := fun i hi => by
    rw [h.occ i hi, mem_E]
    constructor
    · exact .inr
    · rintro (h | h)
      · omega
      · exact h
  par := h.par
  old := fun k x hx => by
    obtain ⟨j, hj, rfl⟩ := h.old k x hx
    exact .inl (psym_lt hj)
  cnt := Nat.zero_le _

theorem Stage.gap {f r g n : Nat} (hE : f ∈ E) (h : Stage cfg f r g n t) : Stage cfg (f + 1) r g n t where
  inv := h.inv
  bits := h.bits
  size := h.size
  occ := fun i hi => by
    rw [h.occ i hi]
    constructor
    · rintro (h | h)
      · exact .inl (by omega)
      · exact .inr h
    · rintro (h | h)
      · rcases Nat.lt_succ_iff_lt_or_eq.mp h with h | rfl
        · exact .inl h
        · exact .inr hE
      · exact .inr h
  par := h.par
  old := h.old
  cnt := by rw [cnt_step]; have := h.cnt; omega

theorem Stage.up {f r r' g n : Nat} (hr : r ≤ r') (h : Stage cfg f r g n t) : Stage cfg f r' g n t :=
  { h with old := fun k x hx => by have := h.old k x hx; omega }

theorem Stage.put (hs : Std cfg) {lo f r g n e : Nat} (hf : f < 65536) (hn : n < 53084) (hE : f ∉ E) (he : Ent lo f r e)
    (h : Stage cfg f r g n t) :
    CompactFk.addChild cfg t (e / 1024) (e / 32 % 32 * 256 + e % 32) = .error .limit ∨
      ∃ t', CompactFk.addChild cfg t (e / 1024) (e / 32 % 32 * 256 + e % 32) = .ok (t', n, true) ∧
        Stage cfg (f + 1) (rot (h29 (entryKey e)) + 1) (g + if 15 ≤ lo then 1 else 0) (n + 1) t' := by
  have hroom := room hs h.inv h.bits
  have hsz := h.size
  have hbits := h.bits
  obtain ⟨e1, e2, e3, e4, e5, e6, e7⟩ := he
  have hek : e / 1024 * 2 ^ 13 + (e / 32 % 32 * 256 + e % 32) = entryKey e := rfl
  have hkb : 8192 ≤ entryKey e := by unfold entryKey; omega
  have hkl : entryKey e < 2 ^ 29 := by unfold entryKey; omega
  have hpar := h.par (e / 1024 - 1) (by omega)
  have hpath : tpath (some 0) (t.child cfg 13) [psym (e / 1024 - 1)] = some (e / 1024) := by
    show (some 0).bind (fun v => t.child cfg 13 v (psym (e / 1024 - 1))) = _
    rw [Option.bind_some, CompactFk.child, childOf, if_pos (psym_lt (by omega)), Nat.zero_mul, Nat.zero_add, hpar]
    congr 1
    omega
  have key := h.inv.add_at hs.ok (s := e / 32 % 32 * 256 + e % 32) (u := f - h29 (entryKey e) % 65536) hpath (by omega) (by omega)
  rw [hbits, hek, h29_eq hkl] at key
  have hslot : ∀ u', h29 (entryKey e) % 65536 + u' < 65536 → (h29 (entryKey e) + u') % 2 ^ 16 = h29 (entryKey e) % 65536 + u' := by
    intro u' hu; omega
  have hslotf : (h29 (entryKey e) + (f - h29 (entryKey e) % 65536)) % 2 ^ 16 = f := by
    rw [hslot _ (by omega)]; omega
  rw [hslotf] at key
  have hnew : t.M cfg 13 (entryKey e) = none := by
    cases hM : t.M cfg 13 (entryKey e) with
    | none => rfl
    | some x => have := h.old _ _ hM; omega
  have hfree : t.occ cfg 13 f = none := by
    refine none_of fun hc => ?_
    rcases (h.occ _ hf).mp hc with h' | h'
    · omega
    · exact hE h'
  have hskip : ∀ s' < f - h29 (entryKey e) % 65536, t.occ cfg 13 ((h29 (entryKey e) + s') % 2 ^ 16) ≠ none := by
    intro s' hs' hc
    rw [hslot _ (by omega)] at hc
    have := (h.occ (h29 (entryKey e) % 65536 + s') (by omega)).mpr (.inl (by omega))
    rw [hc] at this
    simp at this
  rcases key hnew (by omega) hfree hskip with h1 | ⟨t', h1, h2, h3, h4, h5, h6⟩
  · exact .inl h1
  · refine .inr ⟨t', by rw [h1, hsz], h2, by rw [h3, hbits], by rw [h4, hsz], ?_, ?_, ?_, ?_⟩
    · intro i hi
      rw [(h6 i hi).1]
      split
      · rename_i e'
        simp only [Option.isSome_some, true_iff]
        exact .inl (by omega)
      · rename_i e'
        rw [h.occ i hi]
        constructor
        · rintro (h | h)
          · exact .inl (by omega)
          · exact .inr h
        · rintro (h | h)
          · exact .inl (by omega)
          · exact .inr h
    · intro k hk
      have := psym_lt hk
      rw [h5, if_neg (by omega)]
      exact h.par k hk
    · intro k x hx
      rw [h5] at hx
      split at hx
      · rename_i e'; rw [e']; exact .inr (by omega)
      · have := h.old k x hx; omega
    · have hc := h.cnt
      have e8 : Poplar.cnt (fun i => decide (15 ≤ t'.d.dsp cfg.dsp i ∧ t'.d.dsp cfg.dsp i < 142)) f =
          Poplar.cnt (fun i => decide (15 ≤ t.d.dsp cfg.dsp i ∧ t.d.dsp cfg.dsp i < 142)) f := by
        refine cnt_congr fun i hi => ?_
        rw [(h6 i (by omega)).2, if_neg (by omega)]
      have h6f := (h6 f hf).2
      rw [if_pos rfl] at h6f
      rw [cnt_step, e8]
      by_cases hlo : 15 ≤ lo
      · rw [if_pos hlo, if_pos (by rw [h6f]; exact decide_eq_true (by omega))]
        omega
      · rw [if_neg hlo]; omega

/-- the table of displacements has 52428 places -/
theorem Stage.bound (hs : Std cfg) {f r g n : Nat} (hf : f ≤ 65536) (h : Stage cfg f r g n t) : g ≤ 52428 := by
  have h1 := h.inv.ok.cht_bound
  rw [h.bits, hs.m1, hs.m2] at h1
  have h2 := cnt_len (p := fun i => decide (15 ≤ t.d.dsp cfg.dsp i ∧ t.d.dsp cfg.dsp i < 142)) (show f ≤ 2 ^ 16 from hf)
  have h3 : Poplar.maxSize (2 ^ 16) 80 = 52428 := by decide
  have h4 := h.cnt
  rw [h3] at h1
  simp only [Nat.reduceAdd] at h1
  omega

theorem ents0_length : ents0.length = 24 := by
  simp only [ents0, decS, List.length_flatMap, decE_length]
  decide +kernel

set_option maxRecDepth 100000 in
theorem ents1_length : ents1.length = 52429 := by
  simp only [ents1, decS, List.length_append, List.length_flatMap, decE_length]
  decide +kernel

end Poplar.Fill
