import Verif.Proof.CompactFkhashTrie
/-
  Where `compact_fkhash_trie::add_child` puts a new node, and when it fails.
-/
namespace Poplar

theorem probe_error {α : Type} {b h c0 t fuel : Nat} {e : Fault} {body : Nat → Nat → R (Option α)}
    (hs : ∀ s < t, body ((h + s) % 2 ^ b) (c0 + s) = .ok none)
    (ht : body ((h + t) % 2 ^ b) (c0 + t) = .error e)
    (hf : t < fuel) : probe (2 ^ b - 1) body fuel (h % 2 ^ b) c0 = .error e := by
  have aux : ∀ (n s fuel : Nat), s + n = t → n < fuel →
      probe (2 ^ b - 1) body fuel ((h + s) % 2 ^ b) (c0 + s) = .error e := by
    intro n
    induction n with
    | zero =>
      intro s fuel hst hf
      obtain ⟨f, rfl⟩ : ∃ f, fuel = f + 1 := ⟨fuel - 1, by omega⟩
      have : s = t := by omega
      subst this
      rw [probe, ht]; rfl
    | succ n ih =>
      intro s fuel hst hf
      obtain ⟨f, rfl⟩ : ∃ f, fuel = f + 1 := ⟨fuel - 1, by omega⟩
      rw [probe, hs s (by omega)]
      show probe (2 ^ b - 1) body f (((h + s) % 2 ^ b + 1) &&& (2 ^ b - 1)) (c0 + s + 1) = _
      rw [and_mask, Nat.mod_add_mod]
      exact ih (s + 1) f (by omega) (by omega)
  simpa using aux t 0 fuel (by omega) hf

namespace DspTable
variable {c : DspCfg} {cb sb : Nat} {d : DspTable}

/-- at most 80 % of the displacements can be in the second level -/
theorem OK.cht_bound (h : OK c cb sb d) :
    cnt (fun i => decide (c.dsp1Mask ≤ d.dsp c i ∧ d.dsp c i < c.dsp1Mask + c.dsp2Mask)) (2 ^ cb) ≤ Poplar.maxSize (2 ^ cb) 80 := by
  obtain ⟨Mc, h⟩ := h
  have h1 : d.cht.maxSize ≤ Poplar.maxSize (2 ^ cb) 80 := by
    rw [h.holds.core.maxs]
    have := h.holds.core.cu
    rw [h.univ] at this
    exact maxSize_mono (Nat.pow_le_pow_right (by decide) this)
  have h2 := h.holds.le
  have h3 := h.holds.size_eq
  rw [h.univ] at h3
  refine Nat.le_trans (cnt_mono ?_) (h3 ▸ Nat.le_trans h2 h1)
  intro i hi hd
  rw [decide_eq_true_eq, h.dsp_eq hi] at hd
  unfold dec at hd
  rcases h.slots i hi with ⟨a, _, _⟩ | ⟨a, e, b, _⟩ | ⟨a, b, e, f, g, _⟩
  · rw [if_pos a] at hd; omega
  · rw [b]; rfl
  · rw [if_neg (by omega), b, f] at hd
    simp only [Option.getD_some] at hd
    omega

end DspTable

namespace CompactFk
variable {cfg : CompactCfg} {sb : Nat} {t : CompactFk}

/-- A new node is put in the first free slot from its home on; the only possible failure is the limit of the table of
displacements. -/
theorem Inv.add_at (hf : cfg.OK) (h : Inv cfg sb t)
    {p : List Nat} {v s u : Nat} (hp : tpath (some 0) (t.child cfg sb) p = some v)
    (hs : s < 2 ^ sb) (hlt : t.size < t.maxSize) (hM : t.M cfg sb (v * 2 ^ sb + s) = none)
    (hu : u < 2 ^ t.capa.bits) (ho : t.occ cfg sb ((SplitMix.H (t.capa.bits + sb) (v * 2 ^ sb + s) + u) % 2 ^ t.capa.bits) = none)
    (hsk : ∀ s' < u, t.occ cfg sb ((SplitMix.H (t.capa.bits + sb) (v * 2 ^ sb + s) + s') % 2 ^ t.capa.bits) ≠ none) :
    addChild cfg t v s = .error .limit ∨ ∃ t', addChild cfg t v s = .ok (t', t.size, true) ∧ Inv cfg sb t' ∧ t'.capa = t.capa ∧
      t'.size = t.size + 1 ∧ (∀ k, t'.M cfg sb k = if k = v * 2 ^ sb + s then some t.size else t.M cfg sb k) ∧
      ∀ j < 2 ^ t.capa.bits,
        t'.occ cfg sb j = (if j = (SplitMix.H (t.capa.bits + sb) (v * 2 ^ sb + s) + u) % 2 ^ t.capa.bits then some (v * 2 ^ sb + s) else t.occ cfg sb j) ∧
        t'.d.dsp cfg.dsp j = if j = (SplitMix.H (t.capa.bits + sb) (v * 2 ^ sb + s) + u) % 2 ^ t.capa.bits then u else t.d.dsp cfg.dsp j := by
  have hv := h.T_bound hp
  have hszlt := h.size_lt hf
  have hvC : v < 2 ^ t.capa.bits := by omega
  have hk := key_lt (cb := t.capa.bits) hvC hs
  have hpost := h.add_post hf hp hs (cb0 := 0) (Nat.zero_le _)
  have hadd : addChild cfg t v s = probe (2 ^ t.capa.bits - 1) (t.addBody cfg (SplitMix.H (t.capa.bits + sb) (v * 2 ^ sb + s) / 2 ^ t.capa.bits))
      (2 ^ t.capa.bits) (SplitMix.H (t.capa.bits + sb) (v * 2 ^ sb + s) % 2 ^ t.capa.bits) 0 := by
    unfold addChild
    rw [h.capa_size, h.symb_size, R.assert_dec hvC, R.bind_ok, R.assert_dec hs, R.bind_ok, if_neg (by omega)]
    show (do
      let x ← t.hasher.hash (t.makeKey v s)
      probe t.capa.mask (t.addBody cfg (x >>> t.capa.bits)) t.capa.size (x &&& t.capa.mask) 0) = _
    rw [h.key_eq' hf hv hs, h.hasher, SplitMix.hash_eq h.u_pos h.width_lt hk, R.bind_ok]
    rw [h.capa_size, h.capa_mask, and_mask, Nat.shiftRight_eq_div_pow]
  have hC := hf.1.at _ h.minc
  have hms := h.maxs
  have hsz := h.size
  cases h.lp.probe (v * 2 ^ sb + s) with
  | found u hu ho hr hsk =>
    rw [M, lookv_none] at hM
    exact absurd ho (hM _ (h.mod_lt _))
  | absent u0 hu0 ho0 hr0 hsk0 ha =>
    have hu0' : u0 = u := by
      rcases Nat.lt_trichotomy u0 u with hlt' | e | hlt'
      · exact absurd ho0 (hsk u0 hlt')
      · exact e
      · rcases hsk0 u hlt' with h1 | ⟨_, k', _, h1⟩
        · simp [nores] at h1
        · rw [ho] at h1; cases h1
    subst hu0'
    have hskip : ∀ s' < u0, t.addBody cfg (SplitMix.H (t.capa.bits + sb) (v * 2 ^ sb + s) / 2 ^ t.capa.bits) ((SplitMix.H (t.capa.bits + sb) (v * 2 ^ sb + s) + s') % 2 ^ t.capa.bits) (0 + s') = .ok none := by
      intro s' hs'
      rcases hsk0 s' hs' with h1 | ⟨_, k', hk', ho⟩
      · simp [nores] at h1
      · obtain ⟨h1, h2⟩ := occ_some.mp ho
        obtain ⟨h3, h4, h5⟩ := h.slot_view hk (s := s') (by omega) _ rfl h1
        unfold addBody
        rw [h.get_id (h.mod_lt _), R.bind_ok, h.capa_mask, if_neg h1, Nat.zero_add, h3, R.bind_ok, h4, R.bind_ok, h5, ho]
        simp [hk']
    have hw := h.write hf (id := t.size) hk hszlt hu0 ho0 hsk0 ha (by omega)
    cases hup : t.updateSlot cfg ((SplitMix.H (t.capa.bits + sb) (v * 2 ^ sb + s) + u0) % 2 ^ t.capa.bits) (SplitMix.H (t.capa.bits + sb) (v * 2 ^ sb + s) / 2 ^ t.capa.bits) u0 t.size with
    | error e =>
      left
      rw [hup] at hw
      have he := hw.1.2
      rw [hadd]
      refine probe_error hskip ?_ hu0
      unfold addBody
      rw [h.get_id (h.mod_lt _), R.bind_ok, h.capa_mask, if_pos (occ_none.mp ho0), Nat.zero_add, hup, he]
      rfl
    | ok t1 =>
      right
      rw [hup] at hw
      obtain ⟨w1, w2, w3, w4, w5, w6, w7⟩ := hw
      have heq : addChild cfg t v s = .ok ({ t1 with size := t1.size + 1 }, t1.size, true) := by
        rw [hadd]
        refine probe_ok hskip ?_ hu0
        unfold addBody
        rw [h.get_id (h.mod_lt _), R.bind_ok, h.capa_mask, if_pos (occ_none.mp ho0), Nat.zero_add, hup]
        rfl
      rw [w4] at heq
      refine ⟨_, heq, (hpost.of_eq heq).1, w2, ?_, w6, w7⟩
      show t.size + 1 = t.size + 1
      rfl

/-- A node that exists is found, and the trie stays as it is. -/
theorem Inv.add_found (hf : cfg.OK) (h : Inv cfg sb t)
    {p : List Nat} {v s i : Nat} (hp : tpath (some 0) (t.child cfg sb) p = some v)
    (hs : s < 2 ^ sb) (hlt : t.size < t.maxSize) (hM : t.M cfg sb (v * 2 ^ sb + s) = some i) :
    addChild cfg t v s = .ok (t, i, false) := by
  have hv := h.T_bound hp
  have hszlt := h.size_lt hf
  have hvC : v < 2 ^ t.capa.bits := by omega
  have hk := key_lt (cb := t.capa.bits) hvC hs
  unfold addChild
  rw [h.capa_size, h.symb_size, R.assert_dec hvC, R.bind_ok, R.assert_dec hs, R.bind_ok, if_neg (by omega)]
  show (do
    let x ← t.hasher.hash (t.makeKey v s)
    probe t.capa.mask (t.addBody cfg (x >>> t.capa.bits)) t.capa.size (x &&& t.capa.mask) 0) = _
  rw [h.key_eq' hf hv hs, h.hasher, SplitMix.hash_eq h.u_pos h.width_lt hk, R.bind_ok]
  rw [h.capa_size, h.capa_mask, and_mask, Nat.shiftRight_eq_div_pow]
  cases h.lp.probe (v * 2 ^ sb + s) with
  | found u hu ho hr hsk =>
    rw [M, lookv_eq h.lp.inj (h.mod_lt _) ho] at hM
    injection hM with hM
    subst hM
    obtain ⟨h1, h2⟩ := occ_some.mp ho
    obtain ⟨h3, h4, h5⟩ := h.slot_view hk hu _ rfl h1
    refine probe_ok ?_ ?_ hu
    · intro s' hs'
      rcases hsk s' hs' with h1 | ⟨_, k', hk', ho⟩
      · simp [nores] at h1
      · obtain ⟨h1, h2⟩ := occ_some.mp ho
        obtain ⟨h3, h4, h5⟩ := h.slot_view hk (s := s') (by omega) _ rfl h1
        unfold addBody
        rw [h.get_id (h.mod_lt _), R.bind_ok, h.capa_mask, if_neg h1, Nat.zero_add, h3, R.bind_ok, h4, R.bind_ok, h5, ho]
        simp [hk']
    · unfold addBody
      rw [h.get_id (h.mod_lt _), R.bind_ok, h.capa_mask, if_neg h1, Nat.zero_add, h3, R.bind_ok, h4, R.bind_ok, h5, ho]
      simp
  | absent u hu ho hr hsk ha =>
    rw [M, lookv_none.mpr ha] at hM
    cases hM

end CompactFk
end Poplar
