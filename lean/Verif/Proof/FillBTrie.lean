import Verif.Proof.CompactBonsaiTrie
import Verif.Proof.FillTrie
/-
  Where `compact_bonsai_trie::add_child` puts a new node, and when it fails.
-/
namespace Poplar.CompactBonsai
variable {cfg : CompactCfg} {sb : Nat} {t : CompactBonsai}

/-- A new node is put in the first free slot from its home on (slot 0 is the root's); the only possible failure is the limit
of the table of displacements. -/
theorem Inv.add_at (hf : cfg.OK) (h : Inv cfg sb t)
    {p : List Nat} {v s u : Nat} (hp : tpath (some 0) (t.child cfg sb) p = some v)
    (hs : s < 2 ^ sb) (hlt : t.size < t.maxSize) (hM : t.look cfg sb (v * 2 ^ sb + s) = none)
    (hu : u < 2 ^ t.capa.bits) (h0 : (SplitMix.H (t.capa.bits + sb) (v * 2 ^ sb + s) + u) % 2 ^ t.capa.bits ≠ 0)
    (ho : t.occ cfg sb ((SplitMix.H (t.capa.bits + sb) (v * 2 ^ sb + s) + u) % 2 ^ t.capa.bits) = none)
    (hsk : ∀ s' < u, (SplitMix.H (t.capa.bits + sb) (v * 2 ^ sb + s) + s') % 2 ^ t.capa.bits = 0 ∨
      t.occ cfg sb ((SplitMix.H (t.capa.bits + sb) (v * 2 ^ sb + s) + s') % 2 ^ t.capa.bits) ≠ none) :
    addChild cfg t v s = .error .limit ∨ ∃ t',
      addChild cfg t v s = .ok (t', (SplitMix.H (t.capa.bits + sb) (v * 2 ^ sb + s) + u) % 2 ^ t.capa.bits, true) ∧ Inv cfg sb t' ∧ t'.capa = t.capa ∧
      t'.size = t.size + 1 ∧ (∀ k, t'.look cfg sb k = if k = v * 2 ^ sb + s then
        some ((SplitMix.H (t.capa.bits + sb) (v * 2 ^ sb + s) + u) % 2 ^ t.capa.bits) else t.look cfg sb k) ∧
      ∀ j < 2 ^ t.capa.bits,
        t'.occ cfg sb j = (if j = (SplitMix.H (t.capa.bits + sb) (v * 2 ^ sb + s) + u) % 2 ^ t.capa.bits then some (v * 2 ^ sb + s) else t.occ cfg sb j) ∧
        t'.d.dsp cfg.dsp j = if j = (SplitMix.H (t.capa.bits + sb) (v * 2 ^ sb + s) + u) % 2 ^ t.capa.bits then 1 + u else t.d.dsp cfg.dsp j := by
  have hv := h.T_bound hp
  have h12 := hf.2.1
  have hd1 := hf.2.2.2
  have hd1' := hf.2.2.1.d1
  have hsbp := h.sbpos
  have hmc := h.minc
  have hw := h.width_lt
  obtain ⟨hk, hklt, hhash⟩ := h.key_facts hv hs
  have hmask : t.capa.mask = 2 ^ t.capa.bits - 1 := by rw [h.capa]
  have hms := h.maxs
  have hcs := h.child_eq (v := v) hs
  have hc : t.child cfg sb v s = none := by rw [child, childOf, if_pos hs, hM]
  have hpost := h.add_new hf hp hs hc hlt
  rw [hc] at hcs
  cases h.lp.probe (v * 2 ^ sb + s) with
  | found u hu ho hr hsk => rw [slotOf_eq h.lp.inj (h.mod_lt _) ho] at hcs; simp at hcs
  | absent u0 hu0 ho0 hr0 hsk0 ha =>
    have hu0' : u0 = u := by
      have hr0' : (SplitMix.H (t.capa.bits + sb) (v * 2 ^ sb + s) + u0) % 2 ^ t.capa.bits ≠ 0 := by simpa [res] using hr0
      rcases Nat.lt_trichotomy u0 u with hlt' | e | hlt'
      · rcases hsk u0 hlt' with h1 | h1
        · exact absurd h1 hr0'
        · exact absurd ho0 h1
      · exact e
      · rcases skip_cases hsk0 u hlt' with h1 | ⟨h1, _⟩
        · exact absurd h1 h0
        · rw [ho] at h1; simp at h1
    subst hu0'
    have hiC := h.mod_lt (SplitMix.H (t.capa.bits + sb) (v * 2 ^ sb + s) + u0)
    have hHlt := SplitMix.H_lt h.u_pos h.width_lt hklt
    have hq : SplitMix.H (t.capa.bits + sb) (v * 2 ^ sb + s) / 2 ^ t.capa.bits < 2 ^ sb := by
      rw [Nat.div_lt_iff_lt_mul (Nat.two_pow_pos _), ← Nat.pow_add, Nat.add_comm sb]; exact hHlt
    obtain ⟨i, hidef⟩ : ∃ i, i = (SplitMix.H (t.capa.bits + sb) (v * 2 ^ sb + s) + u0) % 2 ^ t.capa.bits := ⟨_, rfl⟩
    rw [← hidef] at ho0 h0 hiC ⊢
    have hdsp0 : t.d.dsp cfg.dsp i = 0 := by
      unfold occ at ho0; rw [if_neg h0] at ho0
      split at ho0
      · assumption
      · simp at ho0
    have hval0 := h.zero i hiC hdsp0
    have hup := h.ok.updateSlot_post (by omega) (by omega) hiC hval0 hq (show 1 + u0 ≤ 2 ^ t.capa.bits by omega)
    have hadd : addChild cfg t v s = probe (2 ^ t.capa.bits - 1)
        (t.addBody cfg v (SplitMix.H (t.capa.bits + sb) (v * 2 ^ sb + s) / 2 ^ t.capa.bits))
        (2 ^ t.capa.bits) (SplitMix.H (t.capa.bits + sb) (v * 2 ^ sb + s) % 2 ^ t.capa.bits) 1 := by
      unfold addChild
      rw [h.capa_size, h.symb_size, hmask]
      simp only [R.assert_dec hv, R.assert_dec hs, R.bind_ok, hhash, and_mask, Nat.shiftRight_eq_div_pow]
    have hskip : ∀ s' < u0, t.addBody cfg v (SplitMix.H (t.capa.bits + sb) (v * 2 ^ sb + s) / 2 ^ t.capa.bits)
        ((SplitMix.H (t.capa.bits + sb) (v * 2 ^ sb + s) + s') % 2 ^ t.capa.bits) (1 + s') = .ok none :=
      fun s' hs' => h.addBody_skip hklt (by omega) _ rfl (skip_cases hsk0 s' hs')
    have hbody : t.addBody cfg v (SplitMix.H (t.capa.bits + sb) (v * 2 ^ sb + s) / 2 ^ t.capa.bits) i (1 + u0) =
        (t.d.updateSlot cfg.dsp (2 ^ sb) i (SplitMix.H (t.capa.bits + sb) (v * 2 ^ sb + s) / 2 ^ t.capa.bits) (1 + u0) >>= fun d' =>
          pure (some ({ t with d := d', size := t.size + 1 }, i, true))) := by
      unfold addBody
      rw [h.root, R.bind_ok, if_neg h0, (h.slot_view hklt hu i hidef h0).1, R.bind_ok, ho0]
      simp only [Option.isNone_none, if_true]
      rw [if_neg (by omega), h.symb_size]
    cases he : t.d.updateSlot cfg.dsp (2 ^ sb) i (SplitMix.H (t.capa.bits + sb) (v * 2 ^ sb + s) / 2 ^ t.capa.bits) (1 + u0) with
    | error e =>
      left
      rw [he] at hup hbody
      have he' := hup.1.2
      rw [hadd]
      refine probe_error hskip ?_ hu0
      rw [← hidef, hbody, he']
      rfl
    | ok d' =>
      right
      rw [he] at hup hbody
      obtain ⟨hok', hd', hq', htv', hz'⟩ := hup
      have heq : addChild cfg t v s = .ok ({ t with d := d', size := t.size + 1 }, i, true) := by
        rw [hadd]
        refine probe_ok hskip ?_ hu0
        rw [← hidef, hbody]
        rfl
      have hkeyi : DspTable.keyAt cfg.dsp t.capa.bits sb d' i (1 + u0 - 1) = v * 2 ^ sb + s := by
        rw [hidef]
        refine (hok'.match_iff h.width_lt h.u_pos hklt hu (by omega)).mpr ⟨by omega, ?_⟩
        rw [← hidef, hq' i hiC, if_pos rfl]
      have hocc' : ∀ j < 2 ^ t.capa.bits, occ cfg sb { t with d := d', size := t.size + 1 } j =
          if j = i then some (v * 2 ^ sb + s) else t.occ cfg sb j := by
        intro j hj
        simp only [occ]
        rw [hd' j hj]
        by_cases hji : j = i
        · subst hji
          rw [if_neg h0, if_pos rfl, if_neg (by omega), if_pos rfl, hkeyi]
        · simp only [hji, if_false, DspTable.keyAt, hq' j hj]
      refine ⟨_, heq, (hpost.of_eq heq).2.1, rfl, rfl, ?_, fun j hj => ⟨hocc' j hj, hd' j hj⟩⟩
      intro k
      simp only [look, h.capa_size]
      exact slotOf_insert hiC h.lp.inj ho0 ha hocc' k

end Poplar.CompactBonsai
