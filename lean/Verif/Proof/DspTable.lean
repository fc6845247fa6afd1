import Verif.Model.DspTable
import Verif.Proof.KV
/-
  The displacement table of the compact tries behaves as an array of (quotient, displacement) pairs.
-/
namespace Poplar.DspTable
open Poplar

/-- the template arguments for which every entry fits in 64 bits, whatever the other parameters -/
structure _root_.Poplar.DspCfg.OK (c : DspCfg) : Prop where
  d1 : 0 < c.dsp1Bits
  d1' : c.dsp1Bits ≤ 16
  d2 : 0 < c.dsp2Bits
  d2' : c.dsp2Bits ≤ 11

/-- what a slot looks like in the three parts; `m1` and `m2` are the masks of the first two -/
def SlotOK (m1 m2 x : Nat) (mc ms : Option Nat) : Prop :=
  (x % (m1 + 1) < m1 ∧ mc = none ∧ ms = none) ∨ (x % (m1 + 1) = m1 ∧ ∃ e, mc = some e ∧ ms = none) ∨
  (x % (m1 + 1) = m1 ∧ mc = none ∧ ∃ e, ms = some e ∧ m1 + m2 ≤ e ∧ e < u64max)

/-- the displacement of a slot -/
def dec (m1 x : Nat) (mc ms : Option Nat) : Nat :=
  if x % (m1 + 1) < m1 then x % (m1 + 1) else match mc with
    | some e => e + m1
    | none => ms.getD u64max

structure OKM (c : DspCfg) (cb sb : Nat) (d : DspTable) (Mc : Nat → Option Nat) : Prop where
  cfg : c.OK
  wf : d.table.WF
  tsize : d.table.size = 2 ^ cb
  twidth : d.table.width = sb + c.dsp1Bits
  holds : Cht.Holds c.cht d.cht Mc
  univ : d.cht.univ.bits = cb
  map : Sht.Inv ShtCfg.std d.map
  msize : d.map.size ≤ cnt (fun i => (d.map.M i).isSome) (2 ^ cb)
  slots : ∀ i < 2 ^ cb, SlotOK c.dsp1Mask c.dsp2Mask (d.table.val i) (Mc i) (d.map.M i)
  num2 : d.num2 = d.cht.size
  num3 : d.num3 = d.map.size

def OK (c : DspCfg) (cb sb : Nat) (d : DspTable) : Prop := ∃ Mc, OKM c cb sb d Mc

/-- displacement stored in slot `i` -/
def dsp (c : DspCfg) (d : DspTable) (i : Nat) : Nat := match d.getDsp c i with | .ok x => x | .error _ => 0

/-- quotient stored in slot `i` -/
def quo (c : DspCfg) (d : DspTable) (i : Nat) : Nat := d.table.val i / 2 ^ c.dsp1Bits

variable {c : DspCfg} {cb sb : Nat} {d : DspTable} {Mc : Nat → Option Nat}

theorem sht_factor : Sht.Factor ShtCfg.std := by unfold Sht.Factor; decide

theorem cht_factor (c : DspCfg) : FactorOK c.cht.minCapaBits c.cht.maxFactor := by
  show FactorOK 12 80; unfold FactorOK; decide

theorem masks (h : c.OK) : c.dsp1Mask + 1 = 2 ^ c.dsp1Bits ∧ 1 ≤ c.dsp1Mask ∧ c.dsp1Mask < 2 ^ 16 ∧
    c.dsp2Mask = c.cht.valMask ∧ c.dsp2Mask < 2 ^ 11 := by
  have h1 : 2 ^ 1 ≤ 2 ^ c.dsp1Bits := Nat.pow_le_pow_right (by decide) h.d1
  have h2 : 2 ^ c.dsp1Bits ≤ 2 ^ 16 := Nat.pow_le_pow_right (by decide) h.d1'
  have h3 : 2 ^ c.dsp2Bits ≤ 2 ^ 11 := Nat.pow_le_pow_right (by decide) h.d2'
  have h4 : c.dsp2Mask = 2 ^ c.dsp2Bits - 1 := rfl
  have h5 : c.dsp1Mask = 2 ^ c.dsp1Bits - 1 := rfl
  have := Nat.two_pow_pos c.dsp2Bits
  refine ⟨by omega, by omega, by omega, rfl, by omega⟩

theorem OKM.getDsp_eq (h : OKM c cb sb d Mc) {i : Nat} (hi : i < 2 ^ cb) :
    d.getDsp c i = .ok (dec c.dsp1Mask (d.table.val i) (Mc i) (d.map.M i)) := by
  unfold getDsp
  rw [h.wf.get_ok (by rw [h.tsize]; exact hi), R.bind_ok]
  obtain ⟨k1, k2, k3, k4, k5⟩ := masks h.cfg
  have hm : d.table.val i &&& c.dsp1Mask = d.table.val i % (c.dsp1Mask + 1) := by rw [k1]; exact and_mask _ _
  dsimp only
  rw [hm]
  have hx := h.slots i hi
  unfold dec
  by_cases h1 : d.table.val i % (c.dsp1Mask + 1) < c.dsp1Mask
  · rw [if_pos h1, if_pos h1]; rfl
  · rw [if_neg h1, if_neg h1, h.holds.get_ok (by rw [h.univ]; exact hi), R.bind_ok]
    rcases hx with ⟨a, _⟩ | ⟨_, e, b, _⟩ | ⟨_, b, e, c, _⟩
    · exact absurd a h1
    · have := h.holds.vals _ _ b
      rw [b]
      dsimp only [Option.getD]
      rw [if_pos (by unfold u64max; omega)]; rfl
    · rw [b, c]
      dsimp only [Option.getD]
      rw [if_neg (by simp), h.map.get_ok, c]; rfl

theorem OKM.dsp_eq (h : OKM c cb sb d Mc) {i : Nat} (hi : i < 2 ^ cb) :
    d.dsp c i = dec c.dsp1Mask (d.table.val i) (Mc i) (d.map.M i) := by
  unfold dsp; rw [h.getDsp_eq hi]

theorem OK.getDsp_ok (h : OK c cb sb d) {i : Nat} (hi : i < 2 ^ cb) : d.getDsp c i = .ok (d.dsp c i) := by
  obtain ⟨Mc, h⟩ := h
  rw [h.dsp_eq hi, h.getDsp_eq hi]

theorem OK.getQuo_ok (h : OK c cb sb d) {i : Nat} (hi : i < 2 ^ cb) : d.getQuo c i = .ok (d.quo c i) := by
  obtain ⟨Mc, h⟩ := h
  unfold getQuo quo
  rw [h.wf.get_ok (by rw [h.tsize]; exact hi), R.bind_ok, Nat.shiftRight_eq_div_pow]; rfl

theorem OK.quo_lt (h : OK c cb sb d) {i : Nat} (hi : i < 2 ^ cb) : d.quo c i < 2 ^ sb := by
  obtain ⟨Mc, h⟩ := h
  have := h.wf.val_lt (i := i) (by rw [h.tsize]; exact hi)
  rw [h.twidth, Nat.pow_add] at this
  unfold quo
  exact (Nat.div_lt_iff_lt_mul (Nat.two_pow_pos _)).2 this

theorem OK.compareDsp_ok (h : OK c cb sb d) {i r : Nat} (hi : i < 2 ^ cb) : d.compareDsp c i r = .ok (decide (d.dsp c i = r)) := by
  obtain ⟨Mc, h⟩ := h
  rw [h.dsp_eq hi]
  unfold compareDsp
  rw [h.wf.get_ok (by rw [h.tsize]; exact hi), R.bind_ok]
  obtain ⟨k1, k2, k3, k4, k5⟩ := masks h.cfg
  have hm : d.table.val i &&& c.dsp1Mask = d.table.val i % (c.dsp1Mask + 1) := by rw [k1]; exact and_mask _ _
  dsimp only
  rw [hm]
  have hx := h.slots i hi
  unfold dec
  by_cases h1 : d.table.val i % (c.dsp1Mask + 1) < c.dsp1Mask
  · rw [if_pos h1, if_pos h1]; rfl
  · rw [if_neg h1, if_neg h1, h.holds.get_ok (by rw [h.univ]; exact hi)]
    rcases hx with ⟨a, _⟩ | ⟨_, e, b, _⟩ | ⟨_, b, e, hc, c1, c2⟩
    · exact absurd a h1
    · have := h.holds.vals _ _ b
      rw [b]
      dsimp only [Option.getD]
      by_cases h2 : r < c.dsp1Mask
      · rw [if_pos h2, decide_eq_false (by omega)]; rfl
      · rw [if_neg h2, R.bind_ok, if_pos (by unfold u64max; omega)]; rfl
    · rw [b, hc]
      dsimp only [Option.getD]
      by_cases h2 : r < c.dsp1Mask
      · rw [if_pos h2, decide_eq_false (by omega)]; rfl
      · rw [if_neg h2, R.bind_ok, if_neg (by simp)]
        by_cases h3 : r < c.dsp1Mask + c.dsp2Mask
        · rw [if_pos h3, decide_eq_false (by omega)]; rfl
        · rw [if_neg h3, h.map.get_ok, hc, R.bind_ok]
          dsimp only [Option.getD]
          rw [R.assert_dec (by omega)]; rfl

/-- an all-zero slot has displacement 0 -/
theorem OK.dsp_zero (h : OK c cb sb d) {i : Nat} (hi : i < 2 ^ cb) (hz : d.table.val i = 0) : d.dsp c i = 0 := by
  obtain ⟨Mc, h⟩ := h
  rw [h.dsp_eq hi, hz]
  have := (masks h.cfg).2.1
  unfold dec; rw [Nat.zero_mod, if_pos (by omega)]

/-- the second level holds at most one entry per non-zero slot -/
theorem OKM.cht_size (h : OKM c cb sb d Mc) : d.cht.size ≤ cnt (fun i => decide (d.table.val i ≠ 0)) (2 ^ cb) := by
  rw [h.holds.size_eq, h.univ]
  apply cnt_mono
  intro i hi hm
  rcases h.slots i hi with ⟨_, a, _⟩ | ⟨a, _⟩ | ⟨_, a, _⟩
  · rw [a] at hm; simp at hm
  · simp only [decide_eq_true_eq]
    intro hz
    have := (masks h.cfg).2.1
    rw [hz, Nat.zero_mod] at a; omega
  · rw [a] at hm; simp at hm

theorem make_ok (hc : c.OK) (hcb : 12 ≤ cb) (hcb' : cb ≤ 62) (hsb : sb + c.dsp1Bits < 64) :
    ∃ d, make c { bits := cb, mask := 2 ^ cb - 1 } { bits := sb, mask := 2 ^ sb - 1 } = .ok d ∧ OK c cb sb d ∧ ∀ i < 2 ^ cb, d.table.val i = 0 := by
  have hd1 := hc.d1
  have hd2 := hc.d2'
  obtain ⟨v, hv, hw, hs, hwd, hval⟩ := CompactVector.make_ok (size := 2 ^ cb) (width := sb + c.dsp1Bits) (by omega) (by omega)
  obtain ⟨x, hx, h1, h2, h3, h4⟩ := Cht.Holds.make (cfg := c.cht) (u := cb) (c := 0) (by simp only [DspCfg.cht, ChtCfg.std]; omega) (by omega) (by omega)
    (by simp only [DspCfg.cht, ChtCfg.std]; omega)
  refine ⟨{ table := v, cht := x }, ?_, ⟨fun _ => none, ?_⟩, hval⟩
  · have hz : 2 ^ cb - 1 + 1 = 2 ^ cb := by have := Nat.two_pow_pos cb; omega
    unfold make
    simp only [SizeP2.size, hz]
    rw [hv, R.bind_ok, hx, R.bind_ok]; rfl
  · exact { cfg := hc, wf := hw, tsize := hs, twidth := hwd, holds := h1, univ := h2, map := Sht.Inv.default, msize := Nat.zero_le _, slots := fun i hi => Or.inl ⟨by rw [hval i hi, Nat.zero_mod]; exact (masks hc).2.1, rfl, Sht.M_default i⟩, num2 := h4.symm, num3 := rfl }

/-- storing a (quotient, displacement) pair in an all-zero slot -/
theorem OK.updateSlot_post (h : OK c cb sb d) (hcb : cb ≤ 62) (hw : sb + c.dsp1Bits < 64) {i q e : Nat} (hi : i < 2 ^ cb) (hz : d.table.val i = 0)
    (hq : q < 2 ^ sb) (he : e ≤ 2 ^ cb) :
    Post (Poplar.maxSize (2 ^ cb) 80 ≤ cnt (fun i => decide (d.table.val i ≠ 0)) (2 ^ cb) ∧ d.updateSlot c (2 ^ sb) i q e = .error .limit)
      (d.updateSlot c (2 ^ sb) i q e) (fun d' =>
      OK c cb sb d' ∧ (∀ j < 2 ^ cb, d'.dsp c j = if j = i then e else d.dsp c j) ∧
      (∀ j < 2 ^ cb, d'.quo c j = if j = i then q else d.quo c j) ∧
      (∀ j < 2 ^ cb, j ≠ i → d'.table.val j = d.table.val j) ∧ (d'.table.val i = 0 → e = 0)) := by
  obtain ⟨Mc, h⟩ := h
  obtain ⟨n1, n2, n3, n4, n5⟩ := masks h.cfg
  have hmm : ∀ y < 2 ^ c.dsp1Bits, y % (c.dsp1Mask + 1) = y := fun y hy => Nat.mod_eq_of_lt (by rw [n1]; exact hy)
  have hP : (2 : Nat) ^ cb ≤ 2 ^ 62 := Nat.pow_le_pow_right (by decide) hcb
  have hslot := h.slots i hi
  rw [hz] at hslot
  have hnone : Mc i = none ∧ d.map.M i = none := by
    rcases hslot with ⟨_, a, b⟩ | ⟨a, _⟩ | ⟨a, _⟩
    · exact ⟨a, b⟩
    · rw [Nat.zero_mod] at a; omega
    · rw [Nat.zero_mod] at a; omega
  have hshl : ∀ y < 2 ^ c.dsp1Bits, shl64 q c.dsp1Bits ||| y = q * 2 ^ c.dsp1Bits + y := fun y hy => key_eq (sb := c.dsp1Bits) hq hy hw
  have hlt : ∀ y < 2 ^ c.dsp1Bits, q * 2 ^ c.dsp1Bits + y < 2 ^ d.table.width := by
    intro y hy
    rw [h.twidth, Nat.pow_add]
    have : (q + 1) * 2 ^ c.dsp1Bits ≤ 2 ^ sb * 2 ^ c.dsp1Bits := Nat.mul_le_mul_right _ hq
    rw [Nat.add_mul, Nat.one_mul] at this
    omega
  unfold updateSlot
  rw [h.wf.get_ok (by rw [h.tsize]; exact hi), R.bind_ok, R.assert_dec hz, R.bind_ok, R.assert_dec hq, R.bind_ok]
  dsimp only
  have hset := fun y (hy : y < 2 ^ c.dsp1Bits) => h.wf.set_ok (i := i) (x := q * 2 ^ c.dsp1Bits + y) (by rw [h.tsize]; exact hi) (hlt y hy)
  -- the conclusions, from the new parts
  have fin : ∀ (y : Nat) (tb : CompactVector) (c' : Cht) (m' : Sht) (Mc' : Nat → Option Nat) (a1 a2 a3 : Nat), a2 = c'.size → a3 = m'.size → y < 2 ^ c.dsp1Bits →
      tb.WF → tb.size = d.table.size → tb.width = d.table.width →
      (∀ j, j < d.table.size → tb.val j = if j = i then q * 2 ^ c.dsp1Bits + y else d.table.val j) →
      Cht.Holds c.cht c' Mc' → c'.univ.bits = cb → Sht.Inv ShtCfg.std m' →
      m'.size ≤ cnt (fun i => (m'.M i).isSome) (2 ^ cb) →
      (∀ j, j ≠ i → Mc' j = Mc j) → (∀ j, j ≠ i → m'.M j = d.map.M j) →
      SlotOK c.dsp1Mask c.dsp2Mask y (Mc' i) (m'.M i) → dec c.dsp1Mask y (Mc' i) (m'.M i) = e → (y = 0 → e = 0) →
      OK c cb sb { table := tb, cht := c', map := m', num1 := a1, num2 := a2, num3 := a3 } ∧ (∀ j < 2 ^ cb, dsp c { table := tb, cht := c', map := m', num1 := a1, num2 := a2, num3 := a3 } j = if j = i then e else d.dsp c j) ∧
      (∀ j < 2 ^ cb, quo c { table := tb, cht := c', map := m', num1 := a1, num2 := a2, num3 := a3 } j = if j = i then q else d.quo c j) ∧
      (∀ j < 2 ^ cb, j ≠ i → tb.val j = d.table.val j) ∧ (tb.val i = 0 → e = 0) := by
    intro y tb c' m' Mc' a1 a2 a3 ha2 ha3 hy w1 w2 w3 w4 c1 c2 m1 m2 e1 e2 so de ye
    have hti : ∀ j < 2 ^ cb, j < d.table.size := fun j hj => by rw [h.tsize]; exact hj
    have hmod : (q * 2 ^ c.dsp1Bits + y) % (c.dsp1Mask + 1) = y := by
      rw [n1, Nat.mul_comm, Nat.mul_add_mod, Nat.mod_eq_of_lt hy]
    have hymod : y % (c.dsp1Mask + 1) = y := hmm y hy
    have hO : OKM c cb sb { table := tb, cht := c', map := m', num1 := a1, num2 := a2, num3 := a3 } Mc' := by
      refine { cfg := h.cfg, wf := w1, tsize := w2.trans h.tsize, twidth := w3.trans h.twidth, holds := c1, univ := c2, map := m1, msize := m2, slots := ?_, num2 := ha2, num3 := ha3 }
      intro j hj
      show SlotOK c.dsp1Mask c.dsp2Mask (tb.val j) (Mc' j) (m'.M j)
      rw [w4 j (hti j hj)]
      by_cases hji : j = i
      · subst hji
        rw [if_pos rfl]
        unfold SlotOK at so ⊢
        rw [hmod]
        rwa [hymod] at so
      · rw [if_neg hji, e1 j hji, e2 j hji]; exact h.slots j hj
    refine ⟨⟨Mc', hO⟩, ?_, ?_, ?_, ?_⟩
    · intro j hj
      rw [hO.dsp_eq hj]
      show dec c.dsp1Mask (tb.val j) (Mc' j) (m'.M j) = _
      rw [w4 j (hti j hj)]
      by_cases hji : j = i
      · subst hji
        rw [if_pos rfl, if_pos rfl]
        unfold dec at de ⊢
        rw [hmod]
        rwa [hymod] at de
      · rw [if_neg hji, if_neg hji, e1 j hji, e2 j hji, h.dsp_eq hj]
    · intro j hj
      show tb.val j / 2 ^ c.dsp1Bits = _
      rw [w4 j (hti j hj)]
      by_cases hji : j = i
      · rw [if_pos hji, if_pos hji, Nat.mul_comm, Nat.mul_add_div (Nat.two_pow_pos _), Nat.div_eq_of_lt hy, Nat.add_zero]
      · rw [if_neg hji, if_neg hji]; rfl
    · intro j hj hji
      rw [w4 j (hti j hj), if_neg hji]
    · rw [w4 i (hti i hi), if_pos rfl]
      intro e0; exact ye (by omega)
  have hm1 := hmm c.dsp1Mask (by omega)
  by_cases h1 : e < c.dsp1Mask
  · have hme := hmm e (by omega)
    rw [if_pos h1, hshl e (by omega)]
    obtain ⟨tb, s1, s2, s3, s4, s5⟩ := hset e (by omega)
    rw [s1, R.bind_ok, countDsp, if_pos h1]
    refine fin e tb d.cht d.map Mc _ _ _ h.num2 h.num3 (by omega) s2 s3 s4 s5 h.holds h.univ h.map h.msize (fun _ _ => rfl) (fun _ _ => rfl) ?_ ?_ (fun h => h)
    · exact Or.inl ⟨by rw [hme]; exact h1, hnone.1, hnone.2⟩
    · unfold dec; rw [if_pos (by omega)]; omega
  rw [if_neg h1, hshl c.dsp1Mask (by omega)]
  obtain ⟨tb, s1, s2, s3, s4, s5⟩ := hset c.dsp1Mask (by omega)
  by_cases h2 : e - c.dsp1Mask < c.dsp2Mask
  · rw [if_pos h2]
    have hrel := h.cht_size
    by_cases hcap : d.cht.size < d.cht.maxSize ∨ d.cht.capa.bits < d.cht.univ.bits
    · obtain ⟨c', k1, k2, k3, -, k4, -⟩ := h.holds.set_ok (cht_factor c) hcap (k := i) (X := e - c.dsp1Mask) (by rw [h.univ]; exact hi) (by rw [← n4]; exact h2)
      rw [k1, R.bind_ok, s1, R.bind_ok, countDsp, if_neg h1, if_pos (show e < c.dsp1Mask + c.dsp2Mask by omega)]
      refine fin c.dsp1Mask tb c' d.map _ _ _ _ (by rw [k4, hnone.1]; exact congrArg (· + 1) h.num2) h.num3 (by omega) s2 s3 s4 s5 k2 (by rw [k3]; exact h.univ) h.map h.msize (fun j hj => if_neg hj) (fun _ _ => rfl) ?_ ?_ (fun h => by omega)
      · exact Or.inr (Or.inl ⟨by omega, e - c.dsp1Mask, if_pos rfl, hnone.2⟩)
      · unfold dec; rw [if_neg (by omega), if_pos rfl]; dsimp only; omega
    · have hcu := h.holds.core.cu
      have hms := h.holds.core.maxs
      have hfull : d.cht.maxSize ≤ d.cht.size := by
        by_cases hx : d.cht.size < d.cht.maxSize
        · exact absurd (Or.inl hx) hcap
        · omega
      have hcb' : d.cht.capa.bits = d.cht.univ.bits := by
        by_cases hx : d.cht.capa.bits < d.cht.univ.bits
        · exact absurd (Or.inr hx) hcap
        · omega
      rw [h.holds.set_limit hfull hcb' (by rw [h.univ]; exact hi) (by rw [← n4]; exact h2)]
      refine ⟨⟨?_, rfl⟩, Or.inl rfl⟩
      rw [hcb', h.univ] at hms
      have : Poplar.maxSize (2 ^ cb) 80 = d.cht.maxSize := hms.symm
      omega
  · rw [if_neg h2]
    have hki : i ≠ u64max := by unfold u64max; omega
    have hms : Poplar.maxSize (2 ^ 63) ShtCfg.std.maxFactor = 7378697629483820646 := by decide +kernel
    have hle : d.map.size ≤ 2 ^ cb := Nat.le_trans h.msize (cnt_le _ _)
    obtain ⟨⟨m', b⟩, k1, k2, k3, k4, k5⟩ := (h.map.set_post sht_factor (by decide) (key := i) (val := e) hki).get (by omega)
    dsimp only at k2 k3 k4 k5
    rw [k1, R.bind_ok, s1, R.bind_ok, countDsp, if_neg h1, if_neg (show ¬ e < c.dsp1Mask + c.dsp2Mask by omega)]
    refine fin c.dsp1Mask tb d.cht m' Mc _ _ _ h.num2 (by rw [k4, k3, hnone.2]; exact congrArg (· + 1) h.num3) (by omega) s2 s3 s4 s5 h.holds h.univ k2 ?_ (fun _ _ => rfl) (fun j hj => by rw [k5, if_neg hj]) ?_ ?_ (fun h => by omega)
    · have : cnt (fun i => (m'.M i).isSome) (2 ^ cb) = cnt (fun i => (d.map.M i).isSome) (2 ^ cb) + 1 := by
        apply cnt_set hi
        · rw [hnone.2]; rfl
        · rw [k5, if_pos rfl]; rfl
        · intro j hj hji; rw [k5, if_neg hji]
      rw [this]
      have := h.msize
      split at k4 <;> omega
    · refine Or.inr (Or.inr ⟨by omega, hnone.1, e, by rw [k5, if_pos rfl], by omega, by unfold u64max; omega⟩)
    · unfold dec; rw [if_neg (by omega), hnone.1, k5, if_pos rfl]; rfl

/-- number of displacements counted -/
def sum (d : DspTable) : Nat := d.num1 + d.num2 + d.num3

theorem sum_countDsp (e : Nat) : (d.countDsp c e).sum = d.sum + 1 := by
  unfold countDsp
  split
  · simp only [sum]; omega
  · split
    · simp only [sum]; omega
    · simp only [sum]; omega

/-- every displacement stored is counted once -/
theorem updateSlot_sum {d' : DspTable} {s i q e : Nat} (h : d.updateSlot c s i q e = .ok d') : d'.sum = d.sum + 1 := by
  obtain ⟨_, _, h⟩ := R.bind_eq_ok h
  obtain ⟨_, _, h⟩ := R.bind_eq_ok h
  obtain ⟨_, _, h⟩ := R.bind_eq_ok h
  dsimp only at h
  split at h
  · obtain ⟨_, _, h⟩ := R.bind_eq_ok h
    cases h; exact sum_countDsp e
  · split at h
    · obtain ⟨_, _, h⟩ := R.bind_eq_ok h
      obtain ⟨_, _, h⟩ := R.bind_eq_ok h
      cases h; exact sum_countDsp e
    · obtain ⟨_, _, h⟩ := R.bind_eq_ok h
      obtain ⟨_, _, h⟩ := R.bind_eq_ok h
      cases h; exact sum_countDsp e

theorem make_sum {cs ss : SizeP2} (h : make c cs ss = .ok d) : d.sum = 0 := by
  obtain ⟨_, _, h⟩ := R.bind_eq_ok h
  obtain ⟨_, _, h⟩ := R.bind_eq_ok h
  cases h; rfl

/-- the two auxiliary tables hold the displacements counted in the second and third place -/
theorem OK.nums (h : OK c cb sb d) : d.num2 = d.cht.size ∧ d.num3 = d.map.size := by
  obtain ⟨Mc, h⟩ := h
  exact ⟨h.num2, h.num3⟩

end Poplar.DspTable
