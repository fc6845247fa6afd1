import Verif.Model.CompactVector
import Verif.Proof.Basic
/-
  `compact_vector` is an array of `width`-bit integers.
-/
namespace Poplar.CompactVector
open Poplar

structure WF (v : CompactVector) : Prop where
  width_pos : 0 < v.width
  width_lt : v.width < 64
  mask_eq : v.mask = 2 ^ v.width - 1
  chunks_size : v.chunks.size = wordsFor (v.size * v.width)
  chunk_lt : ∀ (k w : Nat), v.chunks[k]? = some w → w < 2 ^ 64

/-- bit `p` of the flat bit string stored in `chunks` -/
def bitAt (v : CompactVector) (p : Nat) : Bool := (v.chunks.getD (p / 64) 0).testBit (p % 64)

/-- abstract contents -/
def val (v : CompactVector) (i : Nat) : Nat := match v.get i with | .ok x => x | .error _ => 0

theorem make_wf {size width : Nat} (h0 : 0 < width) (h1 : width < 64) :
    ∃ v, make size width = .ok v ∧ v.WF ∧ v.size = size ∧ v.width = width ∧
      ∀ p, v.bitAt p = false := by
  refine ⟨_, by simp only [make]; rw [if_neg (by omega)], ⟨h0, h1, rfl, by simp, ?_⟩, rfl, rfl, ?_⟩
  · intro k w hk
    simp [Array.getElem?_replicate] at hk
    rw [← hk.2]; decide
  · intro p
    simp only [bitAt, Array.getD_eq_getD_getElem?, Array.getElem?_replicate]
    split <;> simp

variable {v : CompactVector}

theorem WF.idx_lt (h : v.WF) {i b : Nat} (hi : i < v.size) (hb : b < v.width) :
    (i * v.width + b) / 64 < v.chunks.size := by
  rw [h.chunks_size, wordsFor]
  have h1 : i * v.width + v.width ≤ v.size * v.width := by
    have := Nat.mul_le_mul_right v.width (Nat.succ_le_of_lt hi)
    rwa [Nat.succ_mul] at this
  generalize i * v.width = a at *
  generalize v.size * v.width = c at *
  omega

theorem getD_of_lt {a : Array Nat} {k : Nat} (h : k < a.size) : a.getD k 0 = a[k] := by
  simp [Array.getD, h]

theorem WF.chunk_lt' (h : v.WF) {k : Nat} (hk : k < v.chunks.size) : v.chunks[k] < 2 ^ 64 :=
  h.chunk_lt k _ (by simp [hk])

theorem WF.get_bits (h : v.WF) {i : Nat} (hi : i < v.size) :
    ∃ x, v.get i = .ok x ∧ ∀ b, x.testBit b = (decide (b < v.width) && v.bitAt (i * v.width + b)) := by
  have hq : i * v.width / 64 < v.chunks.size := by
    simpa using h.idx_lt hi h.width_pos
  unfold get
  simp only [R.assert_dec hi, R.bind_ok]
  have hdm := Nat.div_add_mod (i * v.width) 64
  have hml := Nat.mod_lt (i * v.width) (by decide : 64 > 0)
  have hw := h.width_lt
  have hw0 := h.width_pos
  split
  · rename_i hle
    rw [rd_of_lt hq]
    refine ⟨_, rfl, fun b => ?_⟩
    simp only [h.mask_eq, Nat.testBit_and, Nat.testBit_two_pow_sub_one, Nat.testBit_shiftRight, bitAt]
    by_cases hb : b < v.width
    · have e1 : (i * v.width + b) / 64 = i * v.width / 64 := by omega
      have e2 : (i * v.width + b) % 64 = i * v.width % 64 + b := by omega
      simp [hb, e1, e2, getD_of_lt hq]
    · simp [hb]
  · rename_i hgt
    have hq1 : i * v.width / 64 + 1 < v.chunks.size := by
      have := h.idx_lt hi (b := v.width - 1) (by omega)
      have e : (i * v.width + (v.width - 1)) / 64 = i * v.width / 64 + 1 := by omega
      omega
    rw [rd_of_lt hq, R.bind_ok, rd_of_lt hq1]
    refine ⟨_, rfl, fun b => ?_⟩
    simp only [h.mask_eq, Nat.testBit_and, Nat.testBit_two_pow_sub_one, Nat.testBit_shiftRight, bitAt,
      Nat.testBit_or, testBit_shl64]
    by_cases hb : b < v.width
    · simp only [hb, decide_true, Bool.and_true, Bool.true_and]
      by_cases hc : i * v.width % 64 + b < 64
      · have e1 : (i * v.width + b) / 64 = i * v.width / 64 := by omega
        have e2 : (i * v.width + b) % 64 = i * v.width % 64 + b := by omega
        rw [e1, e2, getD_of_lt hq]
        have : ¬ (64 - i * v.width % 64 ≤ b) := by omega
        simp [this]
      · have e1 : (i * v.width + b) / 64 = i * v.width / 64 + 1 := by omega
        have e2 : (i * v.width + b) % 64 = b - (64 - i * v.width % 64) := by omega
        rw [e1, e2, getD_of_lt hq1]
        have : (64 - i * v.width % 64 ≤ b) := by omega
        have h3 : (v.chunks[i * v.width / 64]).testBit (i * v.width % 64 + b) = false := by
          apply Nat.testBit_lt_two_pow
          exact Nat.lt_of_lt_of_le (h.chunk_lt' hq) (Nat.pow_le_pow_right (by decide) (by omega))
        simp [this, h3]
        omega
    · simp [hb]

theorem WF.get_ok (h : v.WF) {i : Nat} (hi : i < v.size) : v.get i = .ok (v.val i) := by
  obtain ⟨x, hx, _⟩ := h.get_bits hi
  simp [val, hx]

theorem WF.val_testBit (h : v.WF) {i : Nat} (hi : i < v.size) (b : Nat) :
    (v.val i).testBit b = (decide (b < v.width) && v.bitAt (i * v.width + b)) := by
  obtain ⟨x, hx, hb⟩ := h.get_bits hi
  simp [val, hx, hb]

theorem WF.val_lt (h : v.WF) {i : Nat} (hi : i < v.size) : v.val i < 2 ^ v.width := by
  apply Nat.lt_pow_two_of_testBit
  intro b hb
  rw [h.val_testBit hi]; simp; omega

theorem WF.set_bits (h : v.WF) {i x : Nat} (hi : i < v.size) (hx : x < 2 ^ v.width) :
    ∃ v', v.set i x = .ok v' ∧ v'.WF ∧ v'.size = v.size ∧ v'.width = v.width ∧
      ∀ p, v'.bitAt p = if i * v.width ≤ p ∧ p < i * v.width + v.width
        then x.testBit (p - i * v.width) else v.bitAt p := by
  have hq : i * v.width / 64 < v.chunks.size := by
    simpa using h.idx_lt hi h.width_pos
  unfold set
  have hxm : x ≤ v.mask := by rw [h.mask_eq]; omega
  simp only [R.assert_dec hi, R.assert_dec hxm, R.bind_ok, rd_of_lt hq, wr_of_lt hq]
  have hdm := Nat.div_add_mod (i * v.width) 64
  have hml := Nat.mod_lt (i * v.width) (by decide : 64 > 0)
  have hw := h.width_lt
  have hw0 := h.width_pos
  have hmlt : v.mask < 2 ^ 64 := by
    rw [h.mask_eq]
    exact Nat.lt_of_lt_of_le (Nat.sub_lt (Nat.two_pow_pos _) (by decide))
      (Nat.pow_le_pow_right (by decide) (by omega))
  have hand : x &&& v.mask = x := by rw [h.mask_eq, and_mask, Nat.mod_eq_of_lt hx]
  rw [hand]
  have hx64 : x < 2 ^ 64 :=
    Nat.lt_of_lt_of_le hx (Nat.pow_le_pow_right (by decide) (by omega))
  have hxb : ∀ b, v.width ≤ b → x.testBit b = false := fun b hb =>
    Nat.testBit_lt_two_pow (Nat.lt_of_lt_of_le hx (Nat.pow_le_pow_right (by decide) hb))
  -- new first word
  have hnw : ∀ c, c < 64 → ((v.chunks[i * v.width / 64] &&& not64 (shl64 v.mask (i * v.width % 64))) |||
      shl64 x (i * v.width % 64)).testBit c =
      if i * v.width % 64 ≤ c ∧ c < i * v.width % 64 + v.width then x.testBit (c - i * v.width % 64)
      else (v.chunks[i * v.width / 64]).testBit c := by
    intro c hc
    simp only [Nat.testBit_or, Nat.testBit_and, testBit_not64 _ _ hc, testBit_shl64, h.mask_eq,
      Nat.testBit_two_pow_sub_one, hc, decide_true, Bool.true_and]
    by_cases h1 : i * v.width % 64 ≤ c
    · by_cases h2 : c < i * v.width % 64 + v.width
      · have : c - i * v.width % 64 < v.width := by omega
        simp [h1, h2, this]
      · have h3 : ¬ c - i * v.width % 64 < v.width := by omega
        simp [h1, h2, h3, hxb _ (Nat.le_of_not_lt h3)]
    · simp [h1]
  have hnwlt : ((v.chunks[i * v.width / 64] &&& not64 (shl64 v.mask (i * v.width % 64))) |||
      shl64 x (i * v.width % 64)) < 2 ^ 64 :=
    Nat.or_lt_two_pow (Nat.lt_of_le_of_lt Nat.and_le_left (h.chunk_lt' hq)) (shl64_lt _ _)
  split
  · rename_i hgt
    have hq1 : i * v.width / 64 + 1 < v.chunks.size := by
      have := h.idx_lt hi (b := v.width - 1) (by omega)
      have e : (i * v.width + (v.width - 1)) / 64 = i * v.width / 64 + 1 := by omega
      omega
    rw [rd_of_lt (by simpa using hq1), R.bind_ok, wr_of_lt (by simpa using hq1), R.bind_ok, R.pure_eq]
    rw [Array.getElem_setIfInBounds_ne hq1 (by omega)]
    have hnw1 : ∀ c, c < 64 → ((v.chunks[i * v.width / 64 + 1] &&& not64 (v.mask >>> (64 - i * v.width % 64))) |||
        x >>> (64 - i * v.width % 64)).testBit c =
        if c + 64 < i * v.width % 64 + v.width then x.testBit (c + 64 - i * v.width % 64)
        else (v.chunks[i * v.width / 64 + 1]).testBit c := by
      intro c hc
      simp only [Nat.testBit_or, Nat.testBit_and, testBit_not64 _ _ hc, Nat.testBit_shiftRight, h.mask_eq,
        Nat.testBit_two_pow_sub_one]
      have e : 64 - i * v.width % 64 + c = c + 64 - i * v.width % 64 := by omega
      rw [e]
      by_cases h2 : c + 64 < i * v.width % 64 + v.width
      · have : c + 64 - i * v.width % 64 < v.width := by omega
        simp [h2, this]
      · have h3 : ¬ c + 64 - i * v.width % 64 < v.width := by omega
        simp [h2, h3, hxb _ (Nat.le_of_not_lt h3)]
    have hnw1lt : ((v.chunks[i * v.width / 64 + 1] &&& not64 (v.mask >>> (64 - i * v.width % 64))) |||
        x >>> (64 - i * v.width % 64)) < 2 ^ 64 := by
      refine Nat.or_lt_two_pow (Nat.lt_of_le_of_lt Nat.and_le_left (h.chunk_lt' hq1)) ?_
      rw [Nat.shiftRight_eq_div_pow]
      exact Nat.lt_of_le_of_lt (Nat.div_le_self _ _) hx64
    generalize hA : ((v.chunks[i * v.width / 64] &&& not64 (shl64 v.mask (i * v.width % 64))) |||
      shl64 x (i * v.width % 64)) = A at *
    generalize hB : ((v.chunks[i * v.width / 64 + 1] &&& not64 (v.mask >>> (64 - i * v.width % 64))) |||
        x >>> (64 - i * v.width % 64)) = B at *
    refine ⟨_, rfl, ⟨hw0, hw, h.mask_eq, by simpa using h.chunks_size, ?_⟩, rfl, rfl, ?_⟩
    · intro k w hk
      simp only [Array.getElem?_setIfInBounds, Array.size_setIfInBounds] at hk
      split at hk
      · have := Option.some.inj hk; omega
      · split at hk
        · have := Option.some.inj hk; omega
        · exact h.chunk_lt _ _ hk
    · intro p
      simp only [bitAt, Array.getD_eq_getD_getElem?, Array.getElem?_setIfInBounds, Array.size_setIfInBounds]
      have hc := Nat.mod_lt p (by decide : 64 > 0)
      by_cases e1 : i * v.width / 64 + 1 = p / 64
      · rw [if_pos e1, if_pos (by omega), Option.getD_some, hnw1 _ hc]
        have hpp : v.chunks[p / 64]? = some v.chunks[i * v.width / 64 + 1] := by
          rw [← e1]; simp [hq1]
        rw [hpp]
        by_cases h2 : p % 64 + 64 < i * v.width % 64 + v.width
        · rw [if_pos h2, if_pos (by omega)]; congr 1; omega
        · rw [if_neg h2, if_neg (by omega)]; rfl
      · rw [if_neg e1]
        by_cases e2 : i * v.width / 64 = p / 64
        · rw [if_pos e2, if_pos (by omega), Option.getD_some, hnw _ hc]
          have hpp : v.chunks[p / 64]? = some v.chunks[i * v.width / 64] := by
            rw [← e2]; simp [hq]
          rw [hpp]
          by_cases h2 : i * v.width % 64 ≤ p % 64 ∧ p % 64 < i * v.width % 64 + v.width
          · rw [if_pos h2, if_pos (by omega)]; congr 1; omega
          · rw [if_neg h2, if_neg (by omega)]; rfl
        · rw [if_neg e2, if_neg (by omega)]
  · rename_i hle
    generalize hA : ((v.chunks[i * v.width / 64] &&& not64 (shl64 v.mask (i * v.width % 64))) |||
      shl64 x (i * v.width % 64)) = A at *
    refine ⟨_, rfl, ⟨hw0, hw, h.mask_eq, by simpa using h.chunks_size, ?_⟩, rfl, rfl, ?_⟩
    · intro k w hk
      simp only [Array.getElem?_setIfInBounds] at hk
      split at hk
      · have := Option.some.inj hk; omega
      · exact h.chunk_lt _ _ hk
    · intro p
      simp only [bitAt, Array.getD_eq_getD_getElem?, Array.getElem?_setIfInBounds]
      have hc := Nat.mod_lt p (by decide : 64 > 0)
      by_cases e2 : i * v.width / 64 = p / 64
      · rw [if_pos e2, if_pos (by omega), Option.getD_some, hnw _ hc]
        have hpp : v.chunks[p / 64]? = some v.chunks[i * v.width / 64] := by
          rw [← e2]; simp [hq]
        rw [hpp]
        by_cases h2 : i * v.width % 64 ≤ p % 64 ∧ p % 64 < i * v.width % 64 + v.width
        · rw [if_pos h2, if_pos (by omega)]; congr 1; omega
        · rw [if_neg h2, if_neg (by omega)]; rfl
      · rw [if_neg e2, if_neg (by omega)]

/-- The array law: `set` succeeds, keeps the shape and changes exactly element `i`. -/
theorem WF.set_ok (h : v.WF) {i x : Nat} (hi : i < v.size) (hx : x < 2 ^ v.width) :
    ∃ v', v.set i x = .ok v' ∧ v'.WF ∧ v'.size = v.size ∧ v'.width = v.width ∧
      ∀ j, j < v.size → v'.val j = if j = i then x else v.val j := by
  obtain ⟨v', h1, h2, h3, h4, h5⟩ := h.set_bits hi hx
  refine ⟨v', h1, h2, h3, h4, fun j hj => ?_⟩
  apply Nat.eq_of_testBit_eq
  intro b
  rw [h2.val_testBit (by omega), h5, h4]
  have hsplit : ∀ b, b < v.width → ((i * v.width ≤ j * v.width + b ∧ j * v.width + b < i * v.width + v.width) ↔ j = i) := by
    intro b hb
    constructor
    · rintro ⟨ha, hc⟩
      rcases Nat.lt_trichotomy j i with hlt | heq | hgt
      · have := Nat.mul_le_mul_right v.width (Nat.succ_le_of_lt hlt)
        rw [Nat.succ_mul] at this
        omega
      · exact heq
      · have := Nat.mul_le_mul_right v.width (Nat.succ_le_of_lt hgt)
        rw [Nat.succ_mul] at this
        omega
    · rintro rfl; omega
  by_cases hb : b < v.width
  · by_cases hji : j = i
    · rw [if_pos ((hsplit b hb).2 hji), if_pos hji]; subst hji; simp [hb]
    · rw [if_neg (fun hh => hji ((hsplit b hb).1 hh)), if_neg hji, h.val_testBit hj]
  · by_cases hji : j = i
    · simp only [hb, decide_false, Bool.false_and, if_pos hji]
      exact (Nat.testBit_lt_two_pow (Nat.lt_of_lt_of_le hx (Nat.pow_le_pow_right (by decide) (by omega)))).symm
    · rw [if_neg hji, h.val_testBit hj]; simp [hb]

theorem make_ok {size width : Nat} (h0 : 0 < width) (h1 : width < 64) :
    ∃ v, make size width = .ok v ∧ v.WF ∧ v.size = size ∧ v.width = width ∧
      ∀ i, i < size → v.val i = 0 := by
  obtain ⟨v, e, hw, hs, hwd, hb⟩ := make_wf (size := size) h0 h1
  refine ⟨v, e, hw, hs, hwd, fun i hi => ?_⟩
  apply Nat.eq_of_testBit_eq
  intro b
  rw [hw.val_testBit (by omega), hb]; simp

theorem fillFrom_ok {init : Nat} : ∀ (n i : Nat) (v : CompactVector), v.WF → i + n = v.size →
    init < 2 ^ v.width →
    ∃ v', fillFrom init n i v = .ok v' ∧ v'.WF ∧ v'.size = v.size ∧ v'.width = v.width ∧
      ∀ j, j < v.size → v'.val j = if i ≤ j then init else v.val j := by
  intro n
  induction n with
  | zero =>
    intro i v hw hi hinit
    refine ⟨v, rfl, hw, rfl, rfl, fun j hj => ?_⟩
    rw [if_neg (by omega)]
  | succ n ih =>
    intro i v hw hi hinit
    obtain ⟨v1, e1, w1, s1, wd1, g1⟩ := hw.set_ok (i := i) (x := init) (by omega) hinit
    obtain ⟨v2, e2, w2, s2, wd2, g2⟩ := ih (i + 1) v1 w1 (by omega) (by rw [wd1]; exact hinit)
    refine ⟨v2, by simp [fillFrom, e1, e2], w2, by omega, by omega, fun j hj => ?_⟩
    rw [g2 j (by omega), g1 j hj]
    by_cases h1 : i + 1 ≤ j
    · rw [if_pos h1, if_pos (by omega)]
    · rw [if_neg h1]
      by_cases h2 : j = i
      · rw [if_pos h2, if_pos (by omega)]
      · rw [if_neg h2, if_neg (by omega)]

theorem makeInit_ok {size width init : Nat} (h0 : 0 < width) (h1 : width < 64) (hi : init < 2 ^ width) :
    ∃ v, makeInit size width init = .ok v ∧ v.WF ∧ v.size = size ∧ v.width = width ∧
      ∀ i, i < size → v.val i = init := by
  obtain ⟨v, e, hw, hs, hwd, hb⟩ := make_ok (size := size) h0 h1
  obtain ⟨v2, e2, w2, s2, wd2, g2⟩ := fillFrom_ok (init := init) size 0 v hw (by omega) (by rw [hwd]; exact hi)
  refine ⟨v2, by simp [makeInit, e, e2], w2, by omega, by omega, fun i hi => ?_⟩
  rw [g2 i (by omega), if_pos (by omega)]

end Poplar.CompactVector
