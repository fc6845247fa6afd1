import Verif.Proof.CompactVectorResize
import Verif.Spec.Arr
/-
  C20: `compact_vector` is an array of w-bit integers.
  C35: `resize`.
-/
namespace Poplar.Props
open Poplar Poplar.Spec

/-- apply one operation of the public interface -/
def cvStep (v : CompactVector) : ArrOp → R CompactVector
  | .set i x => v.set i x
  | .grow n => .ok (v.resize n)

/-- apply a history -/
def cvRun (v : CompactVector) : List ArrOp → R CompactVector
  | [] => .ok v
  | o :: os => do cvRun (← cvStep v o) os

/-- simulation relation (proof-internal) -/
private def Sim (w : Nat) (v : CompactVector) (a : Arr) : Prop :=
  v.WF ∧ v.size = a.size ∧ v.width = w ∧ (∀ j < a.size, v.val j = a.at' j) ∧
    ∀ p, a.size * w ≤ p → v.bitAt p = false

private theorem sim_step {w : Nat} {v : CompactVector} {a : Arr} {o : ArrOp} (h : Sim w v a)
    (hl : a.Legal w o) : ∃ v', cvStep v o = .ok v' ∧ Sim w v' (a.step o) := by
  obtain ⟨hw, hs, hwd, hv, hz⟩ := h
  cases o with
  | set i x =>
    obtain ⟨h1, h2⟩ := hl
    obtain ⟨v', e, w', s', d', b'⟩ := hw.set_bits (i := i) (x := x) (by omega) (by rw [hwd]; exact h2)
    obtain ⟨v'', e2, _, _, _, g'⟩ := hw.set_ok (i := i) (x := x) (by omega) (by rw [hwd]; exact h2)
    rw [e] at e2; injection e2 with e2; subst e2
    refine ⟨v', e, w', by simp [Arr.step]; omega, by omega, ?_, ?_⟩
    · intro j hj
      simp only [Arr.step] at hj ⊢
      rw [g' j (by omega), hv j hj]
    · intro p hp
      simp only [Arr.step] at hp
      rw [b' p, if_neg, hz p hp]
      have : (i + 1) * w ≤ a.size * w := Nat.mul_le_mul_right _ (by omega)
      rw [Nat.succ_mul] at this
      rw [hwd]; omega
  | grow n =>
    simp only [Arr.Legal] at hl
    obtain ⟨w', s', d', b'⟩ := hw.resize_grow (n := n) (by omega)
    refine ⟨_, rfl, w', s', by omega, ?_, ?_⟩
    · intro j hj
      simp only [Arr.step] at hj ⊢
      split
      · rw [hw.resize_val (by omega) (by omega), hv j (by omega)]
      · rename_i hj2
        apply Nat.eq_of_testBit_eq
        intro b
        rw [w'.val_testBit (by omega), b', hz]
        · simp
        · rw [d', hwd]
          have : a.size * w ≤ j * w := Nat.mul_le_mul_right _ (by omega)
          omega
    · intro p hp
      simp only [Arr.step] at hp
      rw [b']
      apply hz
      have : a.size * w ≤ n * w := Nat.mul_le_mul_right _ hl
      omega

private theorem sim_run {w : Nat} (os : List ArrOp) : ∀ {v : CompactVector} {a : Arr}, Sim w v a →
    Arr.LegalAll w a os → ∃ v', cvRun v os = .ok v' ∧ Sim w v' (a.run os) := by
  induction os with
  | nil => intro v a h _; exact ⟨v, rfl, h⟩
  | cons o os ih =>
    intro v a h hl
    obtain ⟨v1, e1, h1⟩ := sim_step h hl.1
    obtain ⟨v2, e2, h2⟩ := ih h1 hl.2
    exact ⟨v2, by simp [cvRun, e1, e2], h2⟩

/-- **C20, C35 (first half).** For every width `1..63`, every size, and every history of `set` and
growing `resize` calls with in-range arguments, a zero-initialised `compact_vector` returns normally
from every call and afterwards `get(j)` gives exactly the element of the abstract array: the last
value set at `j`, or zero. `set` changes no other element and `resize` keeps all of them. -/
theorem C20_compact_vector_is_array (n w : Nat) (h0 : 0 < w) (h1 : w < 64) (os : List ArrOp)
    (hl : Arr.LegalAll w ⟨n, fun _ => 0⟩ os) :
    ∃ v0 v, CompactVector.make n w = .ok v0 ∧ cvRun v0 os = .ok v ∧
      v.size = (Arr.run ⟨n, fun _ => 0⟩ os).size ∧
      ∀ j < v.size, v.get j = .ok ((Arr.run ⟨n, fun _ => 0⟩ os).at' j) := by
  obtain ⟨v0, e0, w0, s0, d0, b0⟩ := CompactVector.make_wf (size := n) h0 h1
  obtain ⟨v0', e0', _, _, _, z0⟩ := CompactVector.make_ok (size := n) h0 h1
  rw [e0] at e0'; injection e0' with e0'; subst e0'
  obtain ⟨v, e, hw, hs, hd, hv, _⟩ := sim_run os (v := v0) (a := ⟨n, fun _ => 0⟩)
    ⟨w0, s0, d0, z0, fun p _ => b0 p⟩ hl
  exact ⟨v0, v, e0, e, hs, fun j hj => by rw [hw.get_ok hj, hv j (by omega)]⟩

/-- the same for the constructor with an initial value, histories of `set` calls -/
theorem C20_compact_vector_init (n w init : Nat) (h0 : 0 < w) (h1 : w < 64) (hi : init < 2 ^ w)
    (sets : List (Nat × Nat)) (hl : ∀ s ∈ sets, s.1 < n ∧ s.2 < 2 ^ w) :
    ∃ v0 v, CompactVector.makeInit n w init = .ok v0 ∧
      sets.foldlM (fun v s => CompactVector.set v s.1 s.2) v0 = .ok v ∧
      ∀ j < n, v.get j = .ok (((sets.reverse.find? (fun s => s.1 == j)).map (·.2)).getD init) := by
  obtain ⟨v0, e0, w0, s0, d0, z0⟩ := CompactVector.makeInit_ok (size := n) h0 h1 hi
  refine ⟨v0, ?_⟩
  suffices h : ∃ v, sets.foldlM (fun v s => CompactVector.set v s.1 s.2) v0 = .ok v ∧ v.WF ∧ v.size = n ∧
      ∀ j < n, v.val j = (((sets.reverse.find? (fun s => s.1 == j)).map (·.2)).getD (v0.val j)) by
    obtain ⟨v, e, hw, hs, hv⟩ := h
    exact ⟨v, e0, e, fun j hj => by rw [hw.get_ok (by omega), hv j hj, z0 j hj]⟩
  clear e0 z0
  induction sets generalizing v0 with
  | nil => exact ⟨v0, rfl, w0, s0, fun j _ => by simp⟩
  | cons s sets ih =>
    have hs := hl s (by simp)
    obtain ⟨v1, e1, w1, s1, d1, g1⟩ := w0.set_ok (i := s.1) (x := s.2) (by omega) (by rw [d0]; exact hs.2)
    obtain ⟨v, e, hw, hs', hv⟩ := ih (fun t ht => hl t (by simp [ht])) v1 w1 (by omega) (by omega)
    refine ⟨v, by simp [List.foldlM_cons, e1, e], hw, hs', fun j hj => ?_⟩
    rw [hv j hj, g1 j (by omega)]
    simp only [List.reverse_cons, List.find?_append, List.find?_cons, List.find?_nil]
    cases hfind : sets.reverse.find? (fun s => s.1 == j) with
    | some t => simp
    | none =>
      by_cases hjs : j = s.1
      · simp [hjs]
      · have : (s.1 == j) = false := by simpa using fun h => hjs h.symm
        simp [hjs, this]

/-- non-vacuity of C20: widths where an element straddles two words, with a growth in the middle -/
example : Arr.LegalAll 37 ⟨5, fun _ => 0⟩ [.set 1 (2 ^ 37 - 1), .grow 9, .set 8 12345, .set 1 7] := by
  simp [Arr.LegalAll, Arr.Legal, Arr.step]

/-- a straddling element really is exercised: bits 37..73 of the chunks -/
example : (do
    let v ← CompactVector.make 5 37
    let v ← cvRun v [.set 1 (2 ^ 37 - 1), .set 0 3, .set 2 9]
    pure (← v.get 0, ← v.get 1, ← v.get 2)) = .ok (3, 2 ^ 37 - 1, 9) := by decide +kernel

/-- apply one operation of the public interface -/
def pvStep (v : CompactVector) : PArrOp → R CompactVector
  | .set i x => v.set i x
  | .resize n => .ok (v.resize n)

/-- apply a history -/
def pvRun (v : CompactVector) : List PArrOp → R CompactVector
  | [] => .ok v
  | o :: os => do pvRun (← pvStep v o) os

/-- simulation relation (proof-internal) -/
private def PSim (w : Nat) (v : CompactVector) (a : PArr) : Prop :=
  v.WF ∧ v.size = a.size ∧ v.width = w ∧ ∀ j x, a.at' j = some x → x < 2 ^ w ∧ ∀ b < w, v.bitAt (j * w + b) = x.testBit b

private theorem in_words {n w j b : Nat} (hj : j < n) (hb : b < w) : (j * w + b) / 64 < wordsFor (n * w) := by
  have h : (j + 1) * w ≤ n * w := Nat.mul_le_mul_right _ hj
  rw [Nat.succ_mul] at h
  unfold wordsFor
  generalize j * w = x at *
  generalize n * w = y at *
  omega

private theorem psim_step {w : Nat} {v : CompactVector} {a : PArr} {o : PArrOp} (h : PSim w v a)
    (hz : ∀ j, a.size ≤ j → ∀ x, a.at' j = some x → x = 0) (hl : a.Legal w o) :
    ∃ v', pvStep v o = .ok v' ∧ PSim w v' (a.step o) ∧ ∀ j, (a.step o).size ≤ j → ∀ x, (a.step o).at' j = some x → x = 0 := by
  obtain ⟨hw, hs, hwd, hv⟩ := h
  cases o with
  | set i x =>
    obtain ⟨h1, h2⟩ := hl
    obtain ⟨v', e, w', s', d', b'⟩ := hw.set_bits (i := i) (x := x) (by omega) (by rw [hwd]; exact h2)
    refine ⟨v', e, ⟨w', by simp only [PArr.step]; omega, by omega, ?_⟩, ?_⟩
    · intro j y hy
      simp only [PArr.step] at hy
      by_cases hji : j = i
      · rw [if_pos hji] at hy
        have := Option.some.inj hy; subst this; subst hji
        refine ⟨h2, fun b hb => ?_⟩
        rw [b', hwd, if_pos (by omega), Nat.add_sub_cancel_left]
      · rw [if_neg hji] at hy
        refine ⟨(hv j y hy).1, fun b hb => ?_⟩
        rw [b', hwd, if_neg, (hv j y hy).2 b hb]
        rintro ⟨ha, hc⟩
        rcases Nat.lt_trichotomy j i with hlt | heq | hgt
        · have := Nat.mul_le_mul_right w (Nat.succ_le_of_lt hlt)
          rw [Nat.succ_mul] at this; omega
        · exact hji heq
        · have := Nat.mul_le_mul_right w (Nat.succ_le_of_lt hgt)
          rw [Nat.succ_mul] at this; omega
    · intro j hj y hy
      simp only [PArr.step] at hj hy
      rw [if_neg (by omega)] at hy
      exact hz j hj y hy
  | resize n =>
    obtain ⟨w', s', d', b'⟩ := hw.resize_any n
    have hy' : ∀ {j y}, (a.step (.resize n)).at' j = some y → ¬ (n ≤ j ∧ j < a.size) ∧ a.at' j = some y := by
      intro j y hy
      simp only [PArr.step] at hy
      split at hy
      · simp at hy
      · rename_i hc; exact ⟨hc, hy⟩
    refine ⟨_, rfl, ⟨w', s', by omega, ?_⟩, ?_⟩
    · intro j y hy
      obtain ⟨hc, hy⟩ := hy' hy
      refine ⟨(hv j y hy).1, fun b hb => ?_⟩
      rw [b', (hv j y hy).2 b hb, hwd]
      by_cases hj : j < n
      · simp [in_words hj hb]
      · rw [hz j (by omega) y hy]; simp
    · intro j hj y hy
      obtain ⟨hc, hy⟩ := hy' hy
      have hj' : n ≤ j := hj
      exact hz j (by omega) y hy

private theorem psim_run {w : Nat} (os : List PArrOp) : ∀ {v : CompactVector} {a : PArr}, PSim w v a →
    (∀ j, a.size ≤ j → ∀ x, a.at' j = some x → x = 0) → PArr.LegalAll w a os → ∃ v', pvRun v os = .ok v' ∧ PSim w v' (a.run os) := by
  induction os with
  | nil => intro v a h _ _; exact ⟨v, rfl, h⟩
  | cons o os ih =>
    intro v a h hz hl
    obtain ⟨v1, e1, h1, hz1⟩ := psim_step h hz hl.1
    obtain ⟨v2, e2, h2⟩ := ih h1 hz1 hl.2
    exact ⟨v2, by simp [pvRun, e1, e2], h2⟩

/-- **C35** The same with `resize` in both directions: every call returns, and every element that has not been dropped by a
`resize` to a smaller size since it was last set has the value it was set to (zero if it never was). -/
theorem C35_resize (n w : Nat) (h0 : 0 < w) (h1 : w < 64) (os : List PArrOp)
    (hl : PArr.LegalAll w ⟨n, fun _ => some 0⟩ os) :
    ∃ v0 v, CompactVector.make n w = .ok v0 ∧ pvRun v0 os = .ok v ∧
      v.size = (PArr.run ⟨n, fun _ => some 0⟩ os).size ∧
      ∀ j < v.size, ∃ x, v.get j = .ok x ∧ ∀ y, (PArr.run ⟨n, fun _ => some 0⟩ os).at' j = some y → x = y := by
  obtain ⟨v0, e0, w0, s0, d0, b0⟩ := CompactVector.make_wf (size := n) h0 h1
  obtain ⟨v, e, hw, hs, hd, hv⟩ := psim_run os (v := v0) (a := ⟨n, fun _ => some 0⟩)
    ⟨w0, s0, d0, fun j x hx => by
      have := Option.some.inj hx; subst this
      exact ⟨Nat.two_pow_pos _, fun b _ => by rw [b0]; simp⟩⟩
    (fun j _ x hx => (Option.some.inj hx).symm) hl
  refine ⟨v0, v, e0, e, hs, fun j hj => ⟨_, hw.get_ok hj, fun y hy => ?_⟩⟩
  apply Nat.eq_of_testBit_eq
  intro b
  rw [hw.val_testBit hj, hd]
  by_cases hb : b < w
  · simp [hb, (hv j y hy).2 b hb]
  · simp only [hb, decide_false, Bool.false_and]
    exact (Nat.testBit_lt_two_pow (Nat.lt_of_lt_of_le (hv j y hy).1 (Nat.pow_le_pow_right (by decide) (by omega)))).symm

/-- non-vacuity of C35: elements dropped and grown again, some of them set in between -/
example : PArr.LegalAll 37 ⟨5, fun _ => some 0⟩ [.set 1 (2 ^ 37 - 1), .resize 2, .resize 9, .set 8 12345, .set 3 7] ∧
    (PArr.run ⟨5, fun _ => some 0⟩ [.set 1 (2 ^ 37 - 1), .resize 2, .resize 9, .set 8 12345, .set 3 7]).at' 4 = none ∧
    (PArr.run ⟨5, fun _ => some 0⟩ [.set 1 (2 ^ 37 - 1), .resize 2, .resize 9, .set 8 12345, .set 3 7]).at' 1 = some (2 ^ 37 - 1) ∧
    (PArr.run ⟨5, fun _ => some 0⟩ [.set 1 (2 ^ 37 - 1), .resize 2, .resize 9, .set 8 12345, .set 3 7]).at' 7 = some 0 := by
  simp [PArr.LegalAll, PArr.Legal, PArr.step, PArr.run]

/-- **C35** What a dropped element reads as when the vector grows again, exactly. Let `a` be the array after any history (`C20`), shrunk to
`n1` elements and then resized to `n2` elements: the elements below `n1` are kept; of an element from `n1` on the lowest bits are kept, as
many as lie in the 64-bit words that the `n1` elements need; the others, and the elements that never existed, are zero. -/
theorem C35_stale_exact (n w : Nat) (h0 : 0 < w) (h1 : w < 64) (os : List ArrOp)
    (hl : Arr.LegalAll w ⟨n, fun _ => 0⟩ os) {a : Arr} (ha : a = Arr.run ⟨n, fun _ => 0⟩ os) (n1 n2 : Nat) :
    ∃ v0 v, CompactVector.make n w = .ok v0 ∧ cvRun v0 os = .ok v ∧
      ∀ j < n2, ((v.resize n1).resize n2).get j = .ok
        (if j < a.size then if j < n1 then a.at' j else a.at' j % 2 ^ (64 * ((n1 * w + 63) / 64) - j * w) else 0) := by
  subst ha
  obtain ⟨v0, e0, w0, s0, d0, b0⟩ := CompactVector.make_wf (size := n) h0 h1
  obtain ⟨v0', e0', _, _, _, z0⟩ := CompactVector.make_ok (size := n) h0 h1
  rw [e0] at e0'; injection e0' with e0'; subst e0'
  obtain ⟨v, e, hw, hs, hd, hv, hz⟩ := sim_run os (v := v0) (a := ⟨n, fun _ => 0⟩)
    ⟨w0, s0, d0, z0, fun p _ => b0 p⟩ hl
  refine ⟨v0, v, e0, e, fun j hj => ?_⟩
  generalize Arr.run ⟨n, fun _ => 0⟩ os = a at *
  obtain ⟨w1, s1, d1, b1⟩ := hw.resize_any n1
  obtain ⟨w2, s2, d2, b2⟩ := w1.resize_any n2
  rw [w2.get_ok (by omega)]
  congr 1
  apply Nat.eq_of_testBit_eq
  intro b
  rw [w2.val_testBit (by omega), b2, b1, d2, d1, hd]
  by_cases hb : b < w
  · simp only [hb, decide_true, Bool.true_and, in_words hj hb]
    by_cases hja : j < a.size
    · rw [if_pos hja]
      have hbit : v.bitAt (j * w + b) = (a.at' j).testBit b := by
        rw [← hv j hja, hw.val_testBit (by omega), hd]; simp [hb]
      rw [hbit]
      by_cases hj1 : j < n1
      · rw [if_pos hj1]; simp [in_words hj1 hb]
      · rw [if_neg hj1, Nat.testBit_mod_two_pow]
        congr 1
        unfold wordsFor
        apply decide_eq_decide.2
        omega
    · rw [if_neg hja, hz]
      · simp
      · have : a.size * w ≤ j * w := Nat.mul_le_mul_right _ (by omega)
        omega
  · simp only [hb, decide_false, Bool.false_and]
    symm
    split
    · rename_i hja
      have hlt : (a.at' j).testBit b = false := by
        rw [← hv j hja, hw.val_testBit (by omega), hd]; simp [hb]
      split
      · exact hlt
      · rw [Nat.testBit_mod_two_pow, hlt]; simp
    · simp

/-- **C35 (second half, negative).** After a shrink followed by a grow, an element that is
re-grown need not read as zero: the bits of dropped elements survive in a shared word. -/
theorem C35_shrink_grow_stale :
    ∃ (v : CompactVector), CompactVector.make 4 8 = .ok v ∧
      ∃ v1, v.set 3 200 = .ok v1 ∧ ((v1.resize 2).resize 4).get 3 = .ok 200 := by
  refine ⟨_, rfl, _, rfl, ?_⟩
  decide +kernel

end Poplar.Props
