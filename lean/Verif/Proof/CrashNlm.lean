import Verif.Proof.Crash
import Verif.Proof.CompactFkNlm
import Verif.Proof.CompactBonsaiNlm
import Verif.Proof.PlainBonsaiNlm
import Verif.Proof.PlainFkNlm
import Verif.Proof.Aliases
/-
  What an allocation failure leaves of the label stores.
-/
namespace Poplar
open Spec

theorem VByte.decodeGo_append (bs x : List UInt8) : ∀ {i s v : Nat} {r : Nat × Nat}, VByte.decodeGo bs i s v = .ok r →
    VByte.decodeGo (bs ++ x) i s v = .ok r := by
  induction bs with
  | nil => intro i s v r h; cases h
  | cons b bs ih =>
    intro i s v r h
    rw [List.cons_append]
    unfold VByte.decodeGo at h ⊢
    split at h
    · cases h
    next h1 =>
      rw [if_neg h1]
      split at h
      next h2 => rw [if_pos h2]; exact ih h
      next h2 => rw [if_neg h2]; exact h

theorem VByte.decode_append {mem : List UInt8} (x : List UInt8) {off : Nat} {r : Nat × Nat} (h : VByte.decode (mem.drop off) = .ok r) :
    VByte.decode ((mem ++ x).drop off) = .ok r := by
  rw [List.drop_append]
  exact VByte.decodeGo_append _ _ h

theorem skipEntries_append {mem : List UInt8} (x : List UInt8) (n : Nat) : ∀ {off r : Nat}, skipEntries mem n off = .ok r →
    skipEntries (mem ++ x) n off = .ok r := by
  induction n with
  | zero => intro off r h; exact h
  | succ n ih =>
    intro off r h
    simp only [skipEntries] at h ⊢
    obtain ⟨⟨d, a⟩, h1, h2⟩ := R.bind_eq_ok h
    rw [VByte.decode_append x h1]
    exact ih h2

theorem keyAt_append {mem : List UInt8} (x : List UInt8) {i : Nat} {b : UInt8} (h : keyAt mem i = .ok b) : keyAt (mem ++ x) i = .ok b := by
  unfold keyAt at h ⊢
  cases hm : mem[i]? with
  | none => rw [hm] at h; cases h
  | some y =>
    rw [hm] at h
    rw [List.getElem?_append_left (List.getElem?_eq_some_iff.1 hm).1, hm]
    exact h

theorem cmpCompact_append {mem : List UInt8} (x : List UInt8) {off : Nat} {key : List UInt8} (n : Nat) : ∀ {i : Nat} {r : Option Nat},
    cmpCompact mem off key n i = .ok r → cmpCompact (mem ++ x) off key n i = .ok r := by
  induction n with
  | zero => intro i r h; exact h
  | succ n ih =>
    intro i r h
    simp only [cmpCompact] at h ⊢
    obtain ⟨a, h1, h⟩ := R.bind_eq_ok h
    obtain ⟨b, h2, h⟩ := R.bind_eq_ok h
    rw [h1, keyAt_append x h2]
    simp only [R.bind_ok]
    split at h
    next h3 => rw [if_pos h3]; exact h
    next h3 => rw [if_neg h3]; exact ih h

theorem compareMem_append {chk : Bool} {vs : Nat} {mem : List UInt8} (x : List UInt8) {idx : Nat} {key : List UInt8} {r : Option Nat × Nat}
    (h : compareMem chk vs mem idx key = .ok r) : compareMem chk vs (mem ++ x) idx key = .ok r := by
  unfold compareMem at h ⊢
  obtain ⟨off, h1, h⟩ := R.bind_eq_ok h
  obtain ⟨⟨d, a⟩, h2, h⟩ := R.bind_eq_ok h
  rw [skipEntries_append x _ h1]
  simp only [R.bind_ok]
  rw [VByte.decode_append x h2]
  simp only [R.bind_ok] at h ⊢
  split at h
  next h3 => rw [if_pos h3]; exact h
  next h3 =>
    rw [if_neg h3]
    obtain ⟨u, h4, h⟩ := R.bind_eq_ok h
    rw [h4]
    simp only [R.bind_ok] at h ⊢
    obtain ⟨o, h5, h⟩ := R.bind_eq_ok h
    rw [cmpCompact_append x _ h5]
    exact h

namespace CompactFkNlm
variable {W vs : Nat}

/-- what is added after the last entry, and the counters, do not matter -/
theorem cmp_more {n : CompactFkNlm} {i : Nat} {l v : List UInt8} (h : Cmp (ops W vs) n i l v) {b : List UInt8} {s lb mx sm : Nat} (hs : i < s)
    (hb : n.chunkPtrs.size ≤ i / W → ∃ x, b = n.chunkBuf ++ x) :
    Cmp (ops W vs) { n with chunkBuf := b, size := s, labelBytes := lb, maxLength := mx, sumLength := sm } i l v := by
  have key : ∀ key r mt, compare W vs n i key = .ok (r, mt) →
      compare W vs { n with chunkBuf := b, size := s, labelBytes := lb, maxLength := mx, sumLength := sm } i key = .ok (r, mt) ∧
      ∀ p w, r = some p → load vs n p = .ok w → load vs { n with chunkBuf := b, size := s, labelBytes := lb, maxLength := mx, sumLength := sm } p = .ok w := by
    intro key r mt hc
    unfold compare at hc ⊢
    obtain ⟨u, _, hc⟩ := R.bind_eq_ok hc
    rw [R.assert_dec hs]
    simp only [R.bind_ok] at hc ⊢
    split at hc
    next hlt =>
      rw [if_pos hlt]
      refine ⟨hc, ?_⟩
      intro p w hp hl
      obtain ⟨a, h1, hc⟩ := R.bind_eq_ok hc
      obtain ⟨mem, h2, hc⟩ := R.bind_eq_ok hc
      obtain ⟨⟨o, m⟩, h3, hc⟩ := R.bind_eq_ok hc
      injection hc with hc
      injection hc with hc _
      subst hc
      cases o with
      | none => cases hp
      | some o =>
        injection hp with hp
        subst hp
        exact hl
    next hlt =>
      rw [if_neg hlt]
      obtain ⟨u, h0, hc⟩ := R.bind_eq_ok hc
      obtain ⟨⟨o, m⟩, h3, hc⟩ := R.bind_eq_ok hc
      obtain ⟨x, hx⟩ := hb (by omega)
      rw [h0]
      simp only [R.bind_ok] at hc ⊢
      rw [hx, compareMem_append x h3]
      refine ⟨hc, ?_⟩
      intro p w hp hl
      injection hc with hc
      injection hc with hc _
      subst hc
      cases o with
      | none => cases hp
      | some o =>
        injection hp with hp
        subst hp
        simp only [load] at hl ⊢
        split at hl
        next hle =>
          rw [if_pos ⟨trivial, by have := hle.2; simp only [List.length_append]; omega⟩, ← hl]
          rw [List.drop_append_of_le_length (by have := hle.2; omega), List.take_append_of_le_length (by have := hle.2; simp; omega)]
        · cases hl
  intro k hk
  obtain ⟨h1, h2⟩ := h k hk
  refine ⟨fun e => ?_, fun e => (key k _ _ (h2 e)).1⟩
  obtain ⟨p, p1, p2⟩ := h1 e
  obtain ⟨q1, q2⟩ := key k _ _ p1
  exact ⟨p, q1, q2 p v rfl p2⟩

theorem cmp_chunk {n : CompactFkNlm} {i : Nat} {l v : List UInt8} (h : Cmp (ops W vs) n i l v) : i / W ≤ n.chunkPtrs.size := by
  obtain ⟨p, p1, _⟩ := (h l (Or.inl rfl)).1 rfl
  change compare W vs n i l = _ at p1
  unfold compare at p1
  obtain ⟨u, _, hc⟩ := R.bind_eq_ok p1
  dsimp only at hc
  split at hc
  next h => exact Nat.le_of_lt h
  next h =>
    obtain ⟨u, h0, _⟩ := R.bind_eq_ok hc
    rw [R.assert] at h0
    split at h0
    next h => simp only [decide_eq_true_eq] at h; exact Nat.le_of_eq h
    · cases h0

theorem releaseCrash_ok {hW : 0 < W} {hv : 0 < vs} {hv2 : vs + 1 < 2 ^ 64} {c : Nat} {n : CompactFkNlm} (h : (spec W vs hW hv hv2).Inv c n)
    {nf : CompactFkNlm} (hf : nf ∈ releaseCrash W n) {i : Nat} {e : Bool} {l v : List UInt8} (hL : (spec W vs hW hv hv2).L n i e = some (l, v)) :
    Cmp (ops W vs) nf i l v := by
  unfold releaseCrash at hf
  split at hf
  swap
  · cases hf
  simp only [List.mem_singleton] at hf
  subst hf
  have hi := (spec W vs hW hv hv2).bound_fk rfl c n h i e (by rw [hL]; simp)
  have hi : i < n.size := hi
  exact cmp_more (b := n.chunkBuf) ((spec W vs hW hv hv2).cmp h hL) (by omega) (fun _ => ⟨[], by simp⟩)

theorem bufCrash_ok {hW : 0 < W} {hv : 0 < vs} {hv2 : vs + 1 < 2 ^ 64} {c : Nat} {n : CompactFkNlm} (h : (spec W vs hW hv hv2).Inv c n)
    {len : Nat} {bytes : List UInt8} {nf : CompactFkNlm} (hf : nf ∈ bufCrash W n len bytes) {i : Nat} {e : Bool} {l v : List UInt8}
    (hL : (spec W vs hW hv hv2).L n i e = some (l, v)) : Cmp (ops W vs) nf i l v := by
  unfold bufCrash at hf
  split at hf
  swap
  · cases hf
  next n1 hn1 =>
  obtain ⟨j, _, rfl⟩ := List.mem_map.1 hf
  have hi : i < n.size := (spec W vs hW hv hv2).bound_fk rfl c n h i e (by rw [hL]; simp)
  have hcmp := (spec W vs hW hv hv2).cmp h hL
  have hch := cmp_chunk hcmp
  obtain ⟨n2, d1, d2, d3, _, d4⟩ := (spec W vs hW hv hv2).appendDummy rfl c n h
  have hcmp2 := (spec W vs hW hv hv2).cmp d2 (by rw [d4]; exact hL)
  change appendDummy W n = _ at d1
  unfold appendDummy at d1
  rw [hn1] at d1
  injection d1 with d1
  subst d1
  unfold nextSlot at hn1
  dsimp only at hn1
  split at hn1
  · unfold releaseBuf at hn1
    dsimp only at hn1
    obtain ⟨hp, _, hn1⟩ := R.bind_eq_ok hn1
    injection hn1 with hn1
    subst hn1
    refine cmp_more (s := n.size + 1) hcmp2 (by omega) (fun hle => ?_)
    simp only [Array.size_push] at hle
    omega
  · injection hn1 with hn1
    subst hn1
    exact cmp_more (s := n.size + 1) hcmp (by omega) (fun _ => ⟨bytes.take j, rfl⟩)

theorem crashSpec (hW : 0 < W) (hv : 0 < vs) (hv2 : vs + 1 < 2 ^ 64) : CrashSpec (spec W vs hW hv hv2) (crash W vs) True := by
  refine ⟨?_, ?_⟩
  · intro _ c n h nf hf i e l v hL
    rcases List.mem_append.1 hf with hf | hf
    · exact releaseCrash_ok h hf hL
    · exact bufCrash_ok h hf hL
  · intro _ c n h j key _ _ _ _ nf hf i e l v hL
    rcases List.mem_append.1 hf with hf | hf
    · exact releaseCrash_ok h hf hL
    · exact bufCrash_ok h hf hL

end CompactFkNlm

theorem PlainFkNlm.crashSpec (vs : Nat) : CrashSpec (PlainFkNlm.spec vs) PlainFkNlm.crash True := by
  refine ⟨?_, ?_⟩
  · intro _ c n h nf hf i e l v hL
    rw [List.mem_singleton.1 hf]
    exact (PlainFkNlm.spec vs).cmp h hL
  · intro _ c n h j key _ _ _ _ nf hf i e l v hL
    rw [List.mem_singleton.1 hf]
    exact (PlainFkNlm.spec vs).cmp h hL

theorem PlainBonsaiNlm.crashSpec (vs : Nat) : CrashSpec (PlainBonsaiNlm.specB vs) PlainBonsaiNlm.crash True := by
  refine ⟨fun hk => (by cases hk), ?_⟩
  intro _ c n h j key _ _ _ _ nf hf i e l v hL
  rw [List.mem_singleton.1 hf]
  exact (PlainBonsaiNlm.specB vs).cmp h hL

theorem CompactBonsaiNlm.crashSpec (W vs : Nat) (hw : W = 8 ∨ W = 16 ∨ W = 32 ∨ W = 64) (hv2 : vs + 1 < 2 ^ 64) :
    CrashSpec (CompactBonsaiNlm.specB W vs hw hv2) (CompactBonsaiNlm.crash W vs) False :=
  ⟨fun hk => (by cases hk), fun hs => hs.elim⟩

theorem CrashSpec.imp {ν : Type} {ops : NlmOps ν} {kind : Kind} {vs : Nat} {NS : NlmSpec ops kind vs} {C : CrashOps ν} {p q : Prop}
    (h : CrashSpec NS C p) (hq : q → p) : CrashSpec NS C q := ⟨h.dummy, fun hs => h.label (hq hs)⟩

/-- the label stores of which a failed `insert` or `append` spares the other labels -/
def Alias.labelSafe (a : Alias) : Prop := a ≠ .semiCompactBonsai ∧ a ≠ .compactBonsai

theorem Alias.crashSpec (a : Alias) (p : Params) (hp : p.Valid) : CrashSpec (a.nlmSpec p hp) (a.crash p).toCrashOps a.labelSafe := by
  cases a
  · exact (PlainBonsaiNlm.crashSpec _).imp (fun _ => trivial)
  · exact (CompactBonsaiNlm.crashSpec _ _ hp.chunk hp.val64).imp (fun h => h.1 rfl)
  · exact (CompactBonsaiNlm.crashSpec _ _ hp.chunk hp.val64).imp (fun h => h.2 rfl)
  · exact (PlainFkNlm.crashSpec _).imp (fun _ => trivial)
  · exact (CompactFkNlm.crashSpec (by have := hp.chunk; omega) hp.val hp.val64).imp (fun _ => trivial)
  · exact (CompactFkNlm.crashSpec (by have := hp.chunk; omega) hp.val hp.val64).imp (fun _ => trivial)

end Poplar
