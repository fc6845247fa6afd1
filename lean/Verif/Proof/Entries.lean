import Verif.Model.CompactNlm
import Verif.Proof.Heap
import Verif.Proof.NlmSpec
import Verif.Proof.PlainNlm
/-
  The byte layout of the compact node label maps: a block is a sequence of entries, an entry is a
  vbyte-coded length followed by a payload (label without terminator, then value).
-/
namespace Poplar
open Spec

abbrev vb (n : Nat) : List UInt8 := VByte.bytesGo VByte.fuel n

/-- an entry -/
def ent (p : List UInt8) : List UInt8 := vb p.length ++ p

/-- a block -/
def enc (ps : List (List UInt8)) : List UInt8 := ps.flatMap ent

theorem enc_nil : enc [] = [] := rfl
theorem enc_cons (p : List UInt8) (ps : List (List UInt8)) : enc (p :: ps) = ent p ++ enc ps := rfl
theorem enc_append (ps qs : List (List UInt8)) : enc (ps ++ qs) = enc ps ++ enc qs := by simp [enc]

theorem enc_split (ps : List (List UInt8)) (i : Nat) : enc ps = enc (ps.take i) ++ enc (ps.drop i) := by
  rw [← enc_append, List.take_append_drop]

/-- offset of the payload of entry `i` -/
def poff (ps : List (List UInt8)) (i : Nat) (p : List UInt8) : Nat := (enc (ps.take i)).length + (vb p.length).length

def Small (ps : List (List UInt8)) : Prop := ∀ p ∈ ps, p.length < 2 ^ 64

theorem decode_enc {pre : List UInt8} {p : List UInt8} (hp : p.length < 2 ^ 64) {rest : List UInt8} :
    VByte.decode ((pre ++ (ent p ++ rest)).drop pre.length) = .ok ((vb p.length).length, p.length) := by
  rw [List.drop_left, ent, List.append_assoc]
  exact VByte.decode_bytes _ hp _

theorem skip_ok : ∀ (n : Nat) (pre : List UInt8) (ps : List (List UInt8)), Small ps → n ≤ ps.length →
    skipEntries (pre ++ enc ps) n pre.length = .ok (pre.length + (enc (ps.take n)).length) := by
  intro n
  induction n with
  | zero => intro pre ps _ _; simp [skipEntries, enc]
  | succ n ih =>
    intro pre ps hs hn
    cases ps with
    | nil => simp at hn
    | cons p ps =>
      simp only [skipEntries]
      rw [enc_cons, decode_enc (hs p (by simp))]
      simp only [R.bind_ok]
      have h1 : pre ++ (ent p ++ enc ps) = (pre ++ ent p) ++ enc ps := by simp
      have h2 : pre.length + (vb p.length).length + p.length = (pre ++ ent p).length := by simp [ent]; omega
      rw [h1, h2, ih (pre ++ ent p) ps (fun q hq => hs q (by simp [hq])) (by simpa using hn)]
      simp [enc_cons]; omega

theorem skip_enc {ps : List (List UInt8)} (hs : Small ps) {n : Nat} (hn : n ≤ ps.length) :
    skipEntries (enc ps) n 0 = .ok (enc (ps.take n)).length := by
  have := skip_ok n [] ps hs hn
  simpa using this

theorem decode_at {ps : List (List UInt8)} (hs : Small ps) {i : Nat} {p : List UInt8} (hi : ps[i]? = some p) :
    VByte.decode ((enc ps).drop (enc (ps.take i)).length) = .ok ((vb p.length).length, p.length) := by
  obtain ⟨hlt, hp⟩ := List.getElem?_eq_some_iff.1 hi
  have h1 : enc ps = enc (ps.take i) ++ (ent p ++ enc (ps.drop (i + 1))) := by
    rw [← enc_cons, ← hp, List.getElem_cons_drop, ← enc_append, List.take_append_drop]
  rw [h1]
  exact decode_enc (hs p (List.mem_of_getElem? hi))

/-- decoding an entry: offset and contents of the payload -/
def payAt (mem : List UInt8) (i : Nat) : Option (Nat × List UInt8) :=
  match skipEntries mem i 0 with
  | .error _ => none
  | .ok off =>
    match VByte.decode (mem.drop off) with
    | .error _ => none
    | .ok (d, n) => some (off + d, (mem.drop (off + d)).take n)

theorem payAt_some {ps : List (List UInt8)} (hs : Small ps) {i : Nat} {p : List UInt8} (hi : ps[i]? = some p) :
    payAt (enc ps) i = some (poff ps i p, p) := by
  obtain ⟨hlt, hp⟩ := List.getElem?_eq_some_iff.1 hi
  unfold payAt
  rw [skip_enc hs (by omega)]
  simp only [decode_at hs hi]
  have h1 : enc ps = (enc (ps.take i) ++ vb p.length) ++ (p ++ enc (ps.drop (i + 1))) := by
    have : enc ps = enc (ps.take i) ++ (ent p ++ enc (ps.drop (i + 1))) := by
      rw [← enc_cons, ← hp, List.getElem_cons_drop, ← enc_append, List.take_append_drop]
    rw [this, ent]; simp
  have h2 : (enc (ps.take i)).length + (vb p.length).length = (enc (ps.take i) ++ vb p.length).length := by simp
  rw [poff, h2, h1]
  simp only [List.drop_left, List.take_left]

/-- label and value in a payload -/
def payL (vs : Nat) (p : List UInt8) (e : Bool) : Option (List UInt8 × List UInt8) :=
  if vs ≤ p.length then
    if e then (if p.length = vs then some ([], p) else none)
    else some (p.take (p.length - vs) ++ [0], p.drop (p.length - vs))
  else none

theorem payL_flag {vs : Nat} {p : List UInt8} {e : Bool} (h : payL vs p e ≠ none) : payL vs p false ≠ none := by
  unfold payL at h ⊢
  split
  · simp
  next h1 => rw [if_neg h1] at h; exact h

/-- payload of a label with its value -/
def mkPay (key v : List UInt8) : List UInt8 := key.dropLast ++ v

/-- a payload that holds a label -/
structure PayOk (vs : Nat) (p : List UInt8) : Prop where
  len : vs ≤ p.length
  small : p.length + 1 < 2 ^ 64

theorem payL_lab {vs : Nat} {p : List UInt8} (hp : PayOk vs p) {e : Bool} {l v : List UInt8} (h : payL vs p e = some (l, v)) :
    OkLabel vs l ∧ v.length = vs := by
  unfold payL at h
  rw [if_pos hp.len] at h
  have hl := hp.len
  have hs := hp.small
  cases e with
  | true =>
    simp only [if_true] at h
    split at h
    next h1 => cases h; exact ⟨⟨Or.inl rfl, by simp; omega⟩, h1⟩
    next => cases h
  | false =>
    simp only [Bool.false_eq_true, if_false, Option.some.injEq, Prod.mk.injEq] at h
    obtain ⟨rfl, rfl⟩ := h
    refine ⟨⟨Or.inr ⟨_, rfl⟩, ?_⟩, by simp; omega⟩
    simp; omega

theorem mkPay_ok {vs : Nat} {key v : List UInt8} (hk : OkLabel vs key) (hv : v.length = vs) (hvs : vs + 1 < 2 ^ 64) : PayOk vs (mkPay key v) ∧
    payL vs (mkPay key v) key.isEmpty = some (key, v) := by
  rcases hk.1 with rfl | ⟨s, rfl⟩
  · refine ⟨⟨by simp [mkPay, hv], by simp [mkPay, hv]; omega⟩, ?_⟩
    simp [payL, mkPay, hv]
  · have h1 : (mkPay (s ++ [0]) v) = s ++ v := by simp [mkPay]
    rw [h1]
    have h2 := hk.2
    simp at h2
    refine ⟨⟨by simp [hv], by simp [hv]; omega⟩, ?_⟩
    · have : (s ++ v).length - vs = s.length := by simp [hv]
      unfold payL
      rw [if_pos (by simp [hv]), this]
      simp

/-! ### the comparison loop -/

theorem cmpCompact_ok {mem key : List UInt8} {off : Nat} : ∀ (n i : Nat) (b : List UInt8), b.length = n →
    (∀ j (h : j < b.length), mem[off + i + j]? = some b[j]) → ¬ key.drop i <+: b →
    cmpCompact mem off key n i = .ok (if lcp (key.drop i) b = n then none else some (i + lcp (key.drop i) b)) := by
  intro n
  induction n with
  | zero =>
    intro i b hb _ _
    have : b = [] := List.length_eq_zero_iff.1 hb
    subst this
    cases key.drop i <;> simp [cmpCompact, lcp]
  | succ n ih =>
    intro i b hb hm hc
    cases b with
    | nil => simp at hb
    | cons x b =>
      have hi : i < key.length := by
        by_contra h
        rw [List.drop_eq_nil_of_le (by omega)] at hc
        exact hc List.nil_prefix
      rw [List.drop_eq_getElem_cons hi] at hc ⊢
      have h1 : keyAt key i = .ok key[i] := by simp [keyAt, List.getElem?_eq_getElem hi]
      have h2 : keyAt mem (off + i) = .ok x := by
        have := hm 0 (by simp)
        simp only [Nat.add_zero, List.getElem_cons_zero] at this
        simp [keyAt, this]
      simp only [cmpCompact, h1, h2, R.bind_ok]
      by_cases he : key[i] = x
      · have hl : lcp (key[i] :: key.drop (i + 1)) (x :: b) = lcp (key.drop (i + 1)) b + 1 := by simp [lcp, he]
        rw [if_neg (by simpa using he), hl]
        have hc' : ¬ key.drop (i + 1) <+: b := fun h => hc (by rw [he]; exact List.cons_prefix_cons.2 ⟨rfl, h⟩)
        rw [ih (i + 1) b (by simpa using hb) (fun j hj => by
          have := hm (j + 1) (by simp; omega)
          simp only [List.getElem_cons_succ] at this
          rw [← this]; congr 1; omega) hc']
        by_cases h3 : lcp (key.drop (i + 1)) b = n
        · rw [if_pos h3, if_pos (by omega)]
        · rw [if_neg h3, if_neg (by omega)]; congr 2; omega
      · have hl : lcp (key[i] :: key.drop (i + 1)) (x :: b) = 0 := by simp [lcp, he]
        rw [if_pos (by simpa using he), hl, if_neg (by omega)]; rfl

theorem lcp_body {key s : List UInt8} (hc : Sep key (s ++ [0])) :
    ¬ key <+: s ∧
    ∃ h : lcp key s < key.length, (lcp key s = s.length → (key[lcp key s] = 0 ↔ key = s ++ [0]) ∧
      (key[lcp key s] ≠ 0 → lcp key (s ++ [0]) = s.length)) ∧
      (lcp key s ≠ s.length → lcp key (s ++ [0]) = lcp key s ∧ key ≠ s ++ [0]) := by
  induction s generalizing key with
  | nil =>
    cases key with
    | nil => exact absurd (hc.nil_iff.1 rfl) (by simp)
    | cons x key =>
      refine ⟨by simp, by simp [lcp], ?_, fun h => by simp [lcp] at h⟩
      intro _
      refine ⟨⟨fun h => ?_, fun h => by injection h⟩, fun h => ?_⟩
      · simp only [lcp, List.getElem_cons_zero] at h
        subst h
        rw [hc.tail.nil_iff.2 rfl]; rfl
      · simp only [lcp, List.getElem_cons_zero] at h
        simp [lcp, h]
  | cons y s ih =>
    cases key with
    | nil => exact absurd (hc.nil_iff.1 rfl) (by simp)
    | cons x key =>
      by_cases e : x = y
      · subst e
        obtain ⟨h0, h1, h2, h3⟩ := ih (key := key) hc.tail
        simp only [List.cons_append, lcp, if_true, List.length_cons, Nat.add_right_cancel_iff, List.getElem_cons_succ, ne_eq,
          List.cons.injEq, true_and]
        exact ⟨fun h => h0 (List.cons_prefix_cons.1 h).2, by omega, h2, h3⟩
      · refine ⟨fun h => e (List.cons_prefix_cons.1 h).1, ?_⟩
        simp [lcp, e]

/-- `compare` on a block -/
theorem compareMem_ok {chk : Bool} {vs : Nat} {ps : List (List UInt8)} (hs : Small ps) {i : Nat} {p : List UInt8} (hi : ps[i]? = some p)
    (hp : PayOk vs p) {e : Bool} {l v key : List UInt8} (hL : payL vs p e = some (l, v)) (he : Sep key l) :
    (key = l → compareMem chk vs (enc ps) i key = .ok (some (poff ps i p + (p.length - vs)), key.length)) ∧
    (key ≠ l → compareMem chk vs (enc ps) i key = .ok (none, lcp key l)) := by
  obtain ⟨hlt, hpe⟩ := List.getElem?_eq_some_iff.1 hi
  have hlen := hp.len
  have hsm := hp.small
  unfold compareMem
  rw [skip_enc hs (by omega)]
  simp only [R.bind_ok, decode_at hs hi]
  by_cases hkn : key = []
  · subst hkn
    have hl : l = [] := he.nil_iff.1 rfl
    subst hl
    have hpl : p.length = vs := by
      unfold payL at hL
      rw [if_pos hlen] at hL
      cases e with
      | true => simp only [if_true] at hL; split at hL; assumption; cases hL
      | false => simp at hL
    refine ⟨fun _ => ?_, fun h => absurd rfl h⟩
    simp [poff, hpl]
  · have hl : l = p.take (p.length - vs) ++ [0] := by
      unfold payL at hL
      rw [if_pos hlen] at hL
      cases e with
      | true =>
        simp only [if_true] at hL
        split at hL
        · cases hL; exact absurd (he.nil_iff.2 rfl) hkn
        · cases hL
      | false => simp only [Bool.false_eq_true, if_false, Option.some.injEq, Prod.mk.injEq] at hL; exact hL.1.symm
    have hemp : key.isEmpty = false := by cases key with | nil => exact absurd rfl hkn | cons => rfl
    have hchk : R.assert (!chk || decide (vs ≤ p.length)) = .ok () := by
      simp [R.assert, hlen]
    simp only [hemp, Bool.false_eq_true, if_false, hchk, R.bind_ok]
    have hsub : sub64 p.length vs = p.length - vs := by
      unfold sub64; omega
    rw [hsub]
    have hmem : ∀ j (h : j < (p.take (p.length - vs)).length), (enc ps)[(enc (ps.take i)).length + (vb p.length).length + 0 + j]? = some (p.take (p.length - vs))[j] := by
      intro j hj
      have h1 : enc ps = (enc (ps.take i) ++ vb p.length) ++ (p ++ enc (ps.drop (i + 1))) := by
        have : enc ps = enc (ps.take i) ++ (ent p ++ enc (ps.drop (i + 1))) := by
          rw [← enc_cons, ← hpe, List.getElem_cons_drop, ← enc_append, List.take_append_drop]
        rw [this, ent]; simp
      simp only [List.length_take] at hj
      rw [h1, List.getElem?_append_right (by simp)]
      simp only [List.length_append, Nat.add_zero, Nat.add_sub_cancel_left]
      rw [List.getElem?_append_left (by omega), List.getElem?_eq_getElem (by omega)]
      simp
    have hcmp := cmpCompact_ok (mem := enc ps) (key := key) (off := (enc (ps.take i)).length + (vb p.length).length) (p.length - vs) 0
      (p.take (p.length - vs)) (by simp) hmem (by simpa using (lcp_body (hl ▸ he)).1)
    rw [hcmp]
    simp only [List.drop_zero, Nat.zero_add]
    obtain ⟨_, b1, b2, b3⟩ := lcp_body (s := p.take (p.length - vs)) (key := key) (hl ▸ he)
    have hbl : (p.take (p.length - vs)).length = p.length - vs := by simp
    rw [hbl] at b2 b3
    rw [← hl] at b2 b3
    by_cases hfull : lcp key (p.take (p.length - vs)) = p.length - vs
    · obtain ⟨c1, c2⟩ := b2 hfull
      rw [if_pos hfull]
      have hka : keyAt key (p.length - vs) = .ok (key[lcp key (p.take (p.length - vs))]) := by
        unfold keyAt
        rw [List.getElem?_eq_getElem (by rw [← hfull]; exact b1)]
        simp only [hfull]
      simp only [R.bind_ok, hka]
      constructor
      · intro e1
        rw [if_neg (by simpa using c1.2 e1)]
        simp only [R.pure_eq, poff]
        congr 2
        rw [e1, hl]; simp
      · intro e1
        have hne : key[lcp key (p.take (p.length - vs))] ≠ 0 := fun h => e1 (c1.1 h)
        rw [if_pos hne, c2 hne]; rfl
    · obtain ⟨c1, c2⟩ := b3 hfull
      rw [if_neg hfull]
      refine ⟨fun h => absurd h c2, fun _ => ?_⟩
      rw [c1]; rfl

/-! ### writing a value -/

theorem patch_enc {vs : Nat} {ps : List (List UInt8)} {i : Nat} {p : List UInt8} (hi : ps[i]? = some p) (hp : vs ≤ p.length)
    {w : List UInt8} (hw : w.length = vs) :
    poff ps i p + (p.length - vs) + vs ≤ (enc ps).length ∧
    ((enc ps).drop (poff ps i p + (p.length - vs))).take vs = p.drop (p.length - vs) ∧
    patch (enc ps) (poff ps i p + (p.length - vs)) w = enc (ps.set i (p.take (p.length - vs) ++ w)) := by
  obtain ⟨hlt, hpe⟩ := List.getElem?_eq_some_iff.1 hi
  have h1 : enc ps = (enc (ps.take i) ++ vb p.length ++ p.take (p.length - vs)) ++ p.drop (p.length - vs) ++ enc (ps.drop (i + 1)) := by
    have : enc ps = enc (ps.take i) ++ (ent p ++ enc (ps.drop (i + 1))) := by
      rw [← enc_cons, ← hpe, List.getElem_cons_drop, ← enc_append, List.take_append_drop]
    rw [this, ent]
    conv_lhs => rw [show p = p.take (p.length - vs) ++ p.drop (p.length - vs) from (List.take_append_drop _ _).symm]
    simp
  have hl : (enc (ps.take i) ++ vb p.length ++ p.take (p.length - vs)).length = poff ps i p + (p.length - vs) := by
    simp [poff]; omega
  have hd : (p.drop (p.length - vs)).length = vs := by simp; omega
  refine ⟨?_, ?_, ?_⟩
  · rw [h1, List.length_append, List.length_append, hl, hd]; omega
  · rw [h1, List.append_assoc, ← hl, List.drop_left]
    exact List.take_left' hd
  · conv_lhs => rw [h1]
    rw [patch_app hl (by rw [hd, hw])]
    have h2 : ps.set i (p.take (p.length - vs) ++ w) = ps.take i ++ (p.take (p.length - vs) ++ w) :: ps.drop (i + 1) := by
      rw [List.set_eq_take_append_cons_drop, if_pos hlt]
    rw [h2, enc_append, enc_cons, ent]
    have h3 : (p.take (p.length - vs) ++ w).length = p.length := by simp [hw]; omega
    rw [h3]
    simp

theorem poff_set {ps : List (List UInt8)} {i j : Nat} {p p' q q' : List UInt8} (hi : ps[i]? = some p) (hl : p'.length = p.length)
    (hq : q'.length = q.length) :
    poff (ps.set i p') j q' = poff ps j q := by
  have hlen : ∀ ps : List (List UInt8), ∀ i j, ps[i]? = some p → (enc ((ps.set i p').take j)).length = (enc (ps.take j)).length := by
    intro ps
    induction ps with
    | nil => intro i j h; simp at h
    | cons x ps ih =>
      intro i j h
      cases j with
      | zero => simp
      | succ j =>
        cases i with
        | zero =>
          simp only [List.getElem?_cons_zero, Option.some.injEq] at h
          subst h
          simp [enc_cons, ent, hl]
        | succ i =>
          simp only [List.getElem?_cons_succ] at h
          simp only [List.set_cons_succ, List.take_succ_cons, enc_cons, List.length_append, ih i j h]
  unfold poff
  rw [hlen ps i j hi, hq]

theorem payL_set {vs : Nat} {p w : List UInt8} (hp : vs ≤ p.length) (hw : w.length = vs) (e : Bool) :
    payL vs (p.take (p.length - vs) ++ w) e = (payL vs p e).map (fun x => (x.1, w)) := by
  have hl : (p.take (p.length - vs) ++ w).length = p.length := by simp [hw]; omega
  have hl2 : (p.take (p.length - vs)).length = p.length - vs := by simp
  unfold payL
  rw [if_pos hp, if_pos (by omega), hl]
  cases e with
  | true =>
    simp only [if_true]
    split
    next h => simp [h]
    next => rfl
  | false =>
    simp only [Bool.false_eq_true, if_false, Option.map_some]
    rw [List.take_left' hl2, List.drop_left' hl2]

theorem PayOk.set {vs : Nat} {p w : List UInt8} (hp : PayOk vs p) (hw : w.length = vs) : PayOk vs (p.take (p.length - vs) ++ w) := by
  have h1 := hp.len
  have hl : (p.take (p.length - vs) ++ w).length = p.length := by simp [hw]; omega
  exact ⟨by omega, by rw [hl]; exact hp.small⟩

/-- replace the contents of one chunk -/
def gset (g : Nat → List (List UInt8)) (c : Nat) (ps : List (List UInt8)) : Nat → List (List UInt8) :=
  fun x => if x = c then ps else g x

theorem gset_same (g : Nat → List (List UInt8)) (c : Nat) (ps : List (List UInt8)) : gset g c ps c = ps := by simp [gset]
theorem gset_ne (g : Nat → List (List UInt8)) {c x : Nat} (ps : List (List UInt8)) (h : x ≠ c) : gset g c ps x = g x := by
  simp [gset, h]

end Poplar
