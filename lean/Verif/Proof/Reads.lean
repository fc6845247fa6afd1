import Verif.Model.Threads
import Verif.Proof.Entries
/-
  Computations that read memory byte by byte: running them in one go gives the functions of the model, and where they read.
-/
namespace Poplar
open Spec

namespace Reads
variable {α β : Type}

theorem bind_def (r : Reads α) (f : α → Reads β) : (r >>= f) = r.bind f := rfl

theorem run_bind (mem : Loc → R UInt8) (r : Reads α) (f : α → Reads β) :
    (r >>= f).run mem = r.run mem >>= fun a => (f a).run mem := by
  rw [bind_def]
  induction r with
  | ret x => cases x <;> rfl
  | read l k ih =>
    simp only [Reads.bind, run]
    cases mem l with
    | error e => rfl
    | ok x => exact ih x

theorem run_ret (mem : Loc → R UInt8) (x : R α) : (Reads.ret x).run mem = x := rfl
theorem run_pure (mem : Loc → R UInt8) (x : α) : (pure x : Reads α).run mem = .ok x := rfl

/-- all bytes read on the way satisfy `P` -/
def Within (P : Loc → Prop) (mem : Loc → R UInt8) : Reads α → Prop
  | .ret _ => True
  | .read l k => P l ∧ ∀ x, mem l = .ok x → (k x).Within P mem

theorem within_ret (P : Loc → Prop) (mem : Loc → R UInt8) (x : R α) : (Reads.ret x).Within P mem := trivial
theorem within_pure (P : Loc → Prop) (mem : Loc → R UInt8) (x : α) : (pure x : Reads α).Within P mem := trivial

theorem within_bind {P : Loc → Prop} {mem : Loc → R UInt8} {r : Reads α} {f : α → Reads β} (h1 : r.Within P mem)
    (h2 : ∀ a, r.run mem = .ok a → (f a).Within P mem) : (r >>= f).Within P mem := by
  rw [bind_def]
  induction r with
  | ret x =>
    cases x with
    | error e => trivial
    | ok a => exact h2 a rfl
  | read l k ih =>
    refine ⟨h1.1, fun x hx => ih x (h1.2 x hx) (fun a ha => h2 a ?_)⟩
    simp only [run, hx]; exact ha

/-- reading elsewhere is irrelevant -/
theorem congr {P : Loc → Prop} {mem mem' : Loc → R UInt8} {r : Reads α} (h : r.Within P mem) (he : ∀ l, P l → mem' l = mem l) :
    r.Within P mem' ∧ r.run mem' = r.run mem := by
  induction r with
  | ret x => exact ⟨trivial, rfl⟩
  | read l k ih =>
    have hl := he l h.1
    refine ⟨⟨h.1, fun x hx => (ih x (h.2 x (by rw [← hl]; exact hx))).1⟩, ?_⟩
    simp only [run, hl]
    cases hm : mem l with
    | error e => rfl
    | ok x => exact (ih x (h.2 x hm)).2

/-- number of bytes read -/
def len (mem : Loc → R UInt8) : Reads α → Nat
  | .ret _ => 0
  | .read l k => match mem l with
    | .ok x => (k x).len mem + 1
    | .error _ => 0

theorem len_congr {P : Loc → Prop} {mem mem' : Loc → R UInt8} {r : Reads α} (h : r.Within P mem) (he : ∀ l, P l → mem' l = mem l) :
    r.len mem' = r.len mem := by
  induction r with
  | ret x => rfl
  | read l k ih =>
    have hl := he l h.1
    simp only [len, hl]
    cases hm : mem l with
    | error e => rfl
    | ok x => simp only [ih x (h.2 x hm)]

end Reads

/-- block `b` holds the bytes `bs` -/
def Holds (mem : Loc → R UInt8) (b : Blk) (bs : List UInt8) : Prop := ∀ off, mem ⟨b, off⟩ = keyAt bs off

theorem keyAt_drop (bs : List UInt8) (off : Nat) : keyAt bs off = match bs.drop off with | [] => .error .oob | x :: _ => .ok x := by
  unfold keyAt
  rw [← List.head?_drop]
  cases bs.drop off <;> rfl

section
variable {mem : Loc → R UInt8} {b : Blk} {bs : List UInt8}

theorem decodeGoR_run (hm : Holds mem b bs) : ∀ (fuel off i shift val : Nat), 0 < fuel → 71 ≤ shift + 7 * fuel →
    (VByte.decodeGoR b fuel off i shift val).run mem = VByte.decodeGo (bs.drop off) i shift val := by
  intro fuel
  induction fuel with
  | zero => intro off i shift val h; omega
  | succ fuel ih =>
    intro off i shift val _ h
    simp only [VByte.decodeGoR, Reads.run, hm off, keyAt_drop]
    cases hd : bs.drop off with
    | nil => rfl
    | cons x r =>
      have hr : bs.drop (off + 1) = r := by
        rw [← List.drop_drop, hd]; rfl
      simp only [R.bind_ok, VByte.decodeGo]
      split
      · rfl
      · split
        · rw [ih _ _ _ _ (by omega) (by omega), hr]
        · rfl

theorem decodeR_run (hm : Holds mem b bs) (off : Nat) : (VByte.decodeR b off).run mem = VByte.decode (bs.drop off) :=
  decodeGoR_run hm 11 off 0 0 0 (by decide) (by decide)

theorem decodeGoR_within (hm : Holds mem b bs) (P : Loc → Prop) : ∀ (fuel off i shift val i' w : Nat),
    VByte.decodeGo (bs.drop off) i shift val = .ok (i', w) → (∀ j, off ≤ j → j + i < off + i' → P ⟨b, j⟩) →
    i < i' ∧ (VByte.decodeGoR b fuel off i shift val).Within P mem := by
  intro fuel
  have key : ∀ (l : List UInt8) (i shift val i' w : Nat), VByte.decodeGo l i shift val = .ok (i', w) → i < i' := by
    intro l
    induction l with
    | nil => intro i shift val i' w h; cases h
    | cons x r ih =>
      intro i shift val i' w h
      simp only [VByte.decodeGo] at h
      split at h
      · cases h
      · split at h
        · have := ih _ _ _ _ _ h; omega
        · cases h; omega
  induction fuel with
  | zero => intro off i shift val i' w h _; exact ⟨key _ _ _ _ _ _ h, trivial⟩
  | succ fuel ih =>
    intro off i shift val i' w h hP
    have hlt := key _ _ _ _ _ _ h
    refine ⟨hlt, hP off (Nat.le_refl _) (by omega), fun x hx => ?_⟩
    rw [hm off, keyAt_drop] at hx
    cases hd : bs.drop off with
    | nil => rw [hd] at hx; cases hx
    | cons y r =>
      rw [hd] at hx
      cases hx
      have hr : bs.drop (off + 1) = r := by
        rw [← List.drop_drop, hd]; rfl
      rw [hd] at h
      simp only [VByte.decodeGo] at h
      dsimp only
      split
      · trivial
      · rename_i h1
        rw [if_neg h1] at h
        split
        · rename_i h2
          rw [if_pos h2] at h
          rw [← hr] at h
          exact (ih _ _ _ _ _ _ h (fun j j1 j2 => hP j (by omega) (by omega))).2
        · trivial

theorem decodeR_within (hm : Holds mem b bs) (P : Loc → Prop) {off d n : Nat} (h : VByte.decode (bs.drop off) = .ok (d, n))
    (hP : ∀ j, off ≤ j → j < off + d → P ⟨b, j⟩) : (VByte.decodeR b off).Within P mem :=
  (decodeGoR_within hm P 11 off 0 0 0 d n h (fun j j1 j2 => hP j j1 (by omega))).2

theorem skipEntriesR_run (hm : Holds mem b bs) : ∀ (n off : Nat), (skipEntriesR b n off).run mem = skipEntries bs n off := by
  intro n
  induction n with
  | zero => intro off; rfl
  | succ n ih =>
    intro off
    simp only [skipEntriesR, skipEntries, Reads.run_bind, decodeR_run hm]
    congr 1
    funext x
    exact ih _

theorem cmpCompactR_run (hm : Holds mem b bs) (off : Nat) (key : List UInt8) : ∀ (n i : Nat),
    (cmpCompactR b off key n i).run mem = cmpCompact bs off key n i := by
  intro n
  induction n with
  | zero => intro i; rfl
  | succ n ih =>
    intro i
    simp only [cmpCompactR, cmpCompact, Reads.run_bind, Reads.run, hm (off + i)]
    congr 1
    funext c
    congr 1
    funext x
    split
    · rfl
    · exact ih _

theorem compareMemR_run (hm : Holds mem b bs) (chk : Bool) (vs idx : Nat) (key : List UInt8) :
    (compareMemR chk vs b idx key).run mem = compareMem chk vs bs idx key := by
  simp only [compareMemR, compareMem, Reads.run_bind, skipEntriesR_run hm, decodeR_run hm]
  congr 1
  funext off
  congr 1
  funext x
  split
  · rfl
  · simp only [Reads.run_bind, Reads.run_ret, cmpCompactR_run hm]
    congr 1
    funext _
    congr 1
    funext r
    cases r with
    | some i => rfl
    | none =>
      simp only [Reads.run_bind, Reads.run_ret]
      congr 1
      funext c
      split <;> rfl

/-- if there is no such block, the first access fails -/
theorem compareMemR_none (hm : ∀ off, mem ⟨b, off⟩ = .error .oob) (chk : Bool) (vs idx : Nat) (key : List UInt8) :
    (compareMemR chk vs b idx key).run mem = .error .oob := by
  have hd : ∀ off, (VByte.decodeR b off).run mem = .error .oob := by
    intro off
    simp only [VByte.decodeR, VByte.decodeGoR, Reads.run, hm]; rfl
  have hk : ∀ n off, (skipEntriesR b n off).run mem = .error .oob ∨ (skipEntriesR b n off).run mem = .ok off := by
    intro n off
    cases n with
    | zero => exact Or.inr rfl
    | succ n => left; simp only [skipEntriesR, Reads.run_bind, hd]; rfl
  simp only [compareMemR, Reads.run_bind]
  rcases hk idx 0 with h | h
  · rw [h]; rfl
  · rw [h, R.bind_ok, hd]; rfl

/-- offset `off` of a block of entries is not in a value -/
def NotVal (vs : Nat) (ps : List (List UInt8)) (off : Nat) : Prop :=
  ∀ (j : Nat) q, ps[j]? = some q → vs ≤ q.length → off < poff ps j q + (q.length - vs) ∨ poff ps j q + q.length ≤ off

theorem enc_take_succ {ps : List (List UInt8)} {j : Nat} {p : List UInt8} (hj : ps[j]? = some p) :
    (enc (ps.take (j + 1))).length = poff ps j p + p.length := by
  obtain ⟨hlt, hp⟩ := List.getElem?_eq_some_iff.1 hj
  rw [List.take_succ_eq_append_getElem hlt, enc_append, hp, enc_cons, enc_nil]
  simp [ent, poff]; omega

theorem enc_take_mono (ps : List (List UInt8)) {i j : Nat} (h : i ≤ j) : (enc (ps.take i)).length ≤ (enc (ps.take j)).length := by
  have : ps.take j = ps.take i ++ (ps.take j).drop i := by
    conv_lhs => rw [← List.take_append_drop i (ps.take j), List.take_take, Nat.min_eq_left h]
  rw [this, enc_append]; simp

/-- the code of the length and the label of an entry are not in a value -/
theorem notVal {vs : Nat} {ps : List (List UInt8)} {j : Nat} {p : List UInt8} (hj : ps[j]? = some p) {off : Nat}
    (h1 : (enc (ps.take j)).length ≤ off) (h2 : off < poff ps j p + (p.length - vs)) : NotVal vs ps off := by
  intro j' q hq hv
  have e1 := enc_take_succ hj
  have e2 := enc_take_succ hq
  rcases Nat.lt_trichotomy j' j with h | rfl | h
  · right
    have := enc_take_mono ps (show j' + 1 ≤ j by omega)
    omega
  · rw [hj] at hq; cases hq
    exact Or.inl h2
  · left
    have := enc_take_mono ps (show j + 1 ≤ j' by omega)
    have h3 : (enc (ps.take j')).length ≤ poff ps j' q := by unfold poff; omega
    omega

variable {ps : List (List UInt8)} {vs : Nat} {P : Loc → Prop}

theorem skipEntriesR_within (hm : Holds mem b (enc ps)) (hs : Small ps) (hP : ∀ off, NotVal vs ps off → P ⟨b, off⟩) :
    ∀ (n j : Nat), j + n ≤ ps.length →
    (skipEntriesR b n (enc (ps.take j)).length).Within P mem := by
  intro n
  induction n with
  | zero => intro j _; trivial
  | succ n ih =>
    intro j hj
    have hjj : ps[j]? = some ps[j] := List.getElem?_eq_getElem (by omega)
    have hdec := decode_at hs hjj
    simp only [skipEntriesR]
    refine Reads.within_bind (decodeR_within hm P hdec fun k k1 k2 => hP k ?_) ?_
    · refine notVal hjj k1 ?_
      unfold poff; omega
    · intro x hx
      rw [decodeR_run hm, hdec] at hx
      cases hx
      have := ih (j + 1) (by omega)
      rw [enc_take_succ hjj] at this
      exact this

theorem cmpCompactR_within {off : Nat} {key : List UInt8} : ∀ (n i : Nat),
    (∀ j, off + i ≤ j → j < off + i + n → P ⟨b, j⟩) → (cmpCompactR b off key n i).Within P mem := by
  intro n
  induction n with
  | zero => intro i _; trivial
  | succ n ih =>
    intro i hP
    simp only [cmpCompactR]
    refine Reads.within_bind (Reads.within_ret _ _ _) fun c _ => ⟨hP _ (Nat.le_refl _) (by omega), fun x _ => ?_⟩
    dsimp only
    split
    · trivial
    · exact ih (i + 1) (fun j j1 j2 => hP j (by omega) (by omega))

theorem compareMemR_within (hm : Holds mem b (enc ps)) (hs : Small ps) (hP : ∀ off, NotVal vs ps off → P ⟨b, off⟩) (chk : Bool) {i : Nat} {p : List UInt8} (hi : ps[i]? = some p) (hv : vs ≤ p.length) (key : List UInt8) :
    (compareMemR chk vs b i key).Within P mem := by
  obtain ⟨hlt, _⟩ := List.getElem?_eq_some_iff.1 hi
  have hdec := decode_at hs hi
  have h64 := hs p (List.mem_of_getElem? hi)
  simp only [compareMemR]
  have h0 := skipEntriesR_within (vs := vs) hm hs hP i 0 (by omega)
  simp only [List.take_zero, enc_nil, List.length_nil] at h0
  refine Reads.within_bind h0 fun off hoff => ?_
  rw [skipEntriesR_run hm, skip_enc hs (by omega)] at hoff
  cases hoff
  refine Reads.within_bind (decodeR_within hm P hdec fun k k1 k2 => hP k (notVal hi k1 (by unfold poff; omega))) fun x hx => ?_
  rw [decodeR_run hm, hdec] at hx
  cases hx
  dsimp only
  split
  · trivial
  · refine Reads.within_bind (Reads.within_ret _ _ _) fun _ _ => ?_
    have hsub : sub64 p.length vs = p.length - vs := by unfold sub64; omega
    rw [hsub]
    refine Reads.within_bind (cmpCompactR_within _ 0 fun j j1 j2 => hP j (notVal hi (by omega) (by unfold poff; omega))) fun r hr => ?_
    cases r with
    | some i => trivial
    | none =>
      refine Reads.within_bind (Reads.within_ret _ _ _) fun c _ => ?_
      split <;> trivial

end

/-! ### the plain label stores -/

theorem Heap.byte_heap (h : Heap) (a off : Nat) : h.byte ⟨.heap a, off⟩ = h.read a off := rfl

theorem Heap.holds {h : Heap} {a : Nat} {bs : List UInt8} (hb : h.B a = some bs) : Holds h.byte (.heap a) bs := by
  intro off
  show h.read a off = keyAt bs off
  unfold Heap.read keyAt
  rw [Heap.block_ok hb]; rfl

theorem Heap.byte_none {h : Heap} {a : Nat} (hb : h.B a = none) (off : Nat) : h.byte ⟨.heap a, off⟩ = .error .oob := by
  show h.read a off = _
  unfold Heap.read
  rw [Heap.block_eq, hb]; rfl

theorem cmpPlainR_run (h : Heap) (a : Nat) : ∀ (ks : List UInt8) (i : Nat), (cmpPlainR a ks i).run h.byte = cmpPlain h a ks i := by
  intro ks
  induction ks with
  | nil => intro i; rfl
  | cons k ks ih =>
    intro i
    simp only [cmpPlainR, cmpPlain, Reads.run, Heap.byte_heap]
    congr 1
    funext x
    split
    · rfl
    · exact ih _

theorem plainCompareR_run (h : Heap) (ptrs : Array (Option Nat)) (pos : Nat) (key : List UInt8) :
    (plainCompareR ptrs pos key).run h.byte = (do
      R.assert (pos < ptrs.size)
      let p ← rd ptrs pos
      match p with
      | none => .error .assertion
      | some a =>
        if key.isEmpty then pure (some ⟨.heap a, 0⟩, 0)
        else
          match ← cmpPlain h a key 0 with
          | some i => pure (none, i)
          | none => pure (some ⟨.heap a, key.length⟩, key.length)) := by
  simp only [plainCompareR, Reads.run_bind, Reads.run_ret]
  congr 1
  funext _
  congr 1
  funext p
  cases p with
  | none => rfl
  | some a =>
    dsimp only
    split
    · rfl
    · simp only [Reads.run_bind, cmpPlainR_run]
      congr 1
      funext r
      cases r <;> rfl

theorem cmpPlainR_within {mem : Loc → R UInt8} {P : Loc → Prop} {a : Nat} {bs : List UInt8} (hm : Holds mem (.heap a) bs) :
    ∀ (ks : List UInt8) (i : Nat), (∀ j, i ≤ j → j < i + ks.length → j ≤ i + lcp ks (bs.drop i) → P ⟨.heap a, j⟩) →
    (cmpPlainR a ks i).Within P mem := by
  intro ks
  induction ks with
  | nil => intro i _; trivial
  | cons k ks ih =>
    intro i hP
    refine ⟨hP i (Nat.le_refl _) (by simp) (by omega), fun x hx => ?_⟩
    dsimp only
    split
    · trivial
    · rename_i hne
      have hkx : k = x := by simpa using hne
      rw [hm i, keyAt_drop] at hx
      cases hd : bs.drop i with
      | nil => rw [hd] at hx; cases hx
      | cons y r =>
        rw [hd] at hx
        cases hx
        have hr : bs.drop (i + 1) = r := by
          rw [← List.drop_drop, hd]; rfl
        refine ih (i + 1) fun j j1 j2 j3 => hP j (by omega) (by simp only [List.length_cons]; omega) ?_
        rw [hd, lcp, if_pos hkx]
        rw [hr] at j3
        omega

theorem plainCompareR_within {vs : Nat} {h : Heap} {ptrs : Array (Option Nat)} (hI : PtrsInv vs ptrs h) {i : Nat} {l v : List UInt8}
    (hL : pL vs ptrs h i = some (l, v)) {key : List UInt8} (he : Sep key l) (P : Loc → Prop)
    (hP : ∀ q, (∀ p j, pAt vs ptrs h p j → q.blk = p.blk → q.off < p.off ∨ p.off + vs ≤ q.off) → P q) :
    (plainCompareR ptrs i key).Within P h.byte := by
  obtain ⟨a, b, h1, h2, h3, h4⟩ := hI.isSome hL
  simp only [plainCompareR]
  refine Reads.within_bind (Reads.within_ret _ _ _) fun _ _ => Reads.within_bind (Reads.within_ret _ _ _) fun p hp => ?_
  rw [Reads.run_ret, rd_of_some h1] at hp
  cases hp
  dsimp only
  split
  · trivial
  · refine Reads.within_bind (cmpPlainR_within (Heap.holds h2) key 0 fun j _ j2 j3 => hP _ ?_) fun r _ => ?_
    · rintro p j' ⟨a', b', q1, q2, q3⟩ hblk
      subst q3
      simp only [Blk.heap.injEq] at hblk
      subst hblk
      rw [h2] at q2; cases q2
      left
      show j < b.length - vs
      have hlen : l.length = b.length - vs := by
        have := congrArg (fun x => x.1.length) h4
        simp only [pLab, List.length_take] at this
        omega
      rw [← hlen]
      rw [List.drop_zero, Nat.zero_add] at j3
      by_cases e : key = l
      · rw [← e]; omega
      · have l1 := he.lcp_lt e
        have l2 := he.symm.lcp_lt (Ne.symm e)
        rw [lcp_comm] at l2
        have hb : b = l ++ v := by
          have : b = (pLab vs b).1 ++ (pLab vs b).2 := by simp [pLab]
          rw [h4] at this; exact this
        rw [hb, lcp_append _ l1 l2] at j3
        omega
    · cases r <;> trivial

end Poplar
