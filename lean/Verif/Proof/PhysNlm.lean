import Verif.Proof.PhysHeap
import Verif.Model.PhysNlm
import Mathlib.Data.List.Forall2
/-
  The label stores on the flat memory simulate those on the abstract heap.
-/
namespace Poplar.Phys
open Poplar

/-- value pointers that point to the same byte of the same block (or of the tail buffer) -/
def LR (ρ : Nat → Nat → Prop) (l l' : Loc) : Prop :=
  l.off = l'.off ∧ match l.blk, l'.blk with
    | .heap a, .heap p => ρ a p
    | .buf g, .buf g' => g = g'
    | _, _ => False

/-- related value pointers; both may be null -/
def OR (ρ : Nat → Nat → Prop) : Option Loc → Option Loc → Prop
  | none, none => True
  | some l, some l' => LR ρ l l'
  | _, _ => False

theorem Le.refl (ρ : Nat → Nat → Prop) : Le ρ ρ := fun _ _ h => h
theorem Le.trans {ρ σ τ : Nat → Nat → Prop} (h : Le ρ σ) (k : Le σ τ) : Le ρ τ := fun _ _ r => k _ _ (h _ _ r)
theorem PR.le {ρ σ : Nat → Nat → Prop} (h : Le ρ σ) {a p : Option Nat} (r : PR ρ a p) : PR σ a p := by
  cases a <;> cases p <;> first | exact r | exact h _ _ r
theorem LR.le {ρ σ : Nat → Nat → Prop} (h : Le ρ σ) {l l' : Loc} (r : LR ρ l l') : LR σ l l' := by
  refine ⟨r.1, ?_⟩
  have := r.2
  cases l with | mk b o => cases l' with | mk b' o' => cases b <;> cases b' <;> first | exact this | exact h _ _ this

/-- the label store `L'` does what `L` does, for some placement of the blocks -/
structure NlmSim {ν ν' : Type} (L : NlmOps ν) (L' : NlmOps ν') where
  Rel : (Nat → Nat → Prop) → ν → ν' → Prop
  empty : Rel (fun _ _ => False) L.empty L'.empty
  make : ∀ b, RR (Rel (fun _ _ => False)) (L.make b) (L'.make b)
  size : ∀ {ρ m n}, Rel ρ m n → L'.size n = L.size m
  compare : ∀ {ρ m n}, Rel ρ m n → ∀ i k, RR (fun x y => OR ρ x.1 y.1 ∧ x.2 = y.2) (L.compare m i k) (L'.compare n i k)
  insert : ∀ {ρ m n}, Rel ρ m n → ∀ i k,
    RR (fun x y => ∃ ρ', Le ρ ρ' ∧ Rel ρ' x.1 y.1 ∧ LR ρ' x.2 y.2) (L.insert m i k) (L'.insert n i k)
  append : ∀ {ρ m n}, Rel ρ m n → ∀ k,
    RR (fun x y => ∃ ρ', Le ρ ρ' ∧ Rel ρ' x.1 y.1 ∧ LR ρ' x.2 y.2) (L.append m k) (L'.append n k)
  appendDummy : ∀ {ρ m n}, Rel ρ m n → RR (fun x y => ∃ ρ', Le ρ ρ' ∧ Rel ρ' x y) (L.appendDummy m) (L'.appendDummy n)
  expand : ∀ {ρ m n}, Rel ρ m n → ∀ nm, RR (fun x y => ∃ ρ', Le ρ ρ' ∧ Rel ρ' x y) (L.expand m nm) (L'.expand n nm)
  load : ∀ {ρ m n}, Rel ρ m n → ∀ {l l'}, LR ρ l l' → RR Eq (L.load m l) (L'.load n l')
  store : ∀ {ρ m n}, Rel ρ m n → ∀ {l l'}, LR ρ l l' → ∀ v, RR (Rel ρ) (L.store m l v) (L'.store n l' v)

/-- arrays of the same size with related elements -/
def AR {α : Type} (P : α → α → Prop) (a b : Array α) : Prop := a.size = b.size ∧ ∀ (i : Nat) x y, a[i]? = some x → b[i]? = some y → P x y

section
variable {α : Type} {P Q : α → α → Prop} {a b : Array α}

theorem AR.le (h : AR P a b) (k : ∀ x y, P x y → Q x y) : AR Q a b := ⟨h.1, fun i x y e f => k _ _ (h.2 i x y e f)⟩

theorem AR.rd (h : AR P a b) (i : Nat) : RR P (rd a i) (rd b i) := by
  unfold Poplar.rd
  cases e : a[i]? with
  | none => exact RR.oob _
  | some x =>
    have hi : i < a.size := by
      by_contra hc; rw [Array.getElem?_eq_none (by omega)] at e; cases e
    have hb : i < b.size := by rw [← h.1]; exact hi
    have : b[i]? = some b[i] := Array.getElem?_eq_getElem hb
    rw [this]
    exact RR.ok (h.2 i x _ e this)

theorem AR.wr (h : AR P a b) (i : Nat) {x y : α} (hxy : P x y) : RR (AR P) (wr a i x) (wr b i y) := by
  unfold Poplar.wr
  rw [← h.1]
  split
  next hi =>
    refine RR.ok ⟨by simp [h.1], ?_⟩
    intro j u v hu hv
    rw [Array.getElem?_setIfInBounds] at hu hv
    split at hu
    next e =>
      rw [if_pos e] at hv
      rw [if_pos (by rw [← h.1]; exact hi)] at hv
      cases hu; cases hv; exact hxy
    next e =>
      rw [if_neg e] at hv
      exact h.2 j u v hu hv
  next => exact RR.oob _

theorem AR.push (h : AR P a b) {x y : α} (hxy : P x y) : AR P (a.push x) (b.push y) := by
  refine ⟨by simp [h.1], ?_⟩
  intro j u v hu hv
  rw [Array.getElem?_push] at hu hv
  split at hu
  next e => rw [if_pos (by rw [← h.1]; exact e)] at hv; cases hu; cases hv; exact hxy
  next e => rw [if_neg (by rw [← h.1]; exact e)] at hv; exact h.2 j u v hu hv

theorem AR.replicate (n : Nat) {x : α} (hx : P x x) : AR P (Array.replicate n x) (Array.replicate n x) := by
  refine ⟨rfl, ?_⟩
  intro j u v hu hv
  rw [Array.getElem?_replicate] at hu hv
  split at hu
  next e => rw [if_pos e] at hv; cases hu; cases hv; exact hx
  next => cases hu

theorem AR.empty : AR P #[] #[] := ⟨rfl, fun i x y e => by simp at e⟩

theorem AR.forall₂ (h : AR P a b) : List.Forall₂ P a.toList b.toList := by
  rw [List.forall₂_iff_get]
  refine ⟨by simpa using h.1, fun i h1 h2 => ?_⟩
  exact h.2 i _ _ (by simp at h1; simp [h1]) (by simp at h2; simp [h2])

end

theorem freeAll {ρ : Nat → Nat → Prop} {as ps : List (Option Nat)} (hp : List.Forall₂ (PR ρ) as ps) :
    ∀ {h : Poplar.Heap} {f : Heap}, Sim ρ h f →
    RR (Sim ρ) (as.foldlM (fun h p => h.freeOpt p) h) (ps.foldlM (fun h p => h.freeOpt p) f) := by
  induction hp with
  | nil => intro h f s; exact RR.ok s
  | cons r _ ih =>
    intro h f s
    rw [List.foldlM_cons, List.foldlM_cons]
    exact (s.freeOpt r).bind fun _ _ _ s => ih s

/-! plain_bonsai_nlm.hpp, plain_fkhash_nlm.hpp -/

/-- the data members agree, up to the addresses -/
structure PbRel (ρ : Nat → Nat → Prop) (m : Poplar.PlainBonsaiNlm) (n : PlainBonsaiNlm) : Prop where
  ptrs : AR (PR ρ) m.ptrs n.ptrs
  heap : Sim ρ m.heap n.heap
  size : n.size = m.size
  lb : n.labelBytes = m.labelBytes
  ml : n.maxLength = m.maxLength
  sl : n.sumLength = m.sumLength

theorem assert_same {γ δ : Type} {Q : γ → δ → Prop} {b c : Bool} (e : b = c) {f : Unit → R γ} {g : Unit → R δ} (h : RR Q (f ()) (g ())) :
    RR Q (R.assert b >>= f) (R.assert c >>= g) := by
  subst e
  exact RR.same _ fun _ _ => h

theorem isNone_eq {ρ : Nat → Nat → Prop} {a p : Option Nat} (r : PR ρ a p) : a.isNone = p.isNone := by
  cases a <;> cases p <;> first | rfl | exact r.elim

theorem pb_expandLoop (nm : NodeMap) {ρ : Nat → Nat → Prop} : ∀ (c i : Nat) {old new : Array (Option Nat)} {old' new' : Array (Option Nat)}
    {h : Poplar.Heap} {f : Heap}, AR (PR ρ) old old' → AR (PR ρ) new new' → Sim ρ h f →
    RR (fun x y => AR (PR ρ) x.1 y.1 ∧ AR (PR ρ) x.2.1 y.2.1 ∧ Sim ρ x.2.2 y.2.2)
      (Poplar.PlainBonsaiNlm.expandLoop nm c i old new h) (PlainBonsaiNlm.expandLoop nm c i old' new' f) := by
  intro c
  induction c with
  | zero => intro i old new old' new' h f ho hn s; exact RR.ok ⟨ho, hn, s⟩
  | succ c ih =>
    intro i old new old' new' h f ho hn s
    refine RR.same _ fun j _ => ?_
    split
    · refine (ho.rd i).bind fun p q _ r => (hn.rd j).bind fun u v _ t => (s.freeOpt t).bind fun _ _ _ s => ?_
      exact (hn.wr j r).bind fun _ _ _ hn => (ho.wr i (x := none) (y := none) trivial).bind fun _ _ _ ho => ih _ ho hn s
    · exact ih _ ho hn s

def pbSim (E : Env) (vs : Nat) : NlmSim (Poplar.PlainBonsaiNlm.ops vs) (PlainBonsaiNlm.ops E vs) where
  Rel := PbRel
  empty := ⟨AR.empty, Sim.init E, rfl, rfl, rfl, rfl⟩
  make b := by
    show RR _ (Poplar.PlainBonsaiNlm.make b) (PlainBonsaiNlm.make E b)
    unfold Poplar.PlainBonsaiNlm.make PlainBonsaiNlm.make
    split
    · exact RR.ok ⟨AR.replicate _ trivial, Sim.init E, rfl, rfl, rfl, rfl⟩
    · exact RR.err _
  size r := r.size
  compare r i k := by
    refine assert_same (by rw [r.ptrs.1]) ?_
    refine (r.ptrs.rd i).bind fun a p _ t => ?_
    cases a <;> cases p
    · exact RR.err _
    · exact t.elim
    · exact t.elim
    · dsimp only
      split
      · exact RR.ok ⟨⟨rfl, t⟩, rfl⟩
      · refine (r.heap.cmpPlain t k 0).bind fun x y _ e => ?_
        subst e
        cases x with
        | none => exact RR.ok ⟨⟨rfl, t⟩, rfl⟩
        | some j => exact RR.ok ⟨trivial, rfl⟩
  insert {ρ m n} r i k := by
    refine (r.ptrs.rd i).bind fun a p _ t => assert_same (isNone_eq t) ?_
    dsimp only
    obtain ⟨ρ', le, s, t⟩ := r.heap.alloc (k.length + vs)
    refine ((r.ptrs.le fun _ _ => PR.le le).wr i (x := some (m.heap.alloc (k.length + vs)).2) (y := some (n.heap.alloc (k.length + vs)).2) t).bind fun _ _ _ hp => ?_
    refine (Sim.copyIn k s t 0).bind fun _ _ _ s => (Sim.copyIn _ s t _).bind fun _ _ _ s => ?_
    exact RR.ok ⟨ρ', le, ⟨hp, s, by simp [r.size], by simp [r.lb], by simp [r.ml], by simp [r.sl]⟩, rfl, t⟩
  append _ _ := RR.err _
  appendDummy _ := RR.err _
  expand {ρ m n} r nm := by
    refine RR.bind (P := fun x y => AR (PR ρ) x.1 y.1 ∧ AR (PR ρ) x.2.1 y.2.1 ∧ Sim ρ x.2.2 y.2.2) ?_ ?_
    · rw [← r.ptrs.1]
      exact pb_expandLoop nm _ _ r.ptrs (AR.replicate _ trivial) r.heap
    · rintro ⟨o, w, h⟩ ⟨o', w', h'⟩ _ ⟨ho, hw, s⟩
      refine (freeAll ho.forall₂ s).bind fun _ _ _ s => ?_
      exact RR.ok ⟨ρ, Le.refl _, ⟨hw, s, r.size, r.lb, r.ml, r.sl⟩⟩
  load {ρ m n} r l l' t := by
    obtain ⟨b, o⟩ := l
    obtain ⟨b', o'⟩ := l'
    obtain ⟨e, t⟩ := t
    dsimp only at e; subst e
    cases b <;> cases b'
    · exact r.heap.load t _ _
    · exact t.elim
    · exact t.elim
    · exact RR.err _
  store {ρ m n} r l l' t v := by
    obtain ⟨b, o⟩ := l
    obtain ⟨b', o'⟩ := l'
    obtain ⟨e, t⟩ := t
    dsimp only at e; subst e
    cases b <;> cases b'
    · exact (Sim.copyIn v r.heap t _).bind fun _ _ _ s => RR.ok ⟨r.ptrs, s, r.size, r.lb, r.ml, r.sl⟩
    · exact t.elim
    · exact t.elim
    · exact RR.err _


/-- the data members agree, up to the addresses -/
structure PfRel (ρ : Nat → Nat → Prop) (m : Poplar.PlainFkNlm) (n : PlainFkNlm) : Prop where
  ptrs : AR (PR ρ) m.ptrs n.ptrs
  heap : Sim ρ m.heap n.heap
  lb : n.labelBytes = m.labelBytes
  ml : n.maxLength = m.maxLength
  sl : n.sumLength = m.sumLength

def pfSim (E : Env) (vs : Nat) : NlmSim (Poplar.PlainFkNlm.ops vs) (PlainFkNlm.ops E vs) where
  Rel := PfRel
  empty := ⟨AR.empty, Sim.init E, rfl, rfl, rfl⟩
  make b := by
    show RR _ (Poplar.PlainFkNlm.make b) (PlainFkNlm.make E b)
    unfold Poplar.PlainFkNlm.make PlainFkNlm.make
    split
    · exact RR.ok ⟨AR.empty, Sim.init E, rfl, rfl, rfl⟩
    · exact RR.err _
  size r := r.ptrs.1.symm
  compare r i k := by
    refine assert_same (by rw [r.ptrs.1]) ?_
    refine (r.ptrs.rd i).bind fun a p _ t => ?_
    cases a <;> cases p
    · exact RR.err _
    · exact t.elim
    · exact t.elim
    · dsimp only
      split
      · exact RR.ok ⟨⟨rfl, t⟩, rfl⟩
      · refine (r.heap.cmpPlain t k 0).bind fun x y _ e => ?_
        subst e
        cases x with
        | none => exact RR.ok ⟨⟨rfl, t⟩, rfl⟩
        | some j => exact RR.ok ⟨trivial, rfl⟩
  insert _ _ _ := RR.err _
  append {ρ m n} r k := by
    obtain ⟨ρ', le, s, t⟩ := r.heap.alloc (k.length + vs)
    have hp := (r.ptrs.le fun _ _ => PR.le le).push (x := some (m.heap.alloc (k.length + vs)).2) (y := some (n.heap.alloc (k.length + vs)).2) t
    refine (Sim.copyIn k s t 0).bind fun _ _ _ s => (Sim.copyIn _ s t _).bind fun _ _ _ s => ?_
    exact RR.ok ⟨ρ', le, ⟨hp, s, by simp [r.lb], by simp [r.ml], by simp [r.sl]⟩, rfl, t⟩
  appendDummy {ρ m n} r := RR.ok ⟨ρ, Le.refl _, ⟨r.ptrs.push (x := none) (y := none) trivial, r.heap, r.lb, r.ml, r.sl⟩⟩
  expand _ _ := RR.err _
  load {ρ m n} r l l' t := by
    obtain ⟨b, o⟩ := l
    obtain ⟨b', o'⟩ := l'
    obtain ⟨e, t⟩ := t
    dsimp only at e; subst e
    cases b <;> cases b'
    · exact r.heap.load t _ _
    · exact t.elim
    · exact t.elim
    · exact RR.err _
  store {ρ m n} r l l' t v := by
    obtain ⟨b, o⟩ := l
    obtain ⟨b', o'⟩ := l'
    obtain ⟨e, t⟩ := t
    dsimp only at e; subst e
    cases b <;> cases b'
    · exact (Sim.copyIn v r.heap t _).bind fun _ _ _ s => RR.ok ⟨r.ptrs, s, r.lb, r.ml, r.sl⟩
    · exact t.elim
    · exact t.elim
    · exact RR.err _

/-! compact_fkhash_nlm.hpp -/

/-- the data members agree, up to the addresses -/
structure CfRel (ρ : Nat → Nat → Prop) (m : Poplar.CompactFkNlm) (n : CompactFkNlm) : Prop where
  ptrs : AR ρ m.chunkPtrs n.chunkPtrs
  buf : n.chunkBuf = m.chunkBuf
  size : n.size = m.size
  heap : Sim ρ m.heap n.heap
  lb : n.labelBytes = m.labelBytes
  ml : n.maxLength = m.maxLength
  sl : n.sumLength = m.sumLength

theorem cf_nextSlot (W : Nat) {ρ : Nat → Nat → Prop} {m : Poplar.CompactFkNlm} {n : CompactFkNlm} (r : CfRel ρ m n) :
    RR (fun x y => ∃ ρ', Le ρ ρ' ∧ CfRel ρ' x y) (Poplar.CompactFkNlm.nextSlot W m) (CompactFkNlm.nextSlot W n) := by
  unfold Poplar.CompactFkNlm.nextSlot CompactFkNlm.nextSlot
  dsimp only
  rw [r.size]
  split
  · unfold Poplar.CompactFkNlm.releaseBuf CompactFkNlm.releaseBuf
    dsimp only
    rw [r.buf]
    obtain ⟨ρ', le, s, t⟩ := r.heap.alloc m.chunkBuf.length
    refine (Sim.copyIn m.chunkBuf s t 0).bind fun _ _ _ s => ?_
    exact RR.ok ⟨ρ', le, ⟨(r.ptrs.le le).push t, rfl, rfl, s, by simp [r.lb], r.ml, r.sl⟩⟩
  · exact RR.ok ⟨ρ, Le.refl _, ⟨r.ptrs, r.buf, rfl, r.heap, r.lb, r.ml, r.sl⟩⟩

theorem cf_load (vs : Nat) {ρ : Nat → Nat → Prop} {m : Poplar.CompactFkNlm} {n : CompactFkNlm} (r : CfRel ρ m n) (g o : Nat) :
    RR Eq (Poplar.CompactFkNlm.load vs m ⟨.buf g, o⟩) (CompactFkNlm.load vs n ⟨.buf g, o⟩) := by
  unfold Poplar.CompactFkNlm.load CompactFkNlm.load
  dsimp only
  rw [← r.ptrs.1, r.buf]
  exact RR.rfl' _

theorem cf_store {ρ : Nat → Nat → Prop} {m : Poplar.CompactFkNlm} {n : CompactFkNlm} (r : CfRel ρ m n) (g o : Nat) (v : List UInt8) :
    RR (CfRel ρ) (Poplar.CompactFkNlm.store m ⟨.buf g, o⟩ v) (CompactFkNlm.store n ⟨.buf g, o⟩ v) := by
  unfold Poplar.CompactFkNlm.store CompactFkNlm.store
  dsimp only
  rw [← r.ptrs.1, r.buf]
  split
  · exact RR.same _ fun b _ => RR.ok ⟨r.ptrs, rfl, r.size, r.heap, r.lb, r.ml, r.sl⟩
  · exact RR.err _

def cfSim (E : Env) (W vs : Nat) : NlmSim (Poplar.CompactFkNlm.ops W vs) (CompactFkNlm.ops E W vs) where
  Rel := CfRel
  empty := ⟨AR.empty, rfl, rfl, Sim.init E, rfl, rfl, rfl⟩
  make b := by
    show RR _ (Poplar.CompactFkNlm.make b) (CompactFkNlm.make E b)
    unfold Poplar.CompactFkNlm.make CompactFkNlm.make
    split
    · exact RR.ok ⟨AR.empty, rfl, rfl, Sim.init E, rfl, rfl, rfl⟩
    · exact RR.err _
  size r := r.size
  compare {ρ m n} r i k := by
    refine assert_same (by rw [r.size]) ?_
    dsimp only
    rw [← r.ptrs.1, r.buf]
    split
    · refine (r.ptrs.rd _).bind fun a p _ t => (r.heap.block t).bind fun x y _ e => ?_
      subst e
      refine RR.same _ fun z _ => ?_
      obtain ⟨z, w⟩ := z
      cases z with
      | none => exact RR.ok ⟨trivial, rfl⟩
      | some o => exact RR.ok ⟨⟨rfl, t⟩, rfl⟩
    · refine assert_same rfl (RR.same _ fun z _ => ?_)
      obtain ⟨z, w⟩ := z
      cases z with
      | none => exact RR.ok ⟨trivial, rfl⟩
      | some o => exact RR.ok ⟨⟨rfl, rfl⟩, rfl⟩
  insert _ _ _ := RR.err _
  append {ρ m n} r k := by
    refine (cf_nextSlot W r).bind fun x y _ h => ?_
    obtain ⟨ρ', le, r⟩ := h
    dsimp only
    rw [r.buf]
    exact RR.ok ⟨ρ', le, ⟨r.ptrs, rfl, r.size, r.heap, r.lb, by simp [r.ml], by simp [r.sl]⟩, rfl, r.ptrs.1⟩
  appendDummy {ρ m n} r := by
    refine (cf_nextSlot W r).bind fun x y _ h => ?_
    obtain ⟨ρ', le, r⟩ := h
    rw [r.buf]
    exact RR.ok ⟨ρ', le, ⟨r.ptrs, rfl, r.size, r.heap, r.lb, r.ml, r.sl⟩⟩
  expand _ _ := RR.err _
  load {ρ m n} r l l' t := by
    obtain ⟨b, o⟩ := l
    obtain ⟨b', o'⟩ := l'
    obtain ⟨e, t⟩ := t
    dsimp only at e; subst e
    cases b <;> cases b'
    · exact r.heap.load t _ _
    · exact t.elim
    · exact t.elim
    · dsimp only at t
      subst t
      exact cf_load vs r _ o
  store {ρ m n} r l l' t v := by
    obtain ⟨b, o⟩ := l
    obtain ⟨b', o'⟩ := l'
    obtain ⟨e, t⟩ := t
    dsimp only at e; subst e
    cases b <;> cases b'
    · exact (Sim.copyIn v r.heap t _).bind fun _ _ _ s => RR.ok ⟨r.ptrs, r.buf, r.size, s, r.lb, r.ml, r.sl⟩
    · exact t.elim
    · exact t.elim
    · dsimp only at t
      subst t
      exact cf_store r _ o v

/-! compact_bonsai_nlm.hpp -/

/-- the data members agree, up to the addresses -/
structure CbRel (ρ : Nat → Nat → Prop) (m : Poplar.CompactBonsaiNlm) (n : CompactBonsaiNlm) : Prop where
  ptrs : AR (PR ρ) m.ptrs n.ptrs
  chunks : n.chunks = m.chunks
  heap : Sim ρ m.heap n.heap
  size : n.size = m.size
  lb : n.labelBytes = m.labelBytes
  ml : n.maxLength = m.maxLength
  sl : n.sumLength = m.sumLength

section
variable {ρ : Nat → Nat → Prop}

theorem cb_getAllocs (W w p : Nat) {h : Poplar.Heap} {f : Heap} (s : Sim ρ h f) {a b : Nat} (r : ρ a b) :
    RR Eq (Poplar.CompactBonsaiNlm.getAllocs W h a w p) (CompactBonsaiNlm.getAllocs W f b w p) := by
  unfold Poplar.CompactBonsaiNlm.getAllocs CompactBonsaiNlm.getAllocs
  refine RR.same _ fun x _ => RR.same _ fun _ _ => RR.same _ fun _ _ => RR.same _ fun _ _ => (s.block r).bind fun x y _ e => ?_
  rw [e]
  generalize sub64 _ 1 = z
  exact RR.rfl' _

theorem cb_insert (W vs : Nat) {m : Poplar.CompactBonsaiNlm} {n : CompactBonsaiNlm} (r : CbRel ρ m n) (i : Nat) (k : List UInt8) :
    RR (fun x y => ∃ ρ', Le ρ ρ' ∧ CbRel ρ' x.1 y.1 ∧ LR ρ' x.2 y.2) (Poplar.CompactBonsaiNlm.insert W vs m i k)
      (CompactBonsaiNlm.insert W vs n i k) := by
  unfold Poplar.CompactBonsaiNlm.insert CompactBonsaiNlm.insert
  dsimp only
  rw [r.chunks]
  refine RR.same _ fun _ _ => RR.same _ fun _ _ => RR.same _ fun _ _ => RR.same _ fun w _ => RR.same _ fun ch _ => ?_
  refine (r.ptrs.rd _).bind fun a p _ t => ?_
  cases a <;> cases p
  · dsimp only
    obtain ⟨ρ', le, s, t⟩ := r.heap.alloc (VByte.size ((if k.isEmpty = true then 0 else k.length - 1) + vs) + (if k.isEmpty = true then 0 else k.length - 1) + vs)
    refine ((r.ptrs.le fun _ _ => PR.le le).wr _ (x := some _) (y := some _) t).bind fun _ _ _ hp => ?_
    refine (s.encode t _ _).bind fun x y _ e => ?_
    obtain ⟨h1, d⟩ := x
    obtain ⟨f1, d'⟩ := y
    obtain ⟨s, e⟩ := e
    dsimp only at e s ⊢
    subst e
    refine (Sim.copyIn _ s t _).bind fun _ _ _ s => (Sim.copyIn _ s t _).bind fun _ _ _ s => ?_
    exact RR.ok ⟨ρ', le, ⟨hp, rfl, s, by simp [r.size], by simp [r.lb], by simp [r.ml], by simp [r.sl]⟩, rfl, t⟩
  · exact t.elim
  · exact t.elim
  · dsimp only
    refine (cb_getAllocs W w _ r.heap t).bind fun x y _ e => ?_
    subst e
    obtain ⟨fr, bk⟩ := x
    dsimp only
    obtain ⟨ρ', le, s, u⟩ := r.heap.alloc (fr + (VByte.size ((if k.isEmpty = true then 0 else k.length - 1) + vs) + (if k.isEmpty = true then 0 else k.length - 1) + vs) + bk)
    have t' := le _ _ t
    refine (Sim.copyBytes _ s u t' _ _).bind fun _ _ _ s => (s.encode u _ _).bind fun x y _ e => ?_
    obtain ⟨h1, d⟩ := x
    obtain ⟨f1, d'⟩ := y
    obtain ⟨s, e⟩ := e
    dsimp only at e s ⊢
    subst e
    refine (Sim.copyIn _ s u _).bind fun _ _ _ s => (Sim.copyIn _ s u _).bind fun _ _ _ s => ?_
    refine (Sim.copyBytes _ s u t' _ _).bind fun _ _ _ s => (s.free t').bind fun _ _ _ s => ?_
    refine ((r.ptrs.le fun _ _ => PR.le le).wr _ (x := some _) (y := some _) u).bind fun _ _ _ hp => ?_
    exact RR.ok ⟨ρ', le, ⟨hp, rfl, s, by simp [r.size], by simp [r.lb], by simp [r.ml], by simp [r.sl]⟩, rfl, u⟩

/-- related slices; both may be empty -/
def SR (ρ : Nat → Nat → Prop) : Option (Nat × Nat × Nat) → Option (Nat × Nat × Nat) → Prop
  | none, none => True
  | some x, some y => ρ x.1 y.1 ∧ x.2 = y.2
  | _, _ => False

theorem cb_getSlice (W c p : Nat) {m : Poplar.CompactBonsaiNlm} {n : CompactBonsaiNlm} (hp : AR (PR ρ) m.ptrs n.ptrs) (hc : n.chunks = m.chunks)
    {h : Poplar.Heap} {f : Heap} (s : Sim ρ h f) :
    RR (SR ρ) (Poplar.CompactBonsaiNlm.getSlice W m h c p) (CompactBonsaiNlm.getSlice W n f c p) := by
  unfold Poplar.CompactBonsaiNlm.getSlice CompactBonsaiNlm.getSlice
  rw [hc]
  refine RR.same _ fun w _ => RR.same _ fun b _ => ?_
  cases b with
  | false => exact RR.ok trivial
  | true =>
    refine (hp.rd _).bind fun a q _ t => ?_
    cases a <;> cases q
    · exact RR.err _
    · exact t.elim
    · exact t.elim
    · refine RR.same _ fun _ _ => (s.block t).bind fun x y _ e => ?_
      subst e
      exact RR.same _ fun _ _ => RR.same _ fun _ _ => RR.ok ⟨t, rfl⟩

theorem cb_setSlice (W c p soff len : Nat) {src src' : Nat} (hsrc : ρ src src') {m : Poplar.CompactBonsaiNlm} {n : CompactBonsaiNlm} (r : CbRel ρ m n) :
    RR (fun x y => ∃ ρ', Le ρ ρ' ∧ CbRel ρ' x y) (Poplar.CompactBonsaiNlm.setSlice W m c p src soff len)
      (CompactBonsaiNlm.setSlice W n c p src' soff len) := by
  unfold Poplar.CompactBonsaiNlm.setSlice CompactBonsaiNlm.setSlice
  rw [r.chunks]
  refine RR.same _ fun _ _ => RR.same _ fun _ _ => RR.same _ fun _ _ => RR.same _ fun w _ => RR.same _ fun ch _ => ?_
  refine (r.ptrs.rd _).bind fun a q _ t => ?_
  cases a <;> cases q
  · dsimp only
    obtain ⟨ρ', le, s, t⟩ := r.heap.alloc len
    refine ((r.ptrs.le fun _ _ => PR.le le).wr _ (x := some _) (y := some _) t).bind fun _ _ _ hp => ?_
    refine (Sim.copyBytes _ s t (le _ _ hsrc) _ _).bind fun _ _ _ s => ?_
    exact RR.ok ⟨ρ', le, ⟨hp, rfl, s, r.size, r.lb, r.ml, r.sl⟩⟩
  · exact t.elim
  · exact t.elim
  · dsimp only
    refine (cb_getAllocs W w _ r.heap t).bind fun x y _ e => ?_
    subst e
    obtain ⟨fr, bk⟩ := x
    dsimp only
    obtain ⟨ρ', le, s, u⟩ := r.heap.alloc (fr + len + bk)
    have t' := le _ _ t
    refine (Sim.copyBytes _ s u t' _ _).bind fun _ _ _ s => (Sim.copyBytes _ s u (le _ _ hsrc) _ _).bind fun _ _ _ s => ?_
    refine (Sim.copyBytes _ s u t' _ _).bind fun _ _ _ s => (s.free t').bind fun _ _ _ s => ?_
    refine ((r.ptrs.le fun _ _ => PR.le le).wr _ (x := some _) (y := some _) u).bind fun _ _ _ hp => ?_
    exact RR.ok ⟨ρ', le, ⟨hp, rfl, s, r.size, r.lb, r.ml, r.sl⟩⟩

theorem cb_moveOne (W pos : Nat) (nm : NodeMap) {m : Poplar.CompactBonsaiNlm} {n : CompactBonsaiNlm} (hp : AR (PR ρ) m.ptrs n.ptrs)
    (hc : n.chunks = m.chunks) {m' : Poplar.CompactBonsaiNlm} {n' : CompactBonsaiNlm} (r : CbRel ρ m' n') :
    RR (fun x y => ∃ ρ', Le ρ ρ' ∧ CbRel ρ' x y) (Poplar.CompactBonsaiNlm.moveOne W nm pos m m')
      (CompactBonsaiNlm.moveOne W nm pos n n') := by
  refine RR.same _ fun j _ => ?_
  split
  · refine (cb_getSlice W _ _ hp hc r.heap).bind fun x y hx t => ?_
    clear hx
    cases x <;> cases y
    · exact RR.ok ⟨ρ, Le.refl _, r⟩
    · exact t.elim
    · exact t.elim
    next x y =>
      obtain ⟨a, o, l⟩ := x
      obtain ⟨a', o', l'⟩ := y
      obtain ⟨t, e⟩ := t
      dsimp only at e t
      cases e
      dsimp only
      split
      · exact RR.ok ⟨ρ, Le.refl _, r⟩
      · exact cb_setSlice W _ _ _ _ t r
  · exact RR.ok ⟨ρ, Le.refl _, r⟩

theorem cb_expandLoop (W : Nat) (nm : NodeMap) : ∀ (c i : Nat) {ρ : Nat → Nat → Prop} {m : Poplar.CompactBonsaiNlm} {n : CompactBonsaiNlm}
    {m' : Poplar.CompactBonsaiNlm} {n' : CompactBonsaiNlm}, AR (PR ρ) m.ptrs n.ptrs → n.chunks = m.chunks → CbRel ρ m' n' →
    RR (fun x y => ∃ ρ', Le ρ ρ' ∧ AR (PR ρ') x.1.ptrs y.1.ptrs ∧ CbRel ρ' x.2 y.2) (Poplar.CompactBonsaiNlm.expandLoop W nm c i m m')
      (CompactBonsaiNlm.expandLoop W nm c i n n') := by
  intro c
  induction c with
  | zero => intro i ρ m n m' n' hp hc r; exact RR.ok ⟨ρ, Le.refl _, hp, r⟩
  | succ c ih =>
    intro i ρ m n m' n' hp hc r
    refine (cb_moveOne W i nm hp hc r).bind fun x y _ h => ?_
    obtain ⟨ρ1, le1, r⟩ := h
    have hp := hp.le fun _ _ => PR.le le1
    split
    · refine (hp.rd _).bind fun _ _ _ t => (r.heap.freeOpt t).bind fun h1 f1 _ s => (hp.wr _ (x := none) (y := none) trivial).bind fun _ _ _ hp => ?_
      exact (ih (i + 1) (m := { m with ptrs := _ }) (n := { n with ptrs := _ }) hp hc (m' := { x with heap := h1 }) (n' := { y with heap := f1 })
        ⟨r.ptrs, r.chunks, s, r.size, r.lb, r.ml, r.sl⟩).mono fun _ _ ⟨ρ2, le2, h⟩ => ⟨ρ2, le1.trans le2, h⟩
    · exact (ih (i + 1) hp hc r).mono fun _ _ ⟨ρ2, le2, h⟩ => ⟨ρ2, le1.trans le2, h⟩

theorem cb_make (E : Env) (W b : Nat) : RR (CbRel (fun _ _ => False)) (Poplar.CompactBonsaiNlm.make W b) (CompactBonsaiNlm.make E W b) := by
  unfold Poplar.CompactBonsaiNlm.make CompactBonsaiNlm.make
  split
  · exact RR.ok ⟨AR.replicate _ trivial, rfl, Sim.init E, rfl, rfl, rfl, rfl⟩
  · exact RR.err _

theorem cb_expand (W : Nat) (nm : NodeMap) {m : Poplar.CompactBonsaiNlm} {n : CompactBonsaiNlm} (r : CbRel ρ m n) :
    RR (fun x y => ∃ ρ', Le ρ ρ' ∧ CbRel ρ' x y) (Poplar.CompactBonsaiNlm.expand W m nm) (CompactBonsaiNlm.expand W n nm) := by
  unfold Poplar.CompactBonsaiNlm.expand CompactBonsaiNlm.expand
  rw [← r.ptrs.1]
  refine RR.same _ fun b _ => (cb_make n.heap.env W b).bind fun u v _ t => ?_
  have hle : Le (fun _ _ => False) ρ := fun _ _ h => h.elim
  refine (cb_expandLoop W nm _ _ r.ptrs r.chunks (m' := { u with heap := m.heap }) (n' := { v with heap := n.heap })
    ⟨t.ptrs.le fun _ _ => PR.le hle, t.chunks, r.heap, t.size, t.lb, t.ml, t.sl⟩).bind fun x y _ h => ?_
  obtain ⟨o, w⟩ := x
  obtain ⟨o', w'⟩ := y
  obtain ⟨ρ', le, hp, q⟩ := h
  refine (freeAll hp.forall₂ q.heap).bind fun _ _ _ s => ?_
  exact RR.ok ⟨ρ', le, ⟨q.ptrs, q.chunks, s, r.size, r.lb, r.ml, r.sl⟩⟩

end

def cbSim (E : Env) (W vs : Nat) : NlmSim (Poplar.CompactBonsaiNlm.ops W vs) (CompactBonsaiNlm.ops E W vs) where
  Rel := CbRel
  empty := ⟨AR.empty, rfl, Sim.init E, rfl, rfl, rfl, rfl⟩
  make b := cb_make E W b
  size r := r.size
  compare {ρ m n} r i k := by
    show RR _ (Poplar.CompactBonsaiNlm.compare W vs m i k) (CompactBonsaiNlm.compare W vs n i k)
    unfold Poplar.CompactBonsaiNlm.compare CompactBonsaiNlm.compare
    dsimp only
    rw [r.chunks]
    refine (r.ptrs.rd _).bind fun a p _ t => ?_
    cases a <;> cases p
    · exact RR.err _
    · exact t.elim
    · exact t.elim
    · refine RR.same _ fun _ _ => RR.same _ fun _ _ => RR.same _ fun _ _ => RR.same _ fun _ _ => (r.heap.block t).bind fun x y _ e => ?_
      subst e
      refine RR.same _ fun z _ => ?_
      obtain ⟨z, w⟩ := z
      cases z with
      | none => exact RR.ok ⟨trivial, rfl⟩
      | some o => exact RR.ok ⟨⟨rfl, t⟩, rfl⟩
  insert r i k := cb_insert W vs r i k
  append _ _ := RR.err _
  appendDummy _ := RR.err _
  expand r nm := cb_expand W nm r
  load {ρ m n} r l l' t := by
    obtain ⟨b, o⟩ := l
    obtain ⟨b', o'⟩ := l'
    obtain ⟨e, t⟩ := t
    dsimp only at e; subst e
    cases b <;> cases b'
    · exact r.heap.load t _ _
    · exact t.elim
    · exact t.elim
    · exact RR.err _
  store {ρ m n} r l l' t v := by
    obtain ⟨b, o⟩ := l
    obtain ⟨b', o'⟩ := l'
    obtain ⟨e, t⟩ := t
    dsimp only at e; subst e
    cases b <;> cases b'
    · exact (Sim.copyIn v r.heap t _).bind fun _ _ _ s => RR.ok ⟨r.ptrs, r.chunks, s, r.size, r.lb, r.ml, r.sl⟩
    · exact t.elim
    · exact t.elim
    · exact RR.err _

end Poplar.Phys
