import Verif.Model.Destroy
import Verif.Proof.Dangling
import Mathlib.Data.List.Perm.Basic
import Mathlib.Data.List.Nodup
/-
  Every live heap block is owned by exactly one pointer of the label map.
-/
namespace Poplar

/-- the blocks owned by an array of `unique_ptr`s -/
def owned (ptrs : Array (Option Nat)) : List Nat := ptrs.toList.filterMap id

/-- the live blocks are those of the list, each listed once -/
def Owns (l : List Nat) (h : Heap) : Prop := l.Nodup ∧ ∀ a, a ∈ l ↔ h.B a ≠ none

theorem Owns.perm {l l' : List Nat} {h : Heap} (ho : Owns l h) (hp : l.Perm l') : Owns l' h :=
  ⟨hp.nodup_iff.1 ho.1, fun a => by rw [← hp.mem_iff]; exact ho.2 a⟩

theorem Owns.same {l : List Nat} {h h' : Heap} (ho : Owns l h) (hs : Heap.Same h h') : Owns l h' :=
  ⟨ho.1, fun a => by rw [ho.2 a, not_iff_not]; exact (hs.2 a).symm⟩

theorem Owns.alloc {l : List Nat} {h : Heap} (ho : Owns l h) (n : Nat) : Owns (h.next :: l) (h.alloc n).1 := by
  obtain ⟨_, _, a3⟩ := Heap.alloc_spec h n
  have hn : h.next ∉ l := by
    rw [ho.2]
    intro hc
    obtain ⟨b, hb⟩ := Option.ne_none_iff_exists'.1 hc
    have := Heap.B_lt hb; omega
  refine ⟨List.nodup_cons.2 ⟨hn, ho.1⟩, fun a => ?_⟩
  rw [a3, List.mem_cons]
  by_cases e : a = h.next
  · simp [e]
  · rw [if_neg e, ← ho.2 a]; simp [e]

theorem Owns.free {l : List Nat} {h h' : Heap} {p : Option Nat} (ho : Owns (p.toList ++ l) h) (e : h.freeOpt p = .ok h') : Owns l h' := by
  cases p with
  | none => cases e; exact ho
  | some a =>
    obtain ⟨_, _, f3⟩ := Heap.free_inv e
    obtain ⟨o1, o2⟩ := ho
    rw [Option.toList_some, List.singleton_append, List.nodup_cons] at o1
    refine ⟨o1.2, fun b => ?_⟩
    rw [f3]
    by_cases e : b = a
    · subst e; simp [o1.1]
    · rw [if_neg e, ← o2 b]; simp [e]

theorem Owns.freeOk {l : List Nat} {h : Heap} {p : Option Nat} (ho : Owns (p.toList ++ l) h) : ∃ h', h.freeOpt p = .ok h' := by
  cases p with
  | none => exact ⟨h, rfl⟩
  | some a =>
    obtain ⟨b, hb⟩ := Option.ne_none_iff_exists'.1 ((ho.2 a).1 (by simp))
    obtain ⟨h', e, _⟩ := Heap.free_ok hb
    exact ⟨h', e⟩

theorem Owns.freeAll : ∀ (ps : List (Option Nat)) {l : List Nat} {h h' : Heap}, Owns (ps.filterMap id ++ l) h →
    ps.foldlM (fun h p => h.freeOpt p) h = .ok h' → Owns l h' := by
  intro ps
  induction ps with
  | nil => intro l h h' ho e; cases e; exact ho
  | cons p ps ih =>
    intro l h h' ho e
    rw [List.foldlM_cons] at e
    obtain ⟨h1, e1, e⟩ := R.bind_eq_ok e
    refine ih ?_ e
    refine Owns.free (p := p) ?_ e1
    cases p <;> exact ho

theorem Owns.freeAllOk : ∀ (ps : List (Option Nat)) {l : List Nat} {h : Heap}, Owns (ps.filterMap id ++ l) h →
    ∃ h', ps.foldlM (fun h p => h.freeOpt p) h = .ok h' := by
  intro ps
  induction ps with
  | nil => intro l h ho; exact ⟨h, rfl⟩
  | cons p ps ih =>
    intro l h ho
    have ho' : Owns (p.toList ++ (ps.filterMap id ++ l)) h := by cases p <;> exact ho
    obtain ⟨h1, e1⟩ := ho'.freeOk
    obtain ⟨h2, e2⟩ := ih (ho'.free e1)
    exact ⟨h2, by rw [List.foldlM_cons, e1]; exact e2⟩

/-- the heap is empty when nothing is owned -/
theorem Owns.live_nil {h : Heap} (ho : Owns [] h) : h.live = [] := by
  unfold Heap.live
  rw [List.filterMap_eq_nil_iff]
  intro x hx
  obtain ⟨i, hi, rfl⟩ := List.mem_iff_getElem.1 hx
  by_contra hc
  refine absurd ((ho.2 i).2 ?_) List.not_mem_nil
  have hi' : i < h.blocks.size := by simpa using hi
  unfold Heap.B
  rw [Array.getElem?_eq_getElem hi']
  simpa using hc

theorem owned_set {ptrs : Array (Option Nat)} {c : Nat} {p : Option Nat} (hc : ptrs[c]? = some p) :
    ∃ rest, (owned ptrs).Perm (p.toList ++ rest) ∧ ∀ q : Option Nat, (owned (ptrs.setIfInBounds c q)).Perm (q.toList ++ rest) := by
  have key : ∀ (l : List (Option Nat)) (c : Nat), l[c]? = some p →
      ∃ rest, (l.filterMap id).Perm (p.toList ++ rest) ∧ ∀ q : Option Nat, ((l.set c q).filterMap id).Perm (q.toList ++ rest) := by
    intro l
    induction l with
    | nil => intro c h; simp at h
    | cons x l ih =>
      intro c h
      cases c with
      | zero =>
        rw [List.getElem?_cons_zero] at h
        cases h
        refine ⟨l.filterMap id, ?_, fun q => ?_⟩
        · cases p <;> exact List.Perm.refl _
        · cases q <;> exact List.Perm.refl _
      | succ c =>
        rw [List.getElem?_cons_succ] at h
        obtain ⟨rest, h1, h2⟩ := ih c h
        refine ⟨x.toList ++ rest, ?_, fun q => ?_⟩
        · have : (x :: l).filterMap id = x.toList ++ l.filterMap id := by cases x <;> rfl
          rw [this, ← List.append_assoc]
          exact (h1.append_left _).trans (by rw [← List.append_assoc]; exact List.perm_append_comm.append_right _)
        · have : (x :: l.set c q).filterMap id = x.toList ++ (l.set c q).filterMap id := by cases x <;> rfl
          rw [List.set_cons_succ, this, ← List.append_assoc]
          exact ((h2 q).append_left _).trans (by rw [← List.append_assoc]; exact List.perm_append_comm.append_right _)
  obtain ⟨rest, h1, h2⟩ := key ptrs.toList c (by simpa using hc)
  exact ⟨rest, h1, fun q => by simpa [owned] using h2 q⟩

theorem owned_replicate (n : Nat) : owned (Array.replicate n none) = [] := by
  simp [owned]

theorem owned_push (ptrs : Array (Option Nat)) (p : Option Nat) : owned (ptrs.push p) = owned ptrs ++ p.toList := by
  unfold owned
  rw [Array.toList_push, List.filterMap_append]
  cases p <;> rfl

theorem Owns.empty : Owns [] {} := ⟨List.nodup_nil, fun a => by simp [Heap.B]⟩

/-! ### plain classes -/

namespace PlainBonsaiNlm

def Own (m : PlainBonsaiNlm) : Prop := Owns (owned m.ptrs) m.heap

theorem expandLoop_own {nm : NodeMap} : ∀ (c i : Nat) {old new old' new' : Array (Option Nat)} {h h' : Heap},
    Owns (owned old ++ owned new) h → expandLoop nm c i old new h = .ok (old', new', h') → Owns (owned old' ++ owned new') h' := by
  intro c
  induction c with
  | zero => intro i old new old' new' h h' ho e; cases e; exact ho
  | succ c ih =>
    intro i old new old' new' h h' ho e
    unfold expandLoop at e
    obtain ⟨j, _, e⟩ := R.bind_eq_ok e
    split at e
    · obtain ⟨p, e1, e⟩ := R.bind_eq_ok e
      obtain ⟨q, e2, e⟩ := R.bind_eq_ok e
      obtain ⟨h1, e3, e⟩ := R.bind_eq_ok e
      obtain ⟨new1, e4, e⟩ := R.bind_eq_ok e
      obtain ⟨old1, e5, e⟩ := R.bind_eq_ok e
      refine ih _ ?_ e
      rw [CompactBonsaiNlm.wr_inv e4, CompactBonsaiNlm.wr_inv e5]
      obtain ⟨ro, o1, o2⟩ := owned_set (CompactBonsaiNlm.rd_inv e1)
      obtain ⟨rn, n1, n2⟩ := owned_set (CompactBonsaiNlm.rd_inv e2)
      have hp : Owns (q.toList ++ (p.toList ++ ro ++ rn)) h := by
        refine ho.perm ((o1.append n1).trans ?_)
        rw [← List.append_assoc, ← List.append_assoc]
        refine List.Perm.append_right _ ?_
        exact List.perm_append_comm
      refine (hp.free e3).perm ?_
      refine List.Perm.symm (((o2 none).append (n2 p)).trans ?_)
      rw [Option.toList_none, List.nil_append, ← List.append_assoc]
      exact List.perm_append_comm.append_right _
    · exact ih _ ho e

theorem evoOwn (vs : Nat) : Evo (ops vs) Own (fun _ _ => True) where
  refl _ := trivial
  trans _ _ := trivial
  empty := Owns.empty
  make := by
    intro b n h
    change make b = _ at h
    unfold make at h
    split at h
    · cases h; exact ⟨by unfold Own; rw [owned_replicate]; exact Owns.empty, trivial⟩
    · cases h
  insert := by
    intro n i k n' l hn h
    refine ⟨?_, trivial⟩
    change insert vs n i k = _ at h
    unfold insert at h
    obtain ⟨p, e0, h⟩ := R.bind_eq_ok h
    obtain ⟨_, hp, h⟩ := R.bind_eq_ok h
    dsimp only at h
    obtain ⟨ps, e1, h⟩ := R.bind_eq_ok h
    obtain ⟨h1, e2, h⟩ := R.bind_eq_ok h
    obtain ⟨h2, e3, h⟩ := R.bind_eq_ok h
    cases h
    have hpn : p = none := by
      cases p with
      | none => rfl
      | some a => cases hp
    subst hpn
    obtain ⟨r, r1, r2⟩ := owned_set (CompactBonsaiNlm.rd_inv e0)
    unfold Own
    rw [CompactBonsaiNlm.wr_inv e1]
    have h0 : Owns (n.heap.next :: owned n.ptrs) h2 :=
      ((Owns.alloc hn _).same (Heap.copyIn_same _ e2)).same (Heap.copyIn_same _ e3)
    exact h0.perm (((r1.cons _)).trans (r2 (some n.heap.next)).symm)
  append := by rintro n k n' l _ ⟨⟩
  dummy := by rintro n n' _ ⟨⟩
  expand := by
    intro n nm n' hn h
    refine ⟨?_, trivial⟩
    obtain ⟨⟨old, new, hh⟩, e1, h⟩ := R.bind_eq_ok h
    dsimp only at h
    obtain ⟨h2, e2, h⟩ := R.bind_eq_ok h
    cases h
    have := expandLoop_own (nm := nm) _ _ (by rw [owned_replicate, List.append_nil]; exact hn) e1
    exact this.freeAll _ e2
  store := by
    intro n l v n' hn h
    refine ⟨?_, trivial⟩
    change store n l v = _ at h
    unfold store at h
    split at h
    · cases h
    · obtain ⟨x, e, h⟩ := R.bind_eq_ok h
      cases h
      exact Owns.same hn (Heap.copyIn_same _ e)

end PlainBonsaiNlm

namespace PlainFkNlm

def Own (m : PlainFkNlm) : Prop := Owns (owned m.ptrs) m.heap

theorem evoOwn (vs : Nat) : Evo (ops vs) Own (fun _ _ => True) where
  refl _ := trivial
  trans _ _ := trivial
  empty := Owns.empty
  make := by
    intro b n h
    change make b = _ at h
    unfold make at h
    split at h
    · cases h; exact ⟨Owns.empty, trivial⟩
    · cases h
  insert := by rintro n i k n' l _ ⟨⟩
  append := by
    intro n k n' l hn h
    refine ⟨?_, trivial⟩
    change append vs n k = _ at h
    unfold append at h
    dsimp only at h
    obtain ⟨h1, e2, h⟩ := R.bind_eq_ok h
    obtain ⟨h2, e3, h⟩ := R.bind_eq_ok h
    cases h
    unfold Own
    rw [owned_push]
    have h0 : Owns (n.heap.next :: owned n.ptrs) h2 :=
      ((Owns.alloc hn _).same (Heap.copyIn_same _ e2)).same (Heap.copyIn_same _ e3)
    exact h0.perm (List.perm_append_comm (l₁ := [n.heap.next]))
  dummy := by
    intro n n' hn h
    cases h
    refine ⟨?_, trivial⟩
    unfold Own
    rw [owned_push, Option.toList_none, List.append_nil]
    exact hn
  expand := by rintro n i k _ ⟨⟩
  store := by
    intro n l v n' hn h
    refine ⟨?_, trivial⟩
    change store n l v = _ at h
    unfold store at h
    split at h
    · cases h
    · obtain ⟨x, e, h⟩ := R.bind_eq_ok h
      cases h
      exact Owns.same hn (Heap.copyIn_same _ e)

end PlainFkNlm

/-! ### compact classes -/

namespace CompactFkNlm

def Owner (m : CompactFkNlm) : Prop := Owns m.chunkPtrs.toList m.heap

theorem nextSlot_own {W : Nat} {m m' : CompactFkNlm} (hm : Owner m) (h : nextSlot W m = .ok m') : Owner m' := by
  unfold nextSlot at h
  dsimp only at h
  split at h
  · obtain ⟨h1, e, h⟩ := R.bind_eq_ok h
    cases h
    unfold Owner
    rw [Array.toList_push]
    have h0 : Owns (m.heap.next :: m.chunkPtrs.toList) h1 := (Owns.alloc hm _).same (Heap.copyIn_same _ e)
    exact h0.perm (List.perm_append_comm (l₁ := [m.heap.next]))
  · cases h; exact hm

theorem evoOwn (W vs : Nat) : Evo (ops W vs) Owner (fun _ _ => True) where
  refl _ := trivial
  trans _ _ := trivial
  empty := Owns.empty
  make := by
    intro b n h
    change make b = _ at h
    unfold make at h
    split at h
    · cases h; exact ⟨Owns.empty, trivial⟩
    · cases h
  insert := by rintro n i k n' l _ ⟨⟩
  append := by
    intro n k n' l hn h
    obtain ⟨m1, h1, h⟩ := R.bind_eq_ok h
    have h0 : Owns m1.chunkPtrs.toList m1.heap := nextSlot_own hn h1
    cases h
    exact ⟨h0, trivial⟩
  dummy := by
    intro n n' hn h
    obtain ⟨m1, h1, h⟩ := R.bind_eq_ok h
    have h0 : Owns m1.chunkPtrs.toList m1.heap := nextSlot_own hn h1
    cases h
    exact ⟨h0, trivial⟩
  expand := by rintro n i k _ ⟨⟩
  store := by
    intro n l v n' hn h
    refine ⟨?_, trivial⟩
    change store n l v = _ at h
    unfold store at h
    split at h
    · split at h
      · obtain ⟨x, _, h⟩ := R.bind_eq_ok h
        cases h; exact hn
      · cases h
    · obtain ⟨x, e, h⟩ := R.bind_eq_ok h
      cases h
      exact Owns.same hn (Heap.copyIn_same _ e)

end CompactFkNlm

namespace CompactBonsaiNlm
variable {W vs : Nat}

def Owner (m : CompactBonsaiNlm) : Prop := Owns (owned m.ptrs) m.heap

/-- the block of one chunk is replaced; `A` are blocks owned by another object -/
theorem owns_put {A : List Nat} {ptrs ps : Array (Option Nat)} {h h1 h2 : Heap} {c n : Nat} {p : Option Nat}
    (ho : Owns (A ++ owned ptrs) h) (hs : Heap.Same (h.alloc n).1 h1) (hf : h1.freeOpt p = .ok h2)
    (hp : rd ptrs c = .ok p) (hw : wr ptrs c (some h.next) = .ok ps) : Owns (A ++ owned ps) h2 := by
  obtain ⟨r, r1, r2⟩ := owned_set (rd_inv hp)
  rw [wr_inv hw]
  have h0 : Owns (h.next :: (A ++ owned ptrs)) h1 := (ho.alloc n).same hs
  have h3 : Owns (p.toList ++ (h.next :: (A ++ r))) h1 := by
    refine h0.perm ?_
    refine (((r1.append_left A).cons _)).trans ?_
    refine List.Perm.trans ?_ (List.perm_middle (a := h.next) (l₁ := p.toList) (l₂ := A ++ r)).symm
    refine List.Perm.cons _ ?_
    rw [← List.append_assoc, ← List.append_assoc]
    exact List.perm_append_comm.append_right _
  refine (h3.free hf).perm ?_
  refine List.Perm.trans ?_ ((r2 _).symm.append_left A)
  exact List.perm_middle.symm

theorem insert_own {m m' : CompactBonsaiNlm} {pos : Nat} {key : List UInt8} {l : Loc} (ho : Owner m) (h : insert W vs m pos key = .ok (m', l)) :
    Owner m' := by
  unfold insert at h
  dsimp only at h
  obtain ⟨w, _, h⟩ := R.bind_eq_ok h
  obtain ⟨_, _, h⟩ := R.bind_eq_ok h
  obtain ⟨_, _, h⟩ := R.bind_eq_ok h
  obtain ⟨w', _, h⟩ := R.bind_eq_ok h
  obtain ⟨cs, _, h⟩ := R.bind_eq_ok h
  obtain ⟨p, hp, h⟩ := R.bind_eq_ok h
  cases p with
  | none =>
    dsimp only at h
    obtain ⟨ps, hps, h⟩ := R.bind_eq_ok h
    obtain ⟨⟨h1, d⟩, e1, h⟩ := R.bind_eq_ok h
    dsimp only at h
    obtain ⟨h2, e2, h⟩ := R.bind_eq_ok h
    obtain ⟨h3, e3, h⟩ := R.bind_eq_ok h
    cases h
    exact owns_put (A := []) ho (((Heap.encode_same e1).trans (Heap.copyIn_same _ e2)).trans (Heap.copyIn_same _ e3)) rfl hp hps
  | some a =>
    dsimp only at h
    obtain ⟨⟨fr, bk⟩, _, h⟩ := R.bind_eq_ok h
    dsimp only at h
    obtain ⟨h1, e1, h⟩ := R.bind_eq_ok h
    obtain ⟨⟨h2, d⟩, e2, h⟩ := R.bind_eq_ok h
    dsimp only at h
    obtain ⟨h3, e3, h⟩ := R.bind_eq_ok h
    obtain ⟨h4, e4, h⟩ := R.bind_eq_ok h
    obtain ⟨h5, e5, h⟩ := R.bind_eq_ok h
    obtain ⟨h6, e6, h⟩ := R.bind_eq_ok h
    obtain ⟨ps, hps, h⟩ := R.bind_eq_ok h
    cases h
    exact owns_put (A := []) (p := some a) ho (((((Heap.copyBytes_same _ e1).trans (Heap.encode_same e2)).trans (Heap.copyIn_same _ e3)).trans
      (Heap.copyIn_same _ e4)).trans (Heap.copyBytes_same _ e5)) e6 hp hps

theorem setSlice_own {A : List Nat} {m m' : CompactBonsaiNlm} {c p src soff len : Nat} (ho : Owns (A ++ owned m.ptrs) m.heap)
    (h : setSlice W m c p src soff len = .ok m') : Owns (A ++ owned m'.ptrs) m'.heap := by
  unfold setSlice at h
  dsimp only at h
  obtain ⟨w, _, h⟩ := R.bind_eq_ok h
  obtain ⟨_, _, h⟩ := R.bind_eq_ok h
  obtain ⟨_, _, h⟩ := R.bind_eq_ok h
  obtain ⟨w', _, h⟩ := R.bind_eq_ok h
  obtain ⟨cs, _, h⟩ := R.bind_eq_ok h
  obtain ⟨p, hp, h⟩ := R.bind_eq_ok h
  cases p with
  | none =>
    dsimp only at h
    obtain ⟨ps, hps, h⟩ := R.bind_eq_ok h
    obtain ⟨h1, e1, h⟩ := R.bind_eq_ok h
    cases h
    exact owns_put ho (Heap.copyBytes_same _ e1) rfl hp hps
  | some a =>
    dsimp only at h
    obtain ⟨⟨fr, bk⟩, _, h⟩ := R.bind_eq_ok h
    dsimp only at h
    obtain ⟨h1, e1, h⟩ := R.bind_eq_ok h
    obtain ⟨h3, e3, h⟩ := R.bind_eq_ok h
    obtain ⟨h5, e5, h⟩ := R.bind_eq_ok h
    obtain ⟨h6, e6, h⟩ := R.bind_eq_ok h
    obtain ⟨ps, hps, h⟩ := R.bind_eq_ok h
    cases h
    exact owns_put (p := some a) ho (((Heap.copyBytes_same _ e1).trans (Heap.copyBytes_same _ e3)).trans (Heap.copyBytes_same _ e5)) e6 hp hps

theorem moveOne_own {nm : NodeMap} {pos : Nat} {old new new' : CompactBonsaiNlm} {A : List Nat} (h : Owns (A ++ owned new.ptrs) new.heap)
    (e : moveOne W nm pos old new = .ok new') : Owns (A ++ owned new'.ptrs) new'.heap := by
  unfold moveOne at e
  obtain ⟨np, _, e⟩ := R.bind_eq_ok e
  split at e
  · obtain ⟨sl, _, e⟩ := R.bind_eq_ok e
    split at e
    · cases e; exact h
    · split at e
      · cases e; exact h
      · exact setSlice_own h e
  · cases e; exact h

theorem expandLoop_own {nm : NodeMap} : ∀ (n pos : Nat) {old new old' new' : CompactBonsaiNlm}, Owns (owned old.ptrs ++ owned new.ptrs) new.heap →
    expandLoop W nm n pos old new = .ok (old', new') → Owns (owned old'.ptrs ++ owned new'.ptrs) new'.heap := by
  intro n
  induction n with
  | zero => intro pos old new old' new' h e; cases e; exact h
  | succ n ih =>
    intro pos old new old' new' h e
    unfold expandLoop at e
    obtain ⟨n1, e1, e⟩ := R.bind_eq_ok e
    have h1 := moveOne_own h e1
    split at e
    · obtain ⟨p, hp, e⟩ := R.bind_eq_ok e
      obtain ⟨hh, e2, e⟩ := R.bind_eq_ok e
      obtain ⟨ps, e3, e⟩ := R.bind_eq_ok e
      refine ih _ ?_ e
      obtain ⟨r, r1, r2⟩ := owned_set (rd_inv hp)
      have h2 : Owns (p.toList ++ (r ++ owned n1.ptrs)) n1.heap := h1.perm (by
        rw [← List.append_assoc]; exact r1.append_right _)
      show Owns (owned ps ++ owned n1.ptrs) hh
      rw [wr_inv e3]
      exact (h2.free e2).perm ((r2 none).symm.append_right _)
    · exact ih _ h1 e

theorem evoOwn (W vs : Nat) : Evo (ops W vs) Owner (fun _ _ => True) where
  refl _ := trivial
  trans _ _ := trivial
  empty := Owns.empty
  make := by
    intro b n h
    change make W b = _ at h
    unfold make at h
    split at h
    · cases h; exact ⟨by unfold Owner; rw [owned_replicate]; exact Owns.empty, trivial⟩
    · cases h
  insert := fun hn h => ⟨insert_own hn h, trivial⟩
  append := by rintro n k n' l _ ⟨⟩
  dummy := by rintro n n' _ ⟨⟩
  expand := by
    intro n nm n' hn e
    refine ⟨?_, trivial⟩
    change expand W n nm = _ at e
    unfold expand at e
    obtain ⟨b, _, e⟩ := R.bind_eq_ok e
    obtain ⟨n1, e1, e⟩ := R.bind_eq_ok e
    obtain ⟨⟨old, new⟩, e2, e⟩ := R.bind_eq_ok e
    dsimp only at e
    obtain ⟨hh, e3, e⟩ := R.bind_eq_ok e
    cases e
    have h0 : Owns (owned n.ptrs ++ owned ({ n1 with heap := n.heap } : CompactBonsaiNlm).ptrs) n.heap := by
      have : owned n1.ptrs = [] := by
        unfold make at e1
        split at e1
        · cases e1; exact owned_replicate _
        · cases e1
      show Owns (owned n.ptrs ++ owned n1.ptrs) n.heap
      rw [this, List.append_nil]; exact hn
    exact (expandLoop_own _ _ h0 e2).freeAll _ e3
  store := by
    intro n l v n' hn h
    refine ⟨?_, trivial⟩
    change store n l v = _ at h
    unfold store at h
    split at h
    · cases h
    · obtain ⟨x, e, h⟩ := R.bind_eq_ok h
      cases h
      exact Owns.same hn (Heap.copyIn_same _ e)

end CompactBonsaiNlm
end Poplar
