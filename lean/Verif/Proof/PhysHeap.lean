import Verif.Model.PhysHeap
import Verif.Proof.Heap
import Verif.Proof.Dangling
/-
  The flat memory of Model/PhysHeap.lean simulates the abstract heap.
-/
namespace Poplar

/-- `y` does what `x` does: it returns a related value, or fails the same way; nothing is said if `x` accesses memory out of bounds -/
def RR {α β : Type} (Q : α → β → Prop) (x : R α) (y : R β) : Prop :=
  match x with
  | .ok a => ∃ b, y = .ok b ∧ Q a b
  | .error e => e = .oob ∨ y = .error e

theorem RR.ok {α β : Type} {Q : α → β → Prop} {a : α} {b : β} (h : Q a b) : RR Q (.ok a) (.ok b) := ⟨b, rfl, h⟩

theorem RR.err {α β : Type} {Q : α → β → Prop} (e : Fault) : RR Q (.error e : R α) (.error e : R β) := Or.inr rfl

theorem RR.oob {α β : Type} {Q : α → β → Prop} (y : R β) : RR Q (.error .oob : R α) y := Or.inl rfl

theorem RR.bind {α β γ δ : Type} {P : α → β → Prop} {Q : γ → δ → Prop} {x : R α} {y : R β} {f : α → R γ} {g : β → R δ}
    (h : RR P x y) (hf : ∀ a b, x = .ok a → P a b → RR Q (f a) (g b)) : RR Q (x >>= f) (y >>= g) := by
  cases x with
  | ok a =>
    obtain ⟨b, e, hb⟩ := h
    subst e
    exact hf a b rfl hb
  | error e =>
    rcases h with rfl | rfl
    · exact Or.inl rfl
    · exact Or.inr rfl

theorem RR.same {α γ δ : Type} {Q : γ → δ → Prop} (x : R α) {f : α → R γ} {g : α → R δ}
    (hf : ∀ a, x = .ok a → RR Q (f a) (g a)) : RR Q (x >>= f) (x >>= g) := by
  cases x with
  | ok a => exact hf a rfl
  | error e => exact Or.inr rfl

theorem RR.mono {α β : Type} {P Q : α → β → Prop} {x : R α} {y : R β} (h : RR P x y) (hf : ∀ a b, P a b → Q a b) : RR Q x y := by
  cases x with
  | ok a => obtain ⟨b, e, hb⟩ := h; exact ⟨b, e, hf a b hb⟩
  | error e => exact h

theorem RR.rfl' {α : Type} (x : R α) : RR Eq x x := by
  cases x with
  | ok a => exact ⟨a, rfl, rfl⟩
  | error e => exact Or.inr rfl

namespace Phys
namespace Heap

/-- the blocks in use do not overlap -/
def WF (h : Heap) : Prop := h.live.Pairwise Apart

/-- contents of the block that starts at `a` -/
def B (h : Heap) (a : Nat) : Option (List UInt8) := (h.sizeAt a).map (slice h.bytes a)

theorem slice_length (m : Nat → UInt8) (a n : Nat) : (slice m a n).length = n := by simp [slice]

theorem slice_congr {m m' : Nat → UInt8} {a n : Nat} (h : ∀ x, a ≤ x → x < a + n → m x = m' x) : slice m a n = slice m' a n := by
  unfold slice
  refine List.map_congr_left fun i hi => ?_
  have := List.mem_range.1 hi
  exact h _ (by omega) (by omega)

theorem slice_of {m : Nat → UInt8} {a n : Nat} {b : List UInt8} (hn : b.length = n) (h : ∀ i, i < n → m (a + i) = b.getD i 0) : slice m a n = b := by
  subst hn
  refine List.ext_getElem (slice_length _ _ _) fun i h1 h2 => ?_
  simp only [slice, List.getElem_map, List.getElem_range]
  rw [h i h2, List.getD_eq_getElem?_getD, List.getElem?_eq_getElem h2]; rfl

theorem block_eq (h : Heap) (a : Nat) : h.block a = match h.B a with | some b => .ok b | none => .error .oob := by
  unfold block B
  cases h.sizeAt a <;> rfl

theorem block_ok {h : Heap} {a : Nat} {b : List UInt8} (hb : h.B a = some b) : h.block a = .ok b := by rw [block_eq, hb]

theorem B_of {h : Heap} {a n : Nat} (e : h.sizeAt a = some n) : h.B a = some (slice h.bytes a n) := by unfold B; rw [e]; rfl
theorem B_none {h : Heap} {a : Nat} (e : h.sizeAt a = none) : h.B a = none := by unfold B; rw [e]; rfl

theorem sizeAt_mem {h : Heap} {a n : Nat} (e : h.sizeAt a = some n) : (a, n) ∈ h.live := by
  unfold sizeAt at e
  cases hf : h.live.find? (fun e => e.1 == a) with
  | none => rw [hf] at e; cases e
  | some x =>
    rw [hf] at e
    have h1 := List.mem_of_find?_eq_some hf
    have h2 : x.1 = a := by simpa using List.find?_some hf
    have h3 : x.2 = n := by simpa using e
    rw [← h2, ← h3]; exact h1

theorem apart_symm {e e' : Nat × Nat} (h : Apart e e') : Apart e' e := ⟨h.1.symm, h.2.symm⟩

theorem WF.apart {h : Heap} (w : h.WF) {e e' : Nat × Nat} (h1 : e ∈ h.live) (h2 : e' ∈ h.live) (hne : e.1 ≠ e'.1) : Apart e e' := by
  obtain ⟨i, hi, rfl⟩ := List.mem_iff_getElem.1 h1
  obtain ⟨j, hj, rfl⟩ := List.mem_iff_getElem.1 h2
  rcases Nat.lt_trichotomy i j with c | c | c
  · exact (List.pairwise_iff_getElem.1 w) i j hi hj c
  · subst c; exact absurd rfl hne
  · exact apart_symm ((List.pairwise_iff_getElem.1 w) j i hj hi c)

theorem inside_of {l : List (Nat × Nat)} {a n x : Nat} (h : (a, n) ∈ l) (h1 : a ≤ x) (h2 : x < a + n) : inside l x = true := by
  unfold inside
  rw [List.any_eq_true]
  exact ⟨_, h, by simp [h1, h2]⟩

theorem WF.alloc {h : Heap} (w : h.WF) (n : Nat) : (h.alloc n).1.WF ∧ h.B (h.alloc n).2 = none ∧
    ∀ x, (h.alloc n).1.B x = if x = (h.alloc n).2 then some (List.replicate n 0) else h.B x := by
  have hp := h.env.pick_ok h.calls h.live n
  refine ⟨List.pairwise_cons.2 ⟨hp, w⟩, ?_, ?_⟩
  · unfold B
    cases e : h.sizeAt (h.alloc n).2 with
    | none => rfl
    | some k => exact absurd rfl (hp _ (sizeAt_mem e)).1
  · intro x
    by_cases hx : x = (h.alloc n).2
    · rw [if_pos hx]
      have hs : (h.alloc n).1.sizeAt x = some n := by
        unfold sizeAt
        rw [hx]
        show Option.map _ (List.find? _ (((h.alloc n).2, n) :: h.live)) = _
        rw [List.find?_cons_of_pos (by simp)]; rfl
      rw [B_of hs]
      congr 1
      refine slice_of (by simp) fun i hi => ?_
      have h0 : (List.replicate n (0 : UInt8)).getD i 0 = 0 := by
        rw [List.getD_eq_getElem?_getD, List.getElem?_replicate, if_pos hi]; rfl
      rw [h0, hx]
      show (if _ then _ else _) = _
      exact if_pos ⟨Nat.le_add_right _ _, Nat.add_lt_add_left hi _⟩
    · rw [if_neg hx]
      have hs : (h.alloc n).1.sizeAt x = h.sizeAt x := by
        unfold sizeAt
        show Option.map _ (List.find? _ (((h.alloc n).2, n) :: h.live)) = _
        rw [List.find?_cons_of_neg (by simpa using Ne.symm hx)]
      unfold B
      rw [hs]
      cases e : h.sizeAt x with
      | none => rfl
      | some k =>
        rw [Option.map_some, Option.map_some]
        congr 1
        have hm := sizeAt_mem e
        have ha := hp _ hm
        refine slice_congr fun y h1 h2 => ?_
        show (if _ then _ else _) = _
        rw [if_neg, if_pos (inside_of hm h1 h2)]
        rintro ⟨c1, c2⟩
        have := ha.2
        dsimp only at this
        omega

theorem WF.put {h : Heap} (w : h.WF) {a : Nat} {b b' : List UInt8} (hb : h.B a = some b) (hl : b'.length = b.length) :
    ∃ h', h.put a b' = .ok h' ∧ h'.WF ∧ ∀ x, h'.B x = if x = a then some b' else h.B x := by
  unfold B at hb
  cases e : h.sizeAt a with
  | none => rw [e] at hb; cases hb
  | some n =>
    rw [e, Option.map_some] at hb
    injection hb with hb
    have hn : b'.length = n := by rw [hl, ← hb, slice_length]
    obtain ⟨g, hg⟩ : ∃ g : Nat → UInt8, g = fun x => if a ≤ x ∧ x < a + n then b'.getD (x - a) 0 else h.bytes x := ⟨_, rfl⟩
    refine ⟨{ h with bytes := g }, ?_, w, ?_⟩
    · unfold Heap.put; rw [e]; dsimp only; rw [if_pos hn, hg]
    · intro x
      by_cases hx : x = a
      · rw [if_pos hx, hx]
        refine (B_of (h := { h with bytes := g }) e).trans ?_
        congr 1
        refine slice_of hn fun i hi => ?_
        rw [hg]
        dsimp only
        rw [if_pos (by omega), Nat.add_sub_cancel_left]
      · rw [if_neg hx]
        cases e2 : h.sizeAt x with
        | none => exact (B_none (h := { h with bytes := g }) e2).trans (B_none e2).symm
        | some k =>
          refine (B_of (h := { h with bytes := g }) e2).trans (Eq.trans ?_ (B_of e2).symm)
          congr 1
          have ha := (w.apart (sizeAt_mem e) (sizeAt_mem e2) (Ne.symm hx)).2
          dsimp only at ha
          refine slice_congr fun y h1 h2 => ?_
          rw [hg]
          dsimp only
          rw [if_neg (by omega)]

theorem WF.free {h : Heap} (w : h.WF) {a : Nat} {b : List UInt8} (hb : h.B a = some b) :
    ∃ h', h.free a = .ok h' ∧ h'.WF ∧ ∀ x, h'.B x = if x = a then none else h.B x := by
  unfold B at hb
  cases e : h.sizeAt a with
  | none => rw [e] at hb; cases hb
  | some n =>
    obtain ⟨g, hg⟩ : ∃ g : Nat → UInt8, g = fun x => if inside (h.live.filter (fun e => e.1 != a)) x then h.bytes x else h.env.scribble h.calls x := ⟨_, rfl⟩
    refine ⟨{ h with bytes := g, live := h.live.filter (fun e => e.1 != a), calls := h.calls + 1 }, by unfold Heap.free; rw [e, hg], List.Pairwise.filter _ w, ?_⟩
    intro x
    by_cases hx : x = a
    · rw [if_pos hx]
      refine B_none ?_
      unfold sizeAt
      rw [List.find?_eq_none.2]
      · rfl
      · intro y hy
        have := (List.mem_filter.1 hy).2
        rw [hx]
        simpa using this
    · rw [if_neg hx]
      have hs : (h.live.filter (fun e => e.1 != a)).find? (fun e => e.1 == x) = h.live.find? (fun e => e.1 == x) := by
        rw [List.find?_filter]
        congr 1
        funext y
        by_cases c : y.1 = x
        · simp [c, hx]
        · simp [c]
      cases e2 : h.sizeAt x with
      | none =>
        refine (B_none ?_).trans (B_none e2).symm
        exact (congrArg (Option.map (fun e : Nat × Nat => e.2)) hs).trans e2
      | some k =>
        refine (B_of (h := { h with bytes := g, live := h.live.filter (fun e => e.1 != a), calls := h.calls + 1 }) ((congrArg (Option.map (fun e : Nat × Nat => e.2)) hs).trans e2)).trans (Eq.trans ?_ (B_of e2).symm)
        congr 1
        refine slice_congr fun y h1 h2 => ?_
        rw [hg]
        dsimp only
        rw [if_pos (inside_of (List.mem_filter.2 ⟨sizeAt_mem e2, by simpa using hx⟩) h1 h2)]

end Heap

/-- `ρ a p`: the block that the abstract heap calls `a` was put at address `p`. -/
structure Sim (ρ : Nat → Nat → Prop) (h : Poplar.Heap) (f : Heap) : Prop where
  wf : f.WF
  lt : ∀ a p, ρ a p → a < h.next
  fn : ∀ a p q, ρ a p → ρ a q → p = q
  inj : ∀ a b p, ρ a p → ρ b p → h.B a ≠ none → h.B b ≠ none → a = b
  val : ∀ a p b, ρ a p → h.B a = some b → f.B p = some b
  cov : ∀ p, f.B p ≠ none → ∃ a, ρ a p ∧ h.B a ≠ none
  tot : ∀ a, h.B a ≠ none → ∃ p, ρ a p

/-- placements are only ever added -/
def Le (ρ ρ' : Nat → Nat → Prop) : Prop := ∀ a p, ρ a p → ρ' a p

variable {ρ : Nat → Nat → Prop} {h : Poplar.Heap} {f : Heap}

theorem Sim.init (E : Env) : Sim (fun _ _ => False) {} (.init E) :=
  ⟨List.Pairwise.nil, fun _ _ h => h.elim, fun _ _ _ h => h.elim, fun _ _ _ h => h.elim, fun _ _ _ h => h.elim, fun _ hp => absurd rfl hp,
    fun a ha => absurd (by simp [Poplar.Heap.B]) ha⟩

/-- a relation that only changes the contents of the block `a`, keeping what is live or releasing `a` -/
theorem Sim.upd (s : Sim ρ h f) {a p : Nat} (r : ρ a p) (ha : h.B a ≠ none) {h' : Poplar.Heap} {f' : Heap} {o : Option (List UInt8)}
    (w : f'.WF) (hn : h'.next = h.next) (hB : ∀ x, h'.B x = if x = a then o else h.B x) (fB : ∀ x, f'.B x = if x = p then o else f.B x) :
    Sim ρ h' f' := by
  have hl : ∀ x, h'.B x ≠ none → h.B x ≠ none := by
    intro x hx
    rw [hB] at hx
    split at hx
    next e => rw [e]; exact ha
    next => exact hx
  refine ⟨w, fun a p q => by rw [hn]; exact s.lt a p q, s.fn, fun a b p r1 r2 h1 h2 => s.inj a b p r1 r2 (hl _ h1) (hl _ h2), ?_, ?_, fun x hx => s.tot x (hl x hx)⟩
  rotate_left
  · intro q hq
    rw [fB] at hq
    by_cases e : q = p
    · rw [if_pos e] at hq
      exact ⟨a, by rw [e]; exact r, by rw [hB, if_pos rfl]; exact hq⟩
    · rw [if_neg e] at hq
      obtain ⟨b, rb, hb⟩ := s.cov q hq
      refine ⟨b, rb, ?_⟩
      rw [hB, if_neg]
      · exact hb
      · intro eb; subst eb; exact e (s.fn _ _ _ rb r)
  intro b q c rb hb
  have hlb := hl b (by rw [hb]; simp)
  rw [hB] at hb
  rw [fB]
  by_cases e : b = a
  · subst e
    rw [if_pos rfl] at hb
    rw [if_pos (s.fn _ _ _ rb r), hb]
  · rw [if_neg e] at hb
    rw [if_neg, s.val b q c rb hb]
    intro hq
    subst hq
    exact e (s.inj _ _ _ rb r hlb ha)

theorem Sim.block (s : Sim ρ h f) {a p : Nat} (r : ρ a p) : RR Eq (h.block a) (f.block p) := by
  rw [Poplar.Heap.block_eq]
  cases e : h.B a with
  | none => exact RR.oob _
  | some b => exact ⟨b, Heap.block_ok (s.val a p b r e), rfl⟩

theorem Sim.put (s : Sim ρ h f) {a p : Nat} (r : ρ a p) {b b' : List UInt8} (hb : h.block a = .ok b) (hl : b'.length = b.length) :
    RR (Sim ρ) (h.put a b') (f.put p b') := by
  have hB := Poplar.Heap.block_inv hb
  obtain ⟨h', e1, e2, e3⟩ := Poplar.Heap.put_ok hB b'
  obtain ⟨f', g1, g2, g3⟩ := s.wf.put (s.val a p b r hB) hl
  rw [e1, g1]
  exact RR.ok (s.upd r (by rw [hB]; simp) g2 e2 e3 g3)

theorem Sim.free (s : Sim ρ h f) {a p : Nat} (r : ρ a p) : RR (Sim ρ) (h.free a) (f.free p) := by
  cases hB : h.B a with
  | none =>
    unfold Poplar.Heap.free
    rw [Poplar.Heap.block_none hB]
    exact RR.oob _
  | some b =>
    obtain ⟨h', e1, e2, e3⟩ := Poplar.Heap.free_ok hB
    obtain ⟨f', g1, g2, g3⟩ := s.wf.free (s.val a p b r hB)
    rw [e1, g1]
    exact RR.ok (s.upd r (by rw [hB]; simp) g2 e2 e3 g3)

/-- related pointers; both may be null -/
def PR (ρ : Nat → Nat → Prop) : Option Nat → Option Nat → Prop
  | none, none => True
  | some a, some p => ρ a p
  | _, _ => False

theorem Sim.freeOpt (s : Sim ρ h f) {a p : Option Nat} (r : PR ρ a p) : RR (Sim ρ) (h.freeOpt a) (f.freeOpt p) := by
  cases a <;> cases p
  · exact RR.ok s
  · exact r.elim
  · exact r.elim
  · exact s.free r

theorem Sim.alloc (s : Sim ρ h f) (n : Nat) :
    ∃ ρ', Le ρ ρ' ∧ Sim ρ' (h.alloc n).1 (f.alloc n).1 ∧ ρ' (h.alloc n).2 (f.alloc n).2 := by
  obtain ⟨a1, a2, a3⟩ := h.alloc_spec n
  obtain ⟨b1, b2, b3⟩ := s.wf.alloc n
  have hfresh : h.B h.next = none := by
    by_contra hc
    obtain ⟨b, hb⟩ := Option.ne_none_iff_exists'.1 hc
    have := Poplar.Heap.B_lt hb; omega
  refine ⟨fun a p => ρ a p ∨ (a = h.next ∧ p = (f.alloc n).2), fun _ _ r => Or.inl r, ?_, Or.inr ⟨a1, rfl⟩⟩
  refine ⟨b1, ?_, ?_, ?_, ?_, ?_, ?_⟩
  · rintro a p (r | ⟨r, _⟩)
    · have := s.lt a p r; omega
    · omega
  · rintro a p q (r | ⟨r, rp⟩) (t | ⟨t, tp⟩)
    · exact s.fn _ _ _ r t
    · have := s.lt a p r; omega
    · have := s.lt a q t; omega
    · rw [rp, tp]
  · rintro a b p (r | ⟨r, rp⟩) (t | ⟨t, tp⟩) h1 h2
    · have e1 := s.lt a p r
      have e2 := s.lt b p t
      rw [a3, if_neg (by omega)] at h1 h2
      exact s.inj _ _ _ r t h1 h2
    · exfalso
      have e1 := s.lt a p r
      rw [a3, if_neg (by omega)] at h1
      obtain ⟨c, hc⟩ := Option.ne_none_iff_exists'.1 h1
      have := s.val a p c r hc
      rw [tp, b2] at this; cases this
    · exfalso
      have e1 := s.lt b p t
      rw [a3, if_neg (show ¬ b = h.next by omega)] at h2
      obtain ⟨c, hc⟩ := Option.ne_none_iff_exists'.1 h2
      have := s.val b p c t hc
      rw [rp, b2] at this; cases this
    · rw [r, t]
  · rintro a p b (r | ⟨r, rp⟩) hb
    · have e1 := s.lt a p r
      rw [a3, if_neg (by omega)] at hb
      have := s.val a p b r hb
      rw [b3, if_neg, this]
      intro hp
      rw [hp, b2] at this; cases this
    · rw [a3, if_pos r] at hb
      rw [b3, if_pos rp, hb]
  · intro p hp
    rw [b3] at hp
    by_cases e : p = (f.alloc n).2
    · exact ⟨h.next, Or.inr ⟨rfl, e⟩, by rw [a3, if_pos rfl]; simp⟩
    · rw [if_neg e] at hp
      obtain ⟨a, r, ha⟩ := s.cov p hp
      have := s.lt a p r
      exact ⟨a, Or.inl r, by rw [a3, if_neg (by omega)]; exact ha⟩
  · intro a ha
    by_cases e : a = h.next
    · exact ⟨_, Or.inr ⟨e, rfl⟩⟩
    · rw [a3, if_neg e] at ha
      obtain ⟨p, r⟩ := s.tot a ha
      exact ⟨p, Or.inl r⟩

theorem Sim.read (s : Sim ρ h f) {a p : Nat} (r : ρ a p) (off : Nat) : RR Eq (h.read a off) (f.read p off) :=
  (s.block r).bind fun b c _ e => by subst e; exact RR.rfl' _

theorem Sim.load (s : Sim ρ h f) {a p : Nat} (r : ρ a p) (off n : Nat) : RR Eq (h.load a off n) (f.load p off n) :=
  (s.block r).bind fun b c _ e => by subst e; exact RR.rfl' _

theorem Sim.write (s : Sim ρ h f) {a p : Nat} (r : ρ a p) (off : Nat) (x : UInt8) : RR (Sim ρ) (h.write a off x) (f.write p off x) :=
  (s.block r).bind fun b c hb e => by
    subst e
    split
    · exact s.put r hb (by simp)
    · exact RR.oob _

theorem Sim.copyIn (xs : List UInt8) : ∀ {h : Poplar.Heap} {f : Heap}, Sim ρ h f → ∀ {a p : Nat}, ρ a p → ∀ (off : Nat),
    RR (Sim ρ) (h.copyIn a off xs) (f.copyIn p off xs) := by
  induction xs with
  | nil => intro h f s a p r off; exact RR.ok s
  | cons x xs ih => intro h f s a p r off; exact (s.write r off x).bind fun _ _ _ s => ih s r _

theorem Sim.copyBytes (n : Nat) : ∀ {h : Poplar.Heap} {f : Heap}, Sim ρ h f → ∀ {a p b q : Nat}, ρ a p → ρ b q → ∀ (d s : Nat),
    RR (Sim ρ) (h.copyBytes a d b s n) (f.copyBytes p d q s n) := by
  induction n with
  | zero => intro h f s a p b q r t d o; exact RR.ok s
  | succ n ih =>
    intro h f s a p b q r t d o
    exact (s.read t o).bind fun x y _ e => by
      subst e
      exact (s.write r d x).bind fun _ _ _ s => ih s r t _ _

theorem encode_length {b b' : List UInt8} {off v n : Nat} (e : VByte.encode b off v = .ok (b', n)) : b'.length = b.length := by
  unfold VByte.encode at e
  dsimp only at e
  split at e
  · injection e with e; injection e with e _
    rw [← e]; simp only [List.length_append, List.length_take, List.length_drop]; omega
  · cases e

theorem Sim.encode (s : Sim ρ h f) {a p : Nat} (r : ρ a p) (off v : Nat) :
    RR (fun x y => Sim ρ x.1 y.1 ∧ x.2 = y.2) (h.encode a off v) (f.encode p off v) :=
  (s.block r).bind fun b c hb e => by
    subst e
    refine RR.same _ fun x hx => ?_
    obtain ⟨b', n⟩ := x
    exact (s.put r hb (encode_length hx)).bind fun _ _ _ s => RR.ok ⟨s, rfl⟩

theorem Sim.cmpPlain (s : Sim ρ h f) {a p : Nat} (r : ρ a p) : ∀ (key : List UInt8) (i : Nat),
    RR Eq (Poplar.cmpPlain h a key i) (Phys.cmpPlain f p key i) := by
  intro key
  induction key with
  | nil => intro i; exact RR.ok rfl
  | cons k ks ih =>
    intro i
    exact (s.read r i).bind fun x y _ e => by
      subst e
      split
      · exact RR.ok rfl
      · exact ih _

end Phys
end Poplar
