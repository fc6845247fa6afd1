import Verif.Model.Heap
import Verif.Proof.Basic
import Verif.Proof.VByte
import Mathlib.Tactic.ByContra
/-
  Facts about the heap model.
-/
namespace Poplar

/-- overwrite `xs.length` bytes from `off` on -/
def patch (b : List UInt8) (off : Nat) (xs : List UInt8) : List UInt8 :=
  b.take off ++ xs ++ b.drop (off + xs.length)

theorem patch_length {b : List UInt8} {off : Nat} {xs : List UInt8} (h : off + xs.length ≤ b.length) :
    (patch b off xs).length = b.length := by
  simp [patch]; omega

theorem patch_app {a m c : List UInt8} {off : Nat} {xs : List UInt8} (ha : a.length = off) (hm : m.length = xs.length) :
    patch (a ++ m ++ c) off xs = a ++ xs ++ c := by
  subst ha
  have h1 : (a ++ m ++ c).take a.length = a := by simp
  have h2 : (a ++ m ++ c).drop (a.length + xs.length) = c := by
    rw [← hm, ← List.length_append]; simp
  rw [patch, h1, h2]

theorem patch_nil (b : List UInt8) (off : Nat) : patch b off [] = b := by simp [patch]

theorem patch_cons {b : List UInt8} {off : Nat} {x : UInt8} {xs : List UInt8} (h : off < b.length) :
    patch (b.set off x) (off + 1) xs = patch b off (x :: xs) := by
  unfold patch
  rw [List.drop_set_of_lt (by omega), List.take_succ_eq_append_getElem (by simp; omega), List.getElem_set_self, List.take_set_of_le (Nat.le_refl _)]
  simp only [List.length_cons, List.append_assoc, List.cons_append, List.nil_append]
  rw [show off + 1 + xs.length = off + (xs.length + 1) by omega]

namespace Heap

/-- contents of block `a`, if live -/
def B (h : Heap) (a : Nat) : Option (List UInt8) := (h.blocks[a]?).join

/-- number of addresses used so far -/
def next (h : Heap) : Nat := h.blocks.size

theorem block_eq (h : Heap) (a : Nat) : h.block a = match h.B a with | some b => .ok b | none => .error .oob := by
  unfold block B
  cases h.blocks[a]? with
  | none => rfl
  | some x => cases x <;> rfl

theorem block_ok {h : Heap} {a : Nat} {b : List UInt8} (hb : h.B a = some b) : h.block a = .ok b := by
  rw [block_eq, hb]

theorem B_lt {h : Heap} {a : Nat} {b : List UInt8} (hb : h.B a = some b) : a < h.next := by
  by_contra hc
  unfold B at hb
  rw [Array.getElem?_eq_none (by unfold next at hc; omega)] at hb
  cases hb

theorem alloc_spec (h : Heap) (n : Nat) : (h.alloc n).2 = h.next ∧ (h.alloc n).1.next = h.next + 1 ∧
    ∀ a, (h.alloc n).1.B a = if a = h.next then some (List.replicate n 0) else h.B a := by
  refine ⟨rfl, by simp [alloc, next], ?_⟩
  intro a
  by_cases e : a = h.blocks.size
  · rw [if_pos (show a = h.next from e)]; simp [alloc, B, e]
  · rw [if_neg (show ¬ a = h.next from e)]; simp [alloc, B, Array.getElem?_push, e]

theorem put_ok {h : Heap} {a : Nat} {b : List UInt8} (hb : h.B a = some b) (b' : List UInt8) :
    ∃ h', h.put a b' = .ok h' ∧ h'.next = h.next ∧ ∀ x, h'.B x = if x = a then some b' else h.B x := by
  refine ⟨{ blocks := h.blocks.setIfInBounds a (some b') }, ?_, by simp [next], ?_⟩
  · unfold put; rw [block_ok hb]; rfl
  · intro x
    have := B_lt hb
    simp only [B, Array.getElem?_setIfInBounds]
    unfold next at this
    split
    next e => subst e; simp
    next e => rw [if_neg (Ne.symm e)]

theorem free_ok {h : Heap} {a : Nat} {b : List UInt8} (hb : h.B a = some b) :
    ∃ h', h.free a = .ok h' ∧ h'.next = h.next ∧ ∀ x, h'.B x = if x = a then none else h.B x := by
  refine ⟨{ blocks := h.blocks.setIfInBounds a none }, ?_, by simp [next], ?_⟩
  · unfold free; rw [block_ok hb]; rfl
  · intro x
    have := B_lt hb
    simp only [B, Array.getElem?_setIfInBounds]
    unfold next at this
    split
    next e => subst e; simp
    next e => rw [if_neg (Ne.symm e)]

theorem read_ok {h : Heap} {a off : Nat} {b : List UInt8} (hb : h.B a = some b) (ho : off < b.length) :
    h.read a off = .ok b[off] := by
  unfold read; rw [block_ok hb]
  simp only [R.bind_ok, List.getElem?_eq_getElem ho]

theorem copyIn_ok (xs : List UInt8) : ∀ {h : Heap} {a off : Nat} {b : List UInt8}, h.B a = some b → off + xs.length ≤ b.length →
    ∃ h', h.copyIn a off xs = .ok h' ∧ h'.next = h.next ∧
      ∀ x, h'.B x = if x = a then some (patch b off xs) else h.B x := by
  induction xs with
  | nil =>
    intro h a off b hb _
    refine ⟨h, rfl, rfl, ?_⟩
    intro x; split
    next e => rw [e, patch_nil, hb]
    next => rfl
  | cons y ys ih =>
    intro h a off b hb hl
    simp only [List.length_cons] at hl
    obtain ⟨h1, p1, p2, p3⟩ := put_ok hb (b.set off y)
    have hb1 : h1.B a = some (b.set off y) := by rw [p3]; simp
    obtain ⟨h2, q1, q2, q3⟩ := ih (off := off + 1) hb1 (by simp; omega)
    refine ⟨h2, ?_, q2.trans p2, ?_⟩
    · unfold copyIn write
      rw [block_ok hb]
      simp only [R.bind_ok, if_pos (show off < b.length by omega), p1]
      exact q1
    · intro x
      rw [q3, p3, patch_cons (by omega)]
      split <;> rfl

theorem copyBytes_ok (n : Nat) : ∀ {h : Heap} {dst doff src soff : Nat} {b c : List UInt8}, dst ≠ src →
    h.B dst = some b → h.B src = some c → doff + n ≤ b.length → soff + n ≤ c.length →
    ∃ h', h.copyBytes dst doff src soff n = .ok h' ∧ h'.next = h.next ∧
      ∀ x, h'.B x = if x = dst then some (patch b doff ((c.drop soff).take n)) else h.B x := by
  induction n with
  | zero =>
    intro h dst doff src soff b c _ hb _ _ _
    refine ⟨h, rfl, rfl, ?_⟩
    intro x; split
    next e => rw [e, List.take_zero, patch_nil, hb]
    next => rfl
  | succ n ih =>
    intro h dst doff src soff b c hne hb hc h1 h2
    obtain ⟨h1', p1, p2, p3⟩ := put_ok hb (b.set doff c[soff])
    have hb1 : h1'.B dst = some (b.set doff c[soff]) := by rw [p3]; simp
    have hc1 : h1'.B src = some c := by rw [p3, if_neg (Ne.symm hne)]; exact hc
    obtain ⟨h2', q1, q2, q3⟩ := ih (doff := doff + 1) (soff := soff + 1) hne hb1 hc1 (by simp; omega) (by omega)
    refine ⟨h2', ?_, q2.trans p2, ?_⟩
    · unfold copyBytes write
      rw [read_ok hc (by omega), block_ok hb]
      simp only [R.bind_ok, if_pos (show doff < b.length by omega), p1]
      exact q1
    · intro x
      rw [q3, p3, patch_cons (by omega), List.drop_eq_getElem_cons (i := soff) (by omega), List.take_succ_cons]
      split <;> rfl

theorem encode_ok {h : Heap} {a off val : Nat} {b : List UInt8} (hb : h.B a = some b)
    (hl : off + (VByte.bytesGo VByte.fuel val).length ≤ b.length) :
    ∃ h', h.encode a off val = .ok (h', (VByte.bytesGo VByte.fuel val).length) ∧ h'.next = h.next ∧
      ∀ x, h'.B x = if x = a then some (patch b off (VByte.bytesGo VByte.fuel val)) else h.B x := by
  obtain ⟨h1, p1, p2, p3⟩ := put_ok hb (patch b off (VByte.bytesGo VByte.fuel val))
  refine ⟨h1, ?_, p2, p3⟩
  unfold encode
  rw [block_ok hb]
  simp only [R.bind_ok, VByte.encode, if_pos hl]
  unfold patch at p1
  rw [p1]; rfl

theorem load_ok {h : Heap} {a off vs : Nat} {b : List UInt8} (hb : h.B a = some b) (hl : off + vs ≤ b.length) :
    h.load a off vs = .ok ((b.drop off).take vs) := by
  unfold load; rw [block_ok hb]; simp only [R.bind_ok, if_pos hl]

end Heap
end Poplar
