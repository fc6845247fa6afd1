import Verif.Proof.Reads
import Verif.Proof.Aliases
/-
  The byte by byte label stores: what the rest of the proof of C51 needs to know about them.
-/
namespace Poplar
open Spec

theorem R.bind_pure' {α : Type} (x : R α) : (x >>= fun a => (pure a : R α)) = x := by cases x <;> rfl

/-- `q` is not a byte of a value -/
def NlmSpec.Outside {ν : Type} {ops : NlmOps ν} {kind : Kind} {vs : Nat} (NS : NlmSpec ops kind vs) (m : ν) (q : Loc) : Prop :=
  ∀ p j, NS.At m p j → q.blk = p.blk → q.off < p.off ∨ p.off + vs ≤ q.off

/-- byte `j` of a value -/
def Loc.plus (l : Loc) (j : Nat) : Loc := ⟨l.blk, l.off + j⟩

structure ByteSpec {ν : Type} {ops : NlmOps ν} {kind : Kind} {vs : Nat} (B : ByteOps ν) (NS : NlmSpec ops kind vs) : Prop where
  run : ∀ m i key, (B.compare m i key).run (B.byte m) = ops.compare m i key
  within : ∀ c m, NS.Inv c m → ∀ i e l v, NS.L m i e = some (l, v) → ∀ key, Sep key l →
    (B.compare m i key).Within (NS.Outside m) (B.byte m)
  put : ∀ m l x y, B.byte m l = .ok y → ∃ m', ops.store m l [x] = .ok m' ∧
    (∀ q, B.byte m' q = if q = l then .ok x else B.byte m q) ∧ B.compare m' = B.compare m
  cons : ∀ m l x v, ops.store m l (x :: v) = ops.store m l [x] >>= fun m => ops.store m l.next v
  nil : ∀ m l, ops.store m l [] ≠ .error .oob → ops.store m l [] = .ok m
  load : ∀ m l v, ops.load m l = .ok v ↔ v.length = vs ∧ ∀ j < vs, B.byte m (l.plus j) = keyAt v j

/-! ### heap blocks -/

theorem Heap.byte_ok {h : Heap} {a off : Nat} {y : UInt8} (e : h.byte ⟨.heap a, off⟩ = .ok y) :
    ∃ b, h.B a = some b ∧ off < b.length := by
  rw [Heap.byte_heap] at e
  unfold Heap.read at e
  rw [Heap.block_eq] at e
  cases hb : h.B a with
  | none => rw [hb] at e; cases e
  | some b =>
    rw [hb] at e
    refine ⟨b, rfl, ?_⟩
    by_contra hc
    simp only [R.bind_ok, List.getElem?_eq_none (show b.length ≤ off by omega)] at e
    cases e

theorem Heap.byte_write {h : Heap} {a off : Nat} {x y : UInt8} (e : h.byte ⟨.heap a, off⟩ = .ok y) :
    ∃ h', h.copyIn a off [x] = .ok h' ∧ ∀ q, h'.byte q = if q = ⟨.heap a, off⟩ then .ok x else h.byte q := by
  obtain ⟨b, hb, ho⟩ := Heap.byte_ok e
  obtain ⟨h', p1, _, p3⟩ := Heap.copyIn_ok [x] (h := h) (a := a) (off := off) hb (by simpa using (show off + 1 ≤ b.length from ho))
  refine ⟨h', p1, ?_⟩
  have hpatch : patch b off [x] = b.set off x := by
    rw [← patch_cons ho, patch_nil]
  rintro ⟨blk, o⟩
  cases blk with
  | buf g => simp [Heap.byte]
  | heap c =>
    simp only [Heap.byte, Heap.read, Heap.block_eq, p3]
    by_cases hc : c = a
    · subst hc
      simp only [if_true, hb, R.bind_ok, hpatch]
      by_cases hoo : o = off
      · subst hoo
        rw [if_pos rfl, List.getElem?_set_self ho]
      · rw [if_neg (by simpa using hoo), List.getElem?_set_ne (Ne.symm hoo)]
    · rw [if_neg hc, if_neg (by simp [hc])]

theorem Heap.copyIn_cons (h : Heap) (a off : Nat) (x : UInt8) (v : List UInt8) :
    h.copyIn a off (x :: v) = h.copyIn a off [x] >>= fun h => h.copyIn a (off + 1) v := by
  simp only [Heap.copyIn]
  cases h.write a off x <;> rfl

theorem load_bytes {bs : List UInt8} {off vs : Nat} (hv : 0 < vs) (v : List UInt8) :
    (if off + vs ≤ bs.length then (Except.ok ((bs.drop off).take vs) : R (List UInt8)) else .error .oob) = .ok v ↔
      v.length = vs ∧ ∀ j < vs, keyAt bs (off + j) = keyAt v j := by
  constructor
  · intro h
    split at h
    · cases h
      refine ⟨by simp; omega, fun j hj => ?_⟩
      unfold keyAt
      rw [List.getElem?_take_of_lt hj, List.getElem?_drop]
    · cases h
  · rintro ⟨h1, h2⟩
    have hle : off + vs ≤ bs.length := by
      have := h2 (vs - 1) (by omega)
      unfold keyAt at this
      rw [List.getElem?_eq_getElem (show vs - 1 < v.length by omega)] at this
      by_contra hc
      rw [List.getElem?_eq_none (by omega)] at this
      cases this
    rw [if_pos hle]
    congr 1
    refine List.ext_getElem (by simp; omega) fun j j1 j2 => ?_
    have := h2 j (by omega)
    unfold keyAt at this
    rw [List.getElem?_eq_getElem (show off + j < bs.length by omega), List.getElem?_eq_getElem j2] at this
    simp only [Except.ok.injEq] at this
    rw [List.getElem_take, List.getElem_drop]
    exact this

theorem Heap.load_iff {h : Heap} {a off vs : Nat} (hv : 0 < vs) (v : List UInt8) :
    h.load a off vs = .ok v ↔ v.length = vs ∧ ∀ j < vs, h.byte ⟨.heap a, off + j⟩ = keyAt v j := by
  unfold Heap.load
  rw [Heap.block_eq]
  cases hb : h.B a with
  | none =>
    constructor
    · intro e; cases e
    · rintro ⟨h1, h2⟩
      have := h2 0 hv
      rw [Heap.byte_none hb] at this
      unfold keyAt at this
      rw [List.getElem?_eq_getElem (show 0 < v.length by omega)] at this
      cases this
  | some bs =>
    rw [R.bind_ok, load_bytes hv v]
    simp only [Heap.holds hb _]

/-! ### the plain label stores -/

theorem PlainBonsaiNlm.byteSpec {vs : Nat} (hv : 0 < vs) : ByteSpec PlainBonsaiNlm.bytes (PlainBonsaiNlm.specB vs) where
  run m i key := plainCompareR_run m.heap m.ptrs i key
  within c m h i e l v hL key he := plainCompareR_within (vs := vs) h.1.2 hL he _ fun q hq => hq
  put m l x y h := by
    obtain ⟨blk, off⟩ := l
    cases blk with
    | buf g => cases h
    | heap a =>
      obtain ⟨h', p1, p2⟩ := Heap.byte_write (x := x) (show m.heap.byte ⟨.heap a, off⟩ = .ok y from h)
      refine ⟨{ m with heap := h' }, ?_, p2, rfl⟩
      show (do pure { m with heap := ← m.heap.copyIn a off [x] } : R PlainBonsaiNlm) = _
      rw [p1]; rfl
  cons m l x v := by
    obtain ⟨blk, off⟩ := l
    cases blk with
    | buf g => rfl
    | heap a =>
      show (do pure { m with heap := ← m.heap.copyIn a off (x :: v) } : R PlainBonsaiNlm) =
        ((do pure { m with heap := ← m.heap.copyIn a off [x] } : R PlainBonsaiNlm) >>= fun m' =>
          (do pure { m' with heap := ← m'.heap.copyIn a (off + 1) v } : R PlainBonsaiNlm))
      rw [Heap.copyIn_cons]
      cases m.heap.copyIn a off [x] <;> rfl
  nil m l h := by
    obtain ⟨blk, off⟩ := l
    cases blk with
    | buf g => exact absurd rfl h
    | heap a => rfl
  load m l v := by
    obtain ⟨blk, off⟩ := l
    cases blk with
    | heap a => exact Heap.load_iff hv v
    | buf g =>
      constructor
      · intro h; cases h
      · rintro ⟨h1, h2⟩
        have := h2 0 hv
        rw [keyAt, List.getElem?_eq_getElem (show 0 < v.length by omega)] at this
        cases this

theorem PlainFkNlm.byteSpec {vs : Nat} (hv : 0 < vs) : ByteSpec PlainFkNlm.bytes (PlainFkNlm.spec vs) where
  run m i key := plainCompareR_run m.heap m.ptrs i key
  within c m h i e l v hL key he := plainCompareR_within (vs := vs) h hL he _ fun q hq => hq
  put m l x y h := by
    obtain ⟨blk, off⟩ := l
    cases blk with
    | buf g => cases h
    | heap a =>
      obtain ⟨h', p1, p2⟩ := Heap.byte_write (x := x) (show m.heap.byte ⟨.heap a, off⟩ = .ok y from h)
      refine ⟨{ m with heap := h' }, ?_, p2, rfl⟩
      show (do pure { m with heap := ← m.heap.copyIn a off [x] } : R PlainFkNlm) = _
      rw [p1]; rfl
  cons m l x v := by
    obtain ⟨blk, off⟩ := l
    cases blk with
    | buf g => rfl
    | heap a =>
      show (do pure { m with heap := ← m.heap.copyIn a off (x :: v) } : R PlainFkNlm) =
        ((do pure { m with heap := ← m.heap.copyIn a off [x] } : R PlainFkNlm) >>= fun m' =>
          (do pure { m' with heap := ← m'.heap.copyIn a (off + 1) v } : R PlainFkNlm))
      rw [Heap.copyIn_cons]
      cases m.heap.copyIn a off [x] <;> rfl
  nil m l h := by
    obtain ⟨blk, off⟩ := l
    cases blk with
    | buf g => exact absurd rfl h
    | heap a => rfl
  load m l v := by
    obtain ⟨blk, off⟩ := l
    cases blk with
    | heap a => exact Heap.load_iff hv v
    | buf g =>
      constructor
      · intro h; cases h
      · rintro ⟨h1, h2⟩
        have := h2 0 hv
        rw [keyAt, List.getElem?_eq_getElem (show 0 < v.length by omega)] at this
        cases this

/-! ### the compact label stores -/

theorem CompactBonsaiNlm.compareR_run (W vs : Nat) (m : CompactBonsaiNlm) (i : Nat) (key : List UInt8) :
    (CompactBonsaiNlm.compareR W vs m i key).run m.heap.byte = CompactBonsaiNlm.compare W vs m i key := by
  simp only [CompactBonsaiNlm.compareR, CompactBonsaiNlm.compare, Reads.run_bind, Reads.run_ret]
  congr 1
  funext p
  cases p with
  | none => rfl
  | some a =>
    simp only [Reads.run_bind, Reads.run_ret]
    congr 1
    funext w
    congr 1
    funext bit
    congr 1
    funext _
    congr 1
    funext off
    rw [Heap.block_eq]
    cases hb : m.heap.B a with
    | none => rw [compareMemR_none (Heap.byte_none hb)]; rfl
    | some bs => rw [compareMemR_run (Heap.holds hb)]; rfl

theorem CompactBonsaiNlm.byteSpec {W vs : Nat} (hv : 0 < vs) (hw : W = 8 ∨ W = 16 ∨ W = 32 ∨ W = 64) (hv2 : vs + 1 < 2 ^ 64) :
    ByteSpec (CompactBonsaiNlm.bytes W vs) (CompactBonsaiNlm.specB W vs hw hv2) where
  run m i key := CompactBonsaiNlm.compareR_run W vs m i key
  within c m h i e l v hL key he := by
    obtain ⟨g, ho⟩ := h.1.2.2
    have hW : 0 < W := by omega
    obtain ⟨hi, a, w, p, h1, h2, h3, h4, h5, h6, h7, h8⟩ := ho.isSome hW hL
    have hm := Nat.mod_lt i hW
    show (CompactBonsaiNlm.compareR W vs m i key).Within _ m.heap.byte
    simp only [CompactBonsaiNlm.compareR]
    refine Reads.within_bind (Reads.within_ret _ _ _) fun x hx => ?_
    rw [Reads.run_ret, rd_of_some h1] at hx
    cases hx
    dsimp only
    refine Reads.within_bind (Reads.within_ret _ _ _) fun x hx => ?_
    rw [Reads.run_ret, rd_of_some h2] at hx
    cases hx
    refine Reads.within_bind (Reads.within_ret _ _ _) fun _ _ => Reads.within_bind (Reads.within_ret _ _ _) fun _ _ =>
      Reads.within_bind (Reads.within_ret _ _ _) fun x hx => ?_
    rw [Reads.run_ret, BitTools.popcntMask_ok hw h3.wlt hm] at hx
    cases hx
    refine Reads.within_bind (compareMemR_within (ps := g (i / W)) (Heap.holds h4) h3.small ?_ false h6 h7.len key) fun _ _ => trivial
    rintro off hoff q j hA hblk
    obtain ⟨a', w', p', q1, q2, q3, q4, q5, q6, q7, rfl⟩ := ho.loc hW hA
    simp only [Blk.heap.injEq] at hblk
    subst hblk
    have hc := ho.inj _ _ _ h1 q1
    rw [← hc] at q6 ⊢
    have := hoff _ _ q6 q7.len
    have := q7.len
    show off < _ ∨ _ ≤ off
    dsimp only
    omega
  put m l x y h := by
    obtain ⟨blk, off⟩ := l
    cases blk with
    | buf g => cases h
    | heap a =>
      obtain ⟨h', p1, p2⟩ := Heap.byte_write (x := x) (show m.heap.byte ⟨.heap a, off⟩ = .ok y from h)
      refine ⟨{ m with heap := h' }, ?_, p2, rfl⟩
      show (do pure { m with heap := ← m.heap.copyIn a off [x] } : R CompactBonsaiNlm) = _
      rw [p1]; rfl
  cons m l x v := by
    obtain ⟨blk, off⟩ := l
    cases blk with
    | buf g => rfl
    | heap a =>
      show (do pure { m with heap := ← m.heap.copyIn a off (x :: v) } : R CompactBonsaiNlm) =
        ((do pure { m with heap := ← m.heap.copyIn a off [x] } : R CompactBonsaiNlm) >>= fun m' =>
          (do pure { m' with heap := ← m'.heap.copyIn a (off + 1) v } : R CompactBonsaiNlm))
      rw [Heap.copyIn_cons]
      cases m.heap.copyIn a off [x] <;> rfl
  nil m l h := by
    obtain ⟨blk, off⟩ := l
    cases blk with
    | buf g => exact absurd rfl h
    | heap a => rfl
  load m l v := by
    obtain ⟨blk, off⟩ := l
    cases blk with
    | heap a => exact Heap.load_iff hv v
    | buf g =>
      constructor
      · intro h; cases h
      · rintro ⟨h1, h2⟩
        have := h2 0 hv
        rw [keyAt, List.getElem?_eq_getElem (show 0 < v.length by omega)] at this
        cases this

namespace CompactFkNlm

theorem holds {m : CompactFkNlm} {c : Nat} {b : Blk} {bs : List UInt8} (h : memOf m c = some (b, bs)) : Holds m.byte b bs := by
  rcases memOf_blk h with ⟨q1, a, rfl, q3, q4⟩ | ⟨q1, rfl, q2⟩
  · intro off
    exact Heap.holds q4 off
  · intro off
    show (if m.chunkPtrs.size = m.chunkPtrs.size then keyAt m.chunkBuf off else .error .oob) = _
    rw [if_pos rfl, q2]

theorem compareR_run (W vs : Nat) (m : CompactFkNlm) (i : Nat) (key : List UInt8) :
    (compareR W vs m i key).run m.byte = compare W vs m i key := by
  simp only [compareR, compare, Reads.run_bind, Reads.run_ret]
  congr 1
  funext _
  split
  · simp only [Reads.run_bind, Reads.run_ret]
    congr 1
    funext a
    rw [Heap.block_eq]
    cases hb : m.heap.B a with
    | none =>
      rw [compareMemR_none (b := .heap a) (fun off => show m.byte ⟨.heap a, off⟩ = _ from Heap.byte_none hb off)]; rfl
    | some bs =>
      rw [compareMemR_run (b := .heap a) (bs := bs) (fun off => show m.byte ⟨.heap a, off⟩ = _ from Heap.holds hb off)]; rfl
  · simp only [Reads.run_bind, Reads.run_ret]
    congr 1
    funext _
    rw [compareMemR_run (b := .buf m.chunkPtrs.size) (bs := m.chunkBuf) (fun off => show (if _ then _ else _) = _ by rw [if_pos rfl])]
    rfl

theorem overwrite_cons (b : List UInt8) (off : Nat) (x : UInt8) (v : List UInt8) :
    overwrite b off (x :: v) = overwrite b off [x] >>= fun b => overwrite b (off + 1) v := by
  simp only [overwrite]
  split <;> rfl

theorem byteSpec {W vs : Nat} (hW : 0 < W) (hv : 0 < vs) (hv2 : vs + 1 < 2 ^ 64) : ByteSpec (CompactFkNlm.bytes W vs) (spec W vs hW hv hv2) where
  run m i key := compareR_run W vs m i key
  within c m h i e l v hL key he := by
    obtain ⟨g, ho⟩ := h
    obtain ⟨hi, b, p, h1, h2, h3, h4, h5⟩ := ho.isSome hW hv hL
    obtain ⟨h6, _⟩ := ho.pos hW hi
    have main : (compareMemR true vs b (i % W) key).Within ((spec W vs hW hv hv2).Outside m) m.byte := by
      refine compareMemR_within (ps := g (i / W)) (holds h1) (ho.small h6) ?_ true h2 h4.len key
      rintro off hoff q j ⟨hj, hA⟩ hblk
      obtain ⟨mem, o, p', a1, a2, a3, a4⟩ := hA
      obtain ⟨b', p2, e1, e2, e3, _⟩ := ho.entry hW hj
      have hc : j / W = i / W := by
        rw [← hblk] at a1
        rcases memOf_blk h1 with ⟨q1, a, r1, q3, q4⟩ | ⟨q1, r1, q2⟩ <;> rcases memOf_blk a1 with ⟨s1, a', t1, s3, s4⟩ | ⟨s1, t1, s2⟩
        · simp only at t1
          rw [r1] at t1
          injection t1 with t1
          subst t1
          exact ho.inj _ _ _ s3 q3
        · simp only at t1
          rw [r1] at t1; cases t1
        · simp only at t1
          rw [r1] at t1; cases t1
        · rw [q1, s1]
      rw [a1] at e1
      injection e1 with e1
      injection e1 with _ e1
      subst e1
      rw [e3] at a2
      simp only [Option.some.injEq, Prod.mk.injEq] at a2
      obtain ⟨rfl, rfl⟩ := a2
      rw [hc] at e2 a4
      have := hoff _ _ e2 a3
      show off < _ ∨ _ ≤ off
      rw [a4]
      omega
    show (compareR W vs m i key).Within _ m.byte
    simp only [compareR]
    refine Reads.within_bind (Reads.within_ret _ _ _) fun _ _ => ?_
    rcases memOf_blk h1 with ⟨q1, a, rfl, q3, q4⟩ | ⟨q1, rfl, q2⟩
    · rw [if_pos q1]
      refine Reads.within_bind (Reads.within_ret _ _ _) fun x hx => ?_
      rw [Reads.run_ret, rd_of_some q3] at hx
      cases hx
      exact Reads.within_bind main fun _ _ => trivial
    · rw [if_neg (by omega)]
      refine Reads.within_bind (Reads.within_ret _ _ _) fun _ _ => ?_
      exact Reads.within_bind main fun _ _ => trivial
  put m l x y h := by
    obtain ⟨blk, off⟩ := l
    cases blk with
    | heap a =>
      obtain ⟨h', p1, p2⟩ := Heap.byte_write (x := x) (show m.heap.byte ⟨.heap a, off⟩ = .ok y from h)
      refine ⟨{ m with heap := h' }, ?_, ?_, rfl⟩
      · show (do pure { m with heap := ← m.heap.copyIn a off [x] } : R CompactFkNlm) = _
        rw [p1]; rfl
      · rintro ⟨blk, o⟩
        cases blk with
        | heap c => exact p2 ⟨.heap c, o⟩
        | buf g => rw [if_neg (by simp)]; rfl
    | buf g =>
      have h : (if g = m.chunkPtrs.size then keyAt m.chunkBuf off else .error .oob) = .ok y := h
      split at h
      next hg =>
        have ho : off < m.chunkBuf.length := by
          by_contra hc
          rw [keyAt, List.getElem?_eq_none (by omega)] at h; cases h
        refine ⟨{ m with chunkBuf := m.chunkBuf.set off x }, ?_, ?_, rfl⟩
        · show (if g = m.chunkPtrs.size then (do pure { m with chunkBuf := ← overwrite m.chunkBuf off [x] } : R CompactFkNlm) else _) = _
          rw [if_pos hg]
          simp only [overwrite, if_pos ho]; rfl
        · rintro ⟨blk, o⟩
          cases blk with
          | heap c => rw [if_neg (by simp)]; rfl
          | buf g' =>
            show (if g' = m.chunkPtrs.size then keyAt (m.chunkBuf.set off x) o else .error .oob) =
              if _ then _ else (if g' = m.chunkPtrs.size then keyAt m.chunkBuf o else .error .oob)
            by_cases hg' : g' = m.chunkPtrs.size
            · rw [if_pos hg', if_pos hg']
              by_cases hoo : o = off
              · subst hoo
                rw [if_pos (by rw [hg, hg']), keyAt, List.getElem?_set_self ho]
              · rw [if_neg (by simp [hoo]), keyAt, keyAt, List.getElem?_set_ne (Ne.symm hoo)]
            · rw [if_neg hg', if_neg hg', if_neg (by
                intro e
                injection e with e _
                injection e with e
                exact hg' (e.trans hg))]
      · cases h
  cons m l x v := by
    obtain ⟨blk, off⟩ := l
    cases blk with
    | heap a =>
      show (do pure { m with heap := ← m.heap.copyIn a off (x :: v) } : R CompactFkNlm) =
        ((do pure { m with heap := ← m.heap.copyIn a off [x] } : R CompactFkNlm) >>= fun m' =>
          (do pure { m' with heap := ← m'.heap.copyIn a (off + 1) v } : R CompactFkNlm))
      rw [Heap.copyIn_cons]
      cases m.heap.copyIn a off [x] <;> rfl
    | buf g =>
      show (if g = m.chunkPtrs.size then (do pure { m with chunkBuf := ← overwrite m.chunkBuf off (x :: v) } : R CompactFkNlm) else .error .oob) =
        ((if g = m.chunkPtrs.size then (do pure { m with chunkBuf := ← overwrite m.chunkBuf off [x] } : R CompactFkNlm) else .error .oob) >>= fun m' =>
          (if g = m'.chunkPtrs.size then (do pure { m' with chunkBuf := ← overwrite m'.chunkBuf (off + 1) v } : R CompactFkNlm) else .error .oob))
      split
      next hg =>
        rw [overwrite_cons]
        cases overwrite m.chunkBuf off [x] with
        | error e => rfl
        | ok b =>
          simp only [R.bind_ok, R.pure_eq]
          rw [if_pos hg]
      · rfl
  nil m l h := by
    obtain ⟨blk, off⟩ := l
    cases blk with
    | heap a => rfl
    | buf g =>
      have h : (if g = m.chunkPtrs.size then (do pure { m with chunkBuf := ← overwrite m.chunkBuf off [] } : R CompactFkNlm) else .error .oob) ≠
        .error .oob := h
      show (if g = m.chunkPtrs.size then (do pure { m with chunkBuf := ← overwrite m.chunkBuf off [] } : R CompactFkNlm) else .error .oob) = _
      split at h
      next hg => rw [if_pos hg]; rfl
      · exact absurd rfl h
  load m l v := by
    obtain ⟨blk, off⟩ := l
    cases blk with
    | heap a => exact Heap.load_iff hv v
    | buf g =>
      show (if g = m.chunkPtrs.size ∧ off + vs ≤ m.chunkBuf.length then (Except.ok ((m.chunkBuf.drop off).take vs) : R (List UInt8)) else .error .oob) =
        .ok v ↔ v.length = vs ∧ ∀ j < vs, (if g = m.chunkPtrs.size then keyAt m.chunkBuf (off + j) else .error .oob) = keyAt v j
      by_cases hg : g = m.chunkPtrs.size
      · simp only [hg, true_and, if_true]
        exact load_bytes hv v
      · simp only [hg, false_and, if_false]
        constructor
        · intro h; cases h
        · rintro ⟨h1, h2⟩
          have := h2 0 hv
          rw [keyAt, List.getElem?_eq_getElem (show 0 < v.length by omega)] at this
          cases this

end CompactFkNlm

theorem Alias.byteSpec (a : Alias) (p : Params) (hp : p.Valid) : ByteSpec (a.bytes p) (a.nlmSpec p hp) := by
  cases a with
  | plainBonsai => exact PlainBonsaiNlm.byteSpec hp.val
  | semiCompactBonsai => exact CompactBonsaiNlm.byteSpec hp.val hp.chunk hp.val64
  | compactBonsai => exact CompactBonsaiNlm.byteSpec hp.val hp.chunk hp.val64
  | plainFkhash => exact PlainFkNlm.byteSpec hp.val
  | semiCompactFkhash => exact CompactFkNlm.byteSpec (by have := hp.chunk; omega) hp.val hp.val64
  | compactFkhash => exact CompactFkNlm.byteSpec (by have := hp.chunk; omega) hp.val hp.val64

end Poplar
