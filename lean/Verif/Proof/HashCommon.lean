import Verif.Proof.TrieCommon
/-
  Hash tables with linear probing seen as finite maps.
-/
namespace Poplar

theorem LP.Inv.congr {K : Type} {C : Nat} {home : K → Nat} {res : Nat → Bool} {f g : Nat → Option K}
    (hfg : ∀ i < C, f i = g i) (hg : LP.Inv C home res g) : LP.Inv C home res f := by
  have hm : ∀ x, x % C < C := fun x => Nat.mod_lt _ hg.pos
  refine ⟨hg.pos, ?_, ?_, ?_, ?_⟩
  · intro i hi j hj k h1 h2; rw [hfg i hi] at h1; rw [hfg j hj] at h2; exact hg.inj i hi j hj k h1 h2
  · intro i hi k h1; rw [hfg i hi] at h1; exact hg.nres i hi k h1
  · intro i hi k h1; rw [hfg i hi] at h1
    obtain ⟨u, a, b, c⟩ := hg.reach i hi k h1
    exact ⟨u, a, b, fun s hs => by rw [hfg _ (hm _)]; exact c s hs⟩
  · obtain ⟨i, a, b, c⟩ := hg.room
    exact ⟨i, a, b, by rw [hfg i a]; exact c⟩

/-- the value stored with a key -/
def lookv (C : Nat) (occ : Nat → Option Nat) (val : Nat → Nat) (k : Nat) : Option Nat :=
  (slotOf C occ k).map val

theorem lookv_some {C : Nat} {occ : Nat → Option Nat} {val : Nat → Nat} {k x : Nat}
    (h : lookv C occ val k = some x) : ∃ i < C, occ i = some k ∧ val i = x := by
  unfold lookv at h
  rw [Option.map_eq_some_iff] at h
  obtain ⟨i, h1, h2⟩ := h
  obtain ⟨h3, h4⟩ := slotOf_some h1
  exact ⟨i, h3, h4, h2⟩

theorem lookv_none {C : Nat} {occ : Nat → Option Nat} {val : Nat → Nat} {k : Nat} :
    lookv C occ val k = none ↔ ∀ i < C, occ i ≠ some k := by
  unfold lookv
  rw [Option.map_eq_none_iff, slotOf_none]

theorem lookv_eq {C : Nat} {occ : Nat → Option Nat} {val : Nat → Nat} {k i : Nat}
    (inj : ∀ i < C, ∀ j < C, ∀ k, occ i = some k → occ j = some k → i = j)
    (hi : i < C) (h : occ i = some k) : lookv C occ val k = some (val i) := by
  unfold lookv; rw [slotOf_eq inj hi h]; rfl

theorem lookv_congr {C : Nat} {occ occ' : Nat → Option Nat} {val val' : Nat → Nat}
    (inj : ∀ i < C, ∀ j < C, ∀ k, occ i = some k → occ j = some k → i = j)
    (h1 : ∀ i < C, occ' i = occ i) (h2 : ∀ i < C, (occ i).isSome → val' i = val i) (k : Nat) :
    lookv C occ' val' k = lookv C occ val k := by
  cases e : lookv C occ val k with
  | none =>
    rw [lookv_none] at e ⊢
    intro i hi; rw [h1 i hi]; exact e i hi
  | some x =>
    obtain ⟨i, a, b, c⟩ := lookv_some e
    rw [lookv_eq (i := i) ?_ a (by rw [h1 i a]; exact b), h2 i a (by rw [b]; rfl), c]
    intro i hi j hj k h3 h4
    rw [h1 i hi] at h3; rw [h1 j hj] at h4
    exact inj i hi j hj k h3 h4

theorem lookv_insert {C i k x : Nat} {occ occ' : Nat → Option Nat} {val val' : Nat → Nat}
    (inj : ∀ i < C, ∀ j < C, ∀ k, occ i = some k → occ j = some k → i = j)
    (hi : i < C) (ho : occ i = none) (ha : ∀ j < C, occ j ≠ some k)
    (hocc : ∀ j < C, occ' j = if j = i then some k else occ j)
    (hval : ∀ j < C, val' j = if j = i then x else val j) (k' : Nat) :
    lookv C occ' val' k' = if k' = k then some x else lookv C occ val k' := by
  have inj' : ∀ a < C, ∀ b < C, ∀ k, occ' a = some k → occ' b = some k → a = b := by
    intro a ha' b hb' k' h1 h2
    rw [hocc a ha'] at h1; rw [hocc b hb'] at h2
    split at h1 <;> split at h2
    · omega
    · injection h1 with h1; subst h1; exact absurd h2 (ha b hb')
    · injection h2 with h2; subst h2; exact absurd h1 (ha a ha')
    · exact inj a ha' b hb' k' h1 h2
  by_cases hk : k' = k
  · subst hk
    rw [if_pos rfl, lookv_eq inj' hi (by rw [hocc i hi, if_pos rfl]), hval i hi, if_pos rfl]
  · rw [if_neg hk]
    cases e : lookv C occ val k' with
    | none =>
      rw [lookv_none] at e ⊢
      intro j hj
      rw [hocc j hj]
      split
      · intro e2; injection e2 with e2; exact hk e2.symm
      · exact e j hj
    | some y =>
      obtain ⟨j, a, b, c⟩ := lookv_some e
      have hji : j ≠ i := by rintro rfl; rw [ho] at b; simp at b
      rw [lookv_eq (i := j) inj' a (by rw [hocc j a, if_neg hji]; exact b), hval j a, if_neg hji, c]

/-- overwriting the value of a stored key -/
theorem lookv_overwrite {C i k x : Nat} {occ occ' : Nat → Option Nat} {val val' : Nat → Nat}
    (inj : ∀ i < C, ∀ j < C, ∀ k, occ i = some k → occ j = some k → i = j)
    (hi : i < C) (ho : occ i = some k)
    (hocc : ∀ j < C, occ' j = occ j)
    (hval : ∀ j < C, val' j = if j = i then x else val j) (k' : Nat) :
    lookv C occ' val' k' = if k' = k then some x else lookv C occ val k' := by
  have inj' : ∀ a < C, ∀ b < C, ∀ k, occ' a = some k → occ' b = some k → a = b := by
    intro a ha' b hb' k' h1 h2
    rw [hocc a ha'] at h1; rw [hocc b hb'] at h2
    exact inj a ha' b hb' k' h1 h2
  by_cases hk : k' = k
  · subst hk
    rw [if_pos rfl, lookv_eq inj' hi (by rw [hocc i hi, ho]), hval i hi, if_pos rfl]
  · rw [if_neg hk]
    cases e : lookv C occ val k' with
    | none =>
      rw [lookv_none] at e ⊢
      intro j hj
      rw [hocc j hj]; exact e j hj
    | some y =>
      obtain ⟨j, a, b, c⟩ := lookv_some e
      have hji : j ≠ i := by rintro rfl; rw [ho] at b; injection b with b; exact hk b.symm
      rw [lookv_eq (i := j) inj' a (by rw [hocc j a]; exact b), hval j a, if_neg hji, c]

/-- the finite map restricted to the slots below `n` -/
def lookTo (C : Nat) (occ : Nat → Option Nat) (val : Nat → Nat) (n k : Nat) : Option Nat :=
  (slotOf C occ k).bind (fun j => if j < n then some (val j) else none)

theorem lookTo_zero (C : Nat) (occ : Nat → Option Nat) (val : Nat → Nat) (k : Nat) :
    lookTo C occ val 0 k = none := by
  unfold lookTo; cases slotOf C occ k <;> simp

theorem lookTo_all (C : Nat) (occ : Nat → Option Nat) (val : Nat → Nat) (k : Nat) :
    lookTo C occ val C k = lookv C occ val k := by
  unfold lookTo lookv
  cases e : slotOf C occ k with
  | none => rfl
  | some j => simp [(slotOf_some e).1]

theorem lookTo_skip {C n : Nat} {occ : Nat → Option Nat} {val : Nat → Nat} (h : occ n = none) (k : Nat) :
    lookTo C occ val (n + 1) k = lookTo C occ val n k := by
  unfold lookTo
  cases e : slotOf C occ k with
  | none => rfl
  | some j =>
    have : j ≠ n := by rintro rfl; have := (slotOf_some e).2; rw [h] at this; simp at this
    simp only [Option.bind_some]
    by_cases hj : j < n
    · rw [if_pos hj, if_pos (by omega)]
    · rw [if_neg hj, if_neg (by omega)]

theorem lookTo_step {C n key : Nat} {occ : Nat → Option Nat} {val : Nat → Nat}
    (inj : ∀ i < C, ∀ j < C, ∀ k, occ i = some k → occ j = some k → i = j)
    (hn : n < C) (h : occ n = some key) (k : Nat) :
    lookTo C occ val (n + 1) k = if k = key then some (val n) else lookTo C occ val n k := by
  unfold lookTo
  by_cases hk : k = key
  · subst hk
    rw [if_pos rfl, slotOf_eq inj hn h]; simp
  · rw [if_neg hk]
    cases e : slotOf C occ k with
    | none => rfl
    | some j =>
      have : j ≠ n := by
        rintro rfl; have := (slotOf_some e).2; rw [h] at this; injection this with this; exact hk this.symm
      simp only [Option.bind_some]
      by_cases hj : j < n
      · rw [if_pos hj, if_pos (by omega)]
      · rw [if_neg hj, if_neg (by omega)]

theorem lookTo_fresh {C n key : Nat} {occ : Nat → Option Nat} {val : Nat → Nat}
    (inj : ∀ i < C, ∀ j < C, ∀ k, occ i = some k → occ j = some k → i = j)
    (hn : n < C) (h : occ n = some key) : lookTo C occ val n key = none := by
  unfold lookTo
  rw [slotOf_eq inj hn h]; simp

end Poplar
