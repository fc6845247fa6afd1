import Verif.Proof.Count
/-
  Abstract theory of linear probing on a circular table of `C` slots. `occ i` is the key stored in
  slot `i`, `res i` says that slot `i` is reserved and skipped by every probe.
-/
namespace Poplar.LP
open Poplar

variable {K : Type}

structure Inv (C : Nat) (home : K → Nat) (res : Nat → Bool) (occ : Nat → Option K) : Prop where
  pos : 0 < C
  inj : ∀ i < C, ∀ j < C, ∀ k, occ i = some k → occ j = some k → i = j
  nres : ∀ i < C, ∀ k, occ i = some k → res i = false
  reach : ∀ i < C, ∀ k, occ i = some k → ∃ t < C, (home k + t) % C = i ∧
    ∀ s < t, res ((home k + s) % C) = true ∨ (occ ((home k + s) % C)).isSome = true
  room : ∃ i < C, res i = false ∧ occ i = none

/-- an empty table -/
theorem Inv.empty {C : Nat} {home : K → Nat} {res : Nat → Bool} (hC : 0 < C)
    (hr : ∃ i < C, res i = false) : Inv C home res (fun _ => none) where
  pos := hC
  inj := by intro i _ j _ k h; simp at h
  nres := by intro i _ k h; simp at h
  reach := by intro i _ k h; simp at h
  room := by obtain ⟨i, h1, h2⟩ := hr; exact ⟨i, h1, h2, rfl⟩

variable {C : Nat} {home : K → Nat} {res : Nat → Bool} {occ : Nat → Option K}

/-- least witness -/
theorem least {p : Nat → Prop} (h : ∃ n, p n) : ∃ n, p n ∧ ∀ m < n, ¬ p m := by
  obtain ⟨n, hn⟩ := h
  induction n using Nat.strongRecOn with
  | ind n ih =>
    by_cases hm : ∃ m, m < n ∧ p m
    · obtain ⟨m, h1, h2⟩ := hm; exact ih m h1 h2
    · exact ⟨n, hn, fun m h1 h2 => hm ⟨m, h1, h2⟩⟩

/-- every slot is on the probe path of every key -/
theorem dist_exists (hC : 0 < C) (h : Nat) {i : Nat} (hi : i < C) : ∃ t < C, (h + t) % C = i := by
  refine ⟨(i + (C - h % C)) % C, Nat.mod_lt _ hC, ?_⟩
  rw [Nat.add_mod, Nat.mod_mod, ← Nat.add_mod]
  have h1 : h % C < C := Nat.mod_lt _ hC
  have h2 : h = C * (h / C) + h % C := (Nat.div_add_mod h C).symm
  have : h + (i + (C - h % C)) = i + C * (h / C + 1) := by
    rw [Nat.mul_succ]; omega
  rw [this, Nat.add_mul_mod_self_left, Nat.mod_eq_of_lt hi]

/-- offsets on the probe path are unique -/
theorem dist_unique {h s t : Nat} (hs : s < C) (ht : t < C) (e : (h + s) % C = (h + t) % C) : s = t := by
  have h1 : (h + s) % C = (h % C + s) % C := by rw [Nat.add_mod, ← Nat.add_mod_mod, Nat.mod_mod]; simp
  have h2 : (h + t) % C = (h % C + t) % C := by rw [Nat.add_mod, ← Nat.add_mod_mod, Nat.mod_mod]; simp
  rw [h1, h2] at e
  have hb : h % C < C := Nat.mod_lt _ (by omega)
  generalize h % C = g at *
  by_cases c1 : g + s < C <;> by_cases c2 : g + t < C
  · rw [Nat.mod_eq_of_lt c1, Nat.mod_eq_of_lt c2] at e; omega
  · rw [Nat.mod_eq_of_lt c1, Nat.mod_eq_sub_mod (by omega), Nat.mod_eq_of_lt (by omega)] at e; omega
  · rw [Nat.mod_eq_of_lt c2, Nat.mod_eq_sub_mod (by omega), Nat.mod_eq_of_lt (by omega)] at e; omega
  · rw [Nat.mod_eq_sub_mod (by omega), Nat.mod_eq_of_lt (by omega),
      Nat.mod_eq_sub_mod (a := g + t) (by omega), Nat.mod_eq_of_lt (a := g + t - C) (by omega)] at e; omega

/-- The outcome of a probe for key `k`. -/
inductive Probe (C : Nat) (home : K → Nat) (res : Nat → Bool) (occ : Nat → Option K) (k : K) : Prop where
  | found (t : Nat) (ht : t < C) (ho : occ ((home k + t) % C) = some k)
      (hr : res ((home k + t) % C) = false)
      (hs : ∀ s < t, res ((home k + s) % C) = true ∨
        (res ((home k + s) % C) = false ∧ ∃ k', k' ≠ k ∧ occ ((home k + s) % C) = some k'))
  | absent (t : Nat) (ht : t < C) (ho : occ ((home k + t) % C) = none)
      (hr : res ((home k + t) % C) = false)
      (hs : ∀ s < t, res ((home k + s) % C) = true ∨
        (res ((home k + s) % C) = false ∧ ∃ k', k' ≠ k ∧ occ ((home k + s) % C) = some k'))
      (ha : ∀ i < C, occ i ≠ some k)

theorem Inv.probe (h : Inv C home res occ) (k : K) : Probe C home res occ k := by
  -- first stop: a non-reserved slot that is empty or holds k
  obtain ⟨i0, hi0, hr0, ho0⟩ := h.room
  obtain ⟨t0, ht0, e0⟩ := dist_exists h.pos (home k) hi0
  have hex : ∃ t, res ((home k + t) % C) = false ∧
      (occ ((home k + t) % C) = none ∨ occ ((home k + t) % C) = some k) := ⟨t0, by rw [e0]; exact ⟨hr0, Or.inl ho0⟩⟩
  obtain ⟨t, ⟨hr, ho⟩, hmin⟩ := least hex
  have htC : t < C := by
    by_cases hlt : t ≤ t0
    · omega
    · exact absurd ⟨by rw [e0]; exact hr0, by rw [e0]; exact Or.inl ho0⟩ (hmin t0 (by omega))
  have hs : ∀ s < t, res ((home k + s) % C) = true ∨
        (res ((home k + s) % C) = false ∧ ∃ k', k' ≠ k ∧ occ ((home k + s) % C) = some k') := by
    intro s hst
    have := hmin s hst
    cases hres : res ((home k + s) % C) with
    | true => exact Or.inl rfl
    | false =>
      right
      refine ⟨rfl, ?_⟩
      cases hoc : occ ((home k + s) % C) with
      | none => exact absurd ⟨hres, Or.inl hoc⟩ this
      | some k' =>
        refine ⟨k', ?_, rfl⟩
        intro e; subst e
        exact this ⟨hres, Or.inr hoc⟩
  rcases ho with ho | ho
  · refine .absent t htC ho hr hs ?_
    intro i hi hik
    obtain ⟨u, hu, eu, hreach⟩ := h.reach i hi k hik
    by_cases hut : u < t
    · rcases hs u hut with h1 | ⟨_, k', hk', h1⟩
      · rw [eu] at h1; rw [h.nres i hi k hik] at h1; simp at h1
      · rw [eu, hik] at h1; injection h1 with h1; exact hk' h1.symm
    · by_cases hut2 : t < u
      · rcases hreach t hut2 with h1 | h1
        · rw [hr] at h1; simp at h1
        · rw [ho] at h1; simp at h1
      · have : t = u := by omega
        subst this; rw [eu, hik] at ho; simp at ho
  · exact .found t htC ho hr hs

/-- inserting a key into the first free slot of its probe path -/
theorem Inv.insert (h : Inv C home res occ) {k : K} {t : Nat}
    (hr : res ((home k + t) % C) = false) (ht : t < C)
    (hs : ∀ s < t, res ((home k + s) % C) = true ∨
        (res ((home k + s) % C) = false ∧ ∃ k', k' ≠ k ∧ occ ((home k + s) % C) = some k'))
    (ha : ∀ i < C, occ i ≠ some k)
    (hroom : ∃ i < C, res i = false ∧ occ i = none ∧ i ≠ (home k + t) % C) :
    Inv C home res (fun i => if i = (home k + t) % C then some k else occ i) where
  pos := h.pos
  inj := by
    intro i hi j hj k' h1 h2
    split at h1 <;> split at h2
    · omega
    · injection h1 with h1; subst h1; exact absurd h2 (ha j hj)
    · injection h2 with h2; subst h2; exact absurd h1 (ha i hi)
    · exact h.inj i hi j hj k' h1 h2
  nres := by
    intro i hi k' h1
    split at h1
    · rename_i e; rw [e]; exact hr
    · exact h.nres i hi k' h1
  reach := by
    intro i hi k' h1
    split at h1
    · rename_i e
      injection h1 with h1; subst h1
      refine ⟨t, ht, e.symm, fun s hst => ?_⟩
      rcases hs s hst with h2 | ⟨_, k', _, h2⟩
      · exact Or.inl h2
      · right; split <;> simp [h2]
    · obtain ⟨u, hu, eu, hre⟩ := h.reach i hi k' h1
      refine ⟨u, hu, eu, fun s hsu => ?_⟩
      rcases hre s hsu with h2 | h2
      · exact Or.inl h2
      · right; split <;> simp [h2]
  room := by
    obtain ⟨i, h1, h2, h3, h4⟩ := hroom
    exact ⟨i, h1, h2, by simp [h4, h3]⟩

/-- two free slots exist when there are few enough keys -/
theorem room_of_count {C : Nat} {res : Nat → Bool} {occ : Nat → Option K} (a : Nat)
    (h : cnt res C + cnt (fun i => (occ i).isSome) C + 1 < C) :
    ∃ i < C, res i = false ∧ occ i = none ∧ i ≠ a := by
  have h1 := cnt_or_le (fun i => res i || (occ i).isSome) (fun i => decide (i = a)) C
  have h2 := cnt_or_le res (fun i => (occ i).isSome) C
  have h3 : cnt (fun i => decide (i = a)) C ≤ 1 := by
    by_cases ha : a < C
    · have := cnt_set (p := fun _ => false) (q := fun i => decide (i = a)) ha rfl (by simp) (by
        intro i _ hi; simp [hi])
      rw [this, cnt_zero (by simp)]; omega
    · rw [cnt_zero]; omega
      intro i hi
      have : i ≠ a := by omega
      simp [this]
  obtain ⟨i, hi, hp⟩ := cnt_room (p := fun i => (res i || (occ i).isSome) || decide (i = a)) (n := C) (by omega)
  simp only [Bool.or_eq_false_iff, decide_eq_false_iff_not] at hp
  exact ⟨i, hi, hp.1.1, by simpa using hp.1.2, hp.2⟩

end Poplar.LP
