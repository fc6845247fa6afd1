import Verif.Proof.LinearProbing
/-
  Abstract theory of a circular table of `C` slots with quotienting (compact_hash_table.hpp).
  A slot is vacant (`vac`) or holds an item; `v p`: some item has home `p` (virgin bit); `c p`: the
  item in `p` is the first of its collision group (change bit); the item in `p` has home `p + d p`.
  All functions are periodic with period `C`, so a position `p` stands for slot `p % C`.
-/
namespace Poplar.CH
open Poplar

structure Lay (C : Nat) (vac v c : Nat → Bool) (d : Nat → Nat) : Prop where
  pos : 0 < C
  pvac : ∀ p, vac (p + C) = vac p
  pv : ∀ p, v (p + C) = v p
  pc : ∀ p, c (p + C) = c p
  pd : ∀ p, d (p + C) = d p
  room : ∃ p, vac p = true
  run : ∀ p, vac p = false → ∀ s ≤ d p, vac (p + s) = false
  home : ∀ p, vac p = false → v (p + d p) = true
  blank : ∀ p, vac p = true → v p = false ∧ c p = true
  same : ∀ p, vac p = false → vac (p + 1) = false → c (p + 1) = false → d p = d (p + 1) + 1
  next : ∀ p, vac p = false → vac (p + 1) = false → c (p + 1) = true →
    d p < d (p + 1) + 1 ∧ ∀ s, d p < s → s < d (p + 1) + 1 → v (p + s) = false
  first : ∀ p, vac p = true → vac (p + 1) = false →
    c (p + 1) = true ∧ ∀ s, 0 < s → s < d (p + 1) + 1 → v (p + s) = false

/-- number of positions in `(a, a + n]` that satisfy `f` -/
def ct (f : Nat → Bool) (a n : Nat) : Nat := cnt (fun k => f (a + (k + 1))) n

theorem cnt_ext {p : Nat → Bool} {n m : Nat} (hnm : n ≤ m) (h : ∀ i, n ≤ i → i < m → p i = false) :
    cnt p m = cnt p n := by
  obtain ⟨k, rfl⟩ : ∃ k, m = n + k := ⟨m - n, by omega⟩
  clear hnm
  induction k with
  | zero => rfl
  | succ k ih =>
    have e : cnt p (n + (k + 1)) = cnt p (n + k) + (if p (n + k) then 1 else 0) := rfl
    rw [e, ih (fun i h1 h2 => h i h1 (by omega)), h (n + k) (by omega) (by omega)]; rfl

theorem cnt_mono_len {p : Nat → Bool} {n m : Nat} (hnm : n ≤ m) : cnt p n ≤ cnt p m := by
  obtain ⟨k, rfl⟩ : ∃ k, m = n + k := ⟨m - n, by omega⟩
  induction k with
  | zero => exact Nat.le_refl _
  | succ k ih =>
    have : cnt p (n + (k + 1)) = cnt p (n + k) + (if p (n + k) then 1 else 0) := rfl
    rw [this]; have := ih (by omega); omega

theorem ct_succ (f : Nat → Bool) (a n : Nat) : ct f a (n + 1) = ct f a n + (if f (a + (n + 1)) then 1 else 0) := rfl

theorem ct_ext {f : Nat → Bool} {a n m : Nat} (hnm : n ≤ m) (h : ∀ s, n < s → s ≤ m → f (a + s) = false) :
    ct f a m = ct f a n :=
  cnt_ext hnm (fun i h1 h2 => h (i + 1) (by omega) (by omega))

theorem ct_mono {f : Nat → Bool} {a n m : Nat} (hnm : n ≤ m) : ct f a n ≤ ct f a m := cnt_mono_len hnm

theorem ct_lt {f : Nat → Bool} {a n m s : Nat} (h1 : n < s) (h2 : s ≤ m) (h : f (a + s) = true) :
    ct f a n < ct f a m := by
  obtain ⟨k, rfl⟩ : ∃ k, s = k + 1 := ⟨s - 1, by omega⟩
  have e1 : ct f a (k + 1) = ct f a k + 1 := by rw [ct_succ, h]; rfl
  have e2 : ct f a n ≤ ct f a k := ct_mono (by omega)
  have e3 : ct f a (k + 1) ≤ ct f a m := ct_mono h2
  omega

variable {C : Nat} {vac v c : Nat → Bool} {d : Nat → Nat}

theorem per_mul {α : Type} {f : Nat → α} (h : ∀ p, f (p + C) = f p) (p k : Nat) : f (p + C * k) = f p := by
  induction k with
  | zero => rfl
  | succ k ih => rw [Nat.mul_succ, ← Nat.add_assoc, h, ih]

theorem per_mod {α : Type} {f : Nat → α} (h : ∀ p, f (p + C) = f p) (p : Nat) : f (p % C) = f p := by
  have := per_mul h (p % C) (p / C)
  rw [← this, Nat.mod_add_div]

theorem per_congr {α : Type} {f : Nat → α} (h : ∀ p, f (p + C) = f p) {p q : Nat} (e : p % C = q % C) : f p = f q := by
  rw [← per_mod h p, ← per_mod h q, e]

/-- every position has a representative in every window -/
theorem window (hC : 0 < C) (w p : Nat) : ∃ p', w ≤ p' ∧ p' < w + C ∧ p' % C = p % C := by
  obtain ⟨t, ht, e⟩ := LP.dist_exists hC w (Nat.mod_lt p hC)
  exact ⟨w + t, by omega, by omega, e⟩

theorem window_unique {w p q : Nat} (h1 : w ≤ p) (h2 : p < w + C) (h3 : w ≤ q) (h4 : q < w + C)
    (e : p % C = q % C) : p = q := by
  have := LP.dist_unique (C := C) (h := w) (s := p - w) (t := q - w) (by omega) (by omega)
    (by rw [show w + (p - w) = p by omega, show w + (q - w) = q by omega]; exact e)
  omega

theorem mod_add_C (p : Nat) : (p + C) % C = p % C := Nat.add_mod_right p C

namespace Lay

variable (L : Lay C vac v c d)
include L

theorem hlt {a p : Nat} (hva : vac a = true) (hp : p ≤ a) (h : vac p = false) : p + d p < a := by
  rcases Nat.lt_or_ge (p + d p) a with h1 | h1
  · exact h1
  · have := L.run p h (a - p) (by omega)
    rw [show p + (a - p) = a by omega, hva] at this; simp at this

/-- homes are monotone -/
theorem mono {y : Nat} (hy : vac y = false) : ∀ k, vac (y + (k + 1)) = false →
    y + d y ≤ y + (k + 1) + d (y + (k + 1)) ∧
    ((∃ r, y < r ∧ r ≤ y + (k + 1) ∧ c r = true) → y + d y < y + (k + 1) + d (y + (k + 1))) := by
  intro k
  induction k with
  | zero =>
    rw [Nat.zero_add]
    intro hz
    cases hc : c (y + 1) with
    | false =>
      have := L.same y hy hz hc
      refine ⟨by omega, ?_⟩
      rintro ⟨r, h1, h2, h3⟩
      have : r = y + 1 := by omega
      subst this; rw [hc] at h3; simp at h3
    | true =>
      have := (L.next y hy hz hc).1
      exact ⟨by omega, fun _ => by omega⟩
  | succ k ih =>
    intro hz
    cases hv : vac (y + (k + 1)) with
    | true =>
      have := L.hlt hv (by omega) hy
      exact ⟨by omega, fun _ => by omega⟩
    | false =>
      obtain ⟨i1, i2⟩ := ih hv
      cases hc : c (y + (k + 1) + 1) with
      | false =>
        have e := L.same _ hv hz hc
        have e' : d (y + (k + 1 + 1)) = d (y + (k + 1) + 1) := rfl
        refine ⟨by omega, ?_⟩
        rintro ⟨r, h1, h2, h3⟩
        have hr : r ≤ y + (k + 1) := by
          rcases Nat.lt_or_ge (y + (k + 1)) r with h4 | h4
          · have : r = y + (k + 1) + 1 := by omega
            subst this; rw [hc] at h3; simp at h3
          · exact h4
        have := i2 ⟨r, h1, hr, h3⟩
        omega
      | true =>
        have e := (L.next _ hv hz hc).1
        have e' : d (y + (k + 1 + 1)) = d (y + (k + 1) + 1) := rfl
        exact ⟨by omega, fun _ => by omega⟩

theorem mono_le {y z : Nat} (hy : vac y = false) (hz : vac z = false) (h : y ≤ z) : y + d y ≤ z + d z := by
  rcases Nat.lt_or_ge y z with h1 | h1
  · obtain ⟨k, rfl⟩ : ∃ k, z = y + (k + 1) := ⟨z - y - 1, by omega⟩
    exact (L.mono hy k hz).1
  · have : y = z := by omega
    subst this; exact Nat.le_refl _

theorem mono_lt {y z r : Nat} (hy : vac y = false) (hz : vac z = false) (h1 : y < r) (h2 : r ≤ z) (hc : c r = true) :
    y + d y < z + d z := by
  obtain ⟨k, rfl⟩ : ∃ k, z = y + (k + 1) := ⟨z - y - 1, by omega⟩
  exact (L.mono hy k hz).2 ⟨r, h1, h2, hc⟩

/-- in a cluster, the number of group starts up to a slot is the number of homes up to its home -/
theorem count {a : Nat} (hva : vac a = true) : ∀ n, (∀ s, 0 < s → s ≤ n + 1 → vac (a + s) = false) →
    ct c a (n + 1) = ct v a (n + 1 + d (a + (n + 1))) := by
  intro n
  induction n with
  | zero =>
    intro hr
    have h1 := hr 1 (by omega) (by omega)
    obtain ⟨hc, hf⟩ := L.first a hva h1
    have hh := L.home _ h1
    rw [ct_succ]
    have e0 : ct c a 0 = 0 := rfl
    rw [e0, if_pos hc]
    have e1 : ct v a (0 + 1 + d (a + (0 + 1))) = ct v a (d (a + 1)) + 1 := by
      rw [show 0 + 1 + d (a + (0 + 1)) = d (a + 1) + 1 by simp; omega, ct_succ, if_pos]
      rw [← hh]; congr 1; omega
    rw [e1, ct_ext (n := 0) (Nat.zero_le _) (fun s h1 h2 => hf s h1 (by omega))]
    rfl
  | succ n ih =>
    intro hr
    have hi := ih (fun s h1 h2 => hr s h1 (by omega))
    have h1 := hr (n + 1) (by omega) (by omega)
    have h2 : vac (a + (n + 1) + 1) = false := hr (n + 2) (by omega) (by omega)
    rw [ct_succ, hi]
    show _ = ct v a (n + 1 + 1 + d (a + (n + 1) + 1))
    cases hc : c (a + (n + 1) + 1) with
    | false =>
      have e := L.same _ h1 h2 hc
      rw [if_neg (by simp), Nat.add_zero]
      congr 1; omega
    | true =>
      obtain ⟨e1, e2⟩ := L.next _ h1 h2 hc
      rw [if_pos rfl]
      have hh := L.home _ h2
      have e3 : ct v a (n + 1 + 1 + d (a + (n + 1) + 1)) = ct v a (n + 1 + d (a + (n + 1) + 1)) + 1 := by
        rw [show n + 1 + 1 + d (a + (n + 1) + 1) = (n + 1 + d (a + (n + 1) + 1)) + 1 by omega, ct_succ, if_pos]
        rw [← hh]; congr 1; omega
      rw [e3, ct_ext (n := n + 1 + d (a + (n + 1))) (m := n + 1 + d (a + (n + 1) + 1)) (by omega)]
      intro s s1 s2
      have := e2 (s - (n + 1)) (by omega) (by omega)
      rw [← this]; congr 1; omega

/-- the nearest vacant slot to the left of an occupied one -/
theorem left_vacant {m : Nat} (hm : C ≤ m) (h : vac m = false) :
    ∃ a, a < m ∧ m < a + C ∧ vac a = true ∧ ∀ r, a < r → r ≤ m → vac r = false := by
  obtain ⟨p, hp⟩ := L.room
  obtain ⟨p', w1, w2, w3⟩ := window L.pos (m - C) p
  have hp' : vac p' = true := by rw [per_congr L.pvac w3]; exact hp
  obtain ⟨n, hn, hmin⟩ := LP.least (p := fun n => n ≤ m ∧ vac (m - n) = true) ⟨m - p', by omega, by
    rw [show m - (m - p') = p' by omega]; exact hp'⟩
  have hn0 : n ≠ 0 := by rintro rfl; have := hn.2; rw [Nat.sub_zero, h] at this; simp at this
  have hpm : p' ≠ m - C := by
    rintro rfl
    have := L.pvac (m - C)
    rw [show m - C + C = m by omega, h, hp'] at this; simp at this
  have hnle : n ≤ m - p' := by
    rcases Nat.lt_or_ge (m - p') n with h1 | h1
    · exact absurd ⟨by omega, by rw [show m - (m - p') = p' by omega]; exact hp'⟩ (hmin _ h1)
    · exact h1
  refine ⟨m - n, by omega, by omega, hn.2, ?_⟩
  intro r r1 r2
  cases hv : vac r with
  | false => rfl
  | true =>
    exact absurd ⟨by omega, by rw [show m - (m - r) = r by omega]; exact hv⟩ (hmin (m - r) (by omega))

/-- the group found for an occupied slot `m` (`find_ass_cbit_`): with `N` homes in `(a, m]`, the
`N`-th group start in `(a, ..)` -/
theorem assoc {a m : Nat} (hva : vac a = true) (ham : a < m) (hmC : m < a + C) (hr : ∀ r, a < r → r ≤ m → vac r = false)
    (hN : 0 < ct v a (m - a)) :
    ∃ x, a < x ∧ x < a + C ∧ x ≤ x + d x ∧ c x = true ∧ vac x = false ∧ ct c a (x - a) = ct v a (m - a) ∧
      (∀ y, a ≤ y → y < x → ct c a (y - a) < ct v a (m - a)) ∧ x + d x ≤ m ∧ v (x + d x) = true ∧
      (∀ r, a < r → r ≤ x → vac r = false) ∧
      ∀ r, x + d x < r → r ≤ m → v r = false := by
  -- the end of the cluster
  obtain ⟨b, hb, hmin⟩ := LP.least (p := fun b => m < b ∧ vac b = true) ⟨a + C, hmC, by rw [L.pvac]; exact hva⟩
  have hbC : b ≤ a + C := by
    rcases Nat.lt_or_ge (a + C) b with h1 | h1
    · exact absurd ⟨hmC, by rw [L.pvac]; exact hva⟩ (hmin _ h1)
    · exact h1
  have hrb : ∀ r, a < r → r < b → vac r = false := by
    intro r r1 r2
    rcases Nat.lt_or_ge m r with h1 | h1
    · cases hv : vac r with
      | false => rfl
      | true => exact absurd ⟨h1, hv⟩ (hmin _ r2)
    · exact hr r r1 h1
  obtain ⟨k, hk⟩ : ∃ k, b = a + (k + 1) + 1 := ⟨b - a - 2, by omega⟩
  have hlast : d (a + (k + 1)) = 0 := by
    have := L.hlt (a := b) (p := a + (k + 1)) hb.2 (by omega) (hrb _ (by omega) (by omega))
    omega
  have hcb := L.count hva k (fun s s1 s2 => hrb _ (by omega) (by omega))
  have hle : ct v a (m - a) ≤ ct c a (k + 1) := by
    rw [hcb, hlast]; exact ct_mono (by omega)
  obtain ⟨n, hn, hnmin⟩ := LP.least (p := fun n => ct v a (m - a) ≤ ct c a n) ⟨_, hle⟩
  have hn0 : n ≠ 0 := by rintro rfl; have : ct c a 0 = 0 := rfl; rw [this] at hn; omega
  have hnk : n ≤ k + 1 := by
    rcases Nat.lt_or_ge (k + 1) n with h1 | h1
    · exact absurd hle (hnmin _ h1)
    · exact h1
  obtain ⟨j, rfl⟩ : ∃ j, n = j + 1 := ⟨n - 1, by omega⟩
  have hj := hnmin j (by omega)
  have hsucc := ct_succ c a j
  have hcx : c (a + (j + 1)) = true := by
    cases hc : c (a + (j + 1)) with
    | true => rfl
    | false => rw [hc] at hsucc; simp at hsucc; rw [hsucc] at hn; omega
  rw [hcx] at hsucc
  have hsucc' : ct c a (j + 1) = ct c a j + 1 := hsucc
  have hce := L.count hva j (fun s s1 s2 => hrb _ (by omega) (by omega))
  have hvx := L.home _ (hrb (a + (j + 1)) (by omega) (by omega))
  have heq : ct c a (j + 1) = ct v a (m - a) := by omega
  have hxm : a + (j + 1) + d (a + (j + 1)) ≤ m := by
    rcases Nat.lt_or_ge m (a + (j + 1) + d (a + (j + 1))) with h1 | h1
    · have := ct_lt (f := v) (a := a) (n := m - a) (s := j + 1 + d (a + (j + 1))) (m := j + 1 + d (a + (j + 1))) (by omega) (Nat.le_refl _)
        (by rw [← hvx]; congr 1; omega)
      omega
    · exact h1
  refine ⟨a + (j + 1), by omega, by omega, by omega, hcx, hrb _ (by omega) (by omega), ?_, ?_, hxm, hvx, ?_, ?_⟩
  · rw [show a + (j + 1) - a = j + 1 by omega]; exact heq
  · intro y y1 y2
    have : ct c a (y - a) ≤ ct c a j := ct_mono (by omega)
    omega
  · intro r r1 r2; exact hrb r r1 (by omega)
  · intro r r1 r2
    cases hv : v r with
    | false => rfl
    | true =>
      have := ct_lt (f := v) (a := a) (n := j + 1 + d (a + (j + 1))) (s := r - a) (m := m - a) (by omega) (by omega)
        (by rw [show a + (r - a) = r by omega]; exact hv)
      omega

/-- the end of a collision group -/
theorem group {a x : Nat} (hva : vac a = true) (hx : x < a) (hv : vac x = false) :
    ∃ e, x ≤ e ∧ e < a ∧ c (e + 1) = true ∧ (∀ r, x < r → r ≤ e → c r = false) ∧
      (∀ r, x ≤ r → r ≤ e → vac r = false ∧ r + d r = x + d x) := by
  obtain ⟨n, hn, hmin⟩ := LP.least (p := fun n => c (x + n + 1) = true) ⟨a - x - 1, by
    rw [show x + (a - x - 1) + 1 = a by omega]; exact (L.blank a hva).2⟩
  have hna : n ≤ a - x - 1 := by
    rcases Nat.lt_or_ge (a - x - 1) n with h1 | h1
    · refine absurd ?_ (hmin _ h1)
      rw [show x + (a - x - 1) + 1 = a by omega]; exact (L.blank a hva).2
    · exact h1
  have hc : ∀ r, x < r → r ≤ x + n → c r = false := by
    intro r r1 r2
    cases h : c r with
    | false => rfl
    | true => exact absurd (by rw [show x + (r - x - 1) + 1 = r by omega]; exact h) (hmin (r - x - 1) (by omega))
  refine ⟨x + n, by omega, by omega, hn, hc, ?_⟩
  have : ∀ k, k ≤ n → vac (x + k) = false ∧ x + k + d (x + k) = x + d x := by
    intro k
    induction k with
    | zero => intro _; exact ⟨hv, rfl⟩
    | succ k ih =>
      intro hk
      obtain ⟨i1, i2⟩ := ih (by omega)
      have hck := hc (x + k + 1) (by omega) (by omega)
      have hvk : vac (x + k + 1) = false := by
        cases h : vac (x + k + 1) with
        | false => rfl
        | true => have := (L.blank _ h).2; rw [hck] at this; simp at this
      have e := L.same _ i1 hvk hck
      refine ⟨hvk, ?_⟩
      show x + (k + 1) + d (x + k + 1) = _
      omega
  intro r r1 r2
  have := this (r - x) (by omega)
  rw [show x + (r - x) = r by omega] at this
  exact this

end Lay

end Poplar.CH
