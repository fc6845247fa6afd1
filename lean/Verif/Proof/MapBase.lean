import Verif.Proof.Walk
import Verif.Proof.TrieSpec
import Verif.Model.Map
/-
  From branch paths to trie paths; invariants of `map`; the elementary steps of `update`.
-/
namespace Poplar
open Spec

/-- trie path of a branch path -/
def flat (lam : Nat) (code : UInt8 → Nat) : BP → List Nat
  | [] => []
  | (m, c) :: bp => (code c + 256 * (m % lam)) :: (List.replicate (m / lam) 255 ++ flat lam code bp)

def Known (code : UInt8 → Nat) (bp : BP) : Prop := ∀ x ∈ bp, code x.2 < 255

theorem Known.nil {code : UInt8 → Nat} : Known code [] := by intro x hx; cases hx

theorem Known.cons {code : UInt8 → Nat} {x : Nat × UInt8} {bp : BP} :
    Known code (x :: bp) ↔ code x.2 < 255 ∧ Known code bp := by simp [Known]

def Inj (code : UInt8 → Nat) : Prop := ∀ c d, code c < 255 → code c = code d → c = d

theorem rep_cons_inj {a k k' : Nat} {s s' : Nat} {p p' : List Nat} (hs : s ≠ a) (hs' : s' ≠ a)
    (h : List.replicate k a ++ s :: p = List.replicate k' a ++ s' :: p') : k = k' ∧ s = s' ∧ p = p' := by
  induction k generalizing k' with
  | zero =>
    cases k' with
    | zero => simp at h; exact ⟨rfl, h⟩
    | succ k' => simp [List.replicate_succ] at h; exact absurd h.1 hs
  | succ k ih =>
    cases k' with
    | zero => simp [List.replicate_succ] at h; exact absurd h.1.symm hs'
    | succ k' =>
      simp [List.replicate_succ] at h
      obtain ⟨h1, h2⟩ := ih h
      exact ⟨by rw [h1], h2⟩

theorem flat_inj {lam : Nat} {code : UInt8 → Nat} (hi : Inj code) {bp bp' : BP} {k k' : Nat}
    (hb : Known code bp) (hb' : Known code bp')
    (h : List.replicate k 255 ++ flat lam code bp = List.replicate k' 255 ++ flat lam code bp') :
    k = k' ∧ bp = bp' := by
  have hx : ∀ (m : Nat) (c : UInt8), code c < 255 → code c + 256 * (m % lam) ≠ 255 := by
    intro m c hc; omega
  have haux : ∀ (k k' s : Nat) (p : List Nat), s ≠ 255 → List.replicate k 255 ++ s :: p ≠ List.replicate k' 255 := by
    intro k k' s p hs e
    have : s ∈ List.replicate k' 255 := by rw [← e]; simp
    exact hs (List.eq_of_mem_replicate this)
  induction bp generalizing bp' k k' with
  | nil =>
    cases bp' with
    | nil => simp [flat] at h; exact ⟨h, rfl⟩
    | cons y bp' =>
      obtain ⟨m, c⟩ := y
      simp only [flat, List.append_nil] at h
      exact absurd h.symm (haux _ _ _ _ (hx _ _ (Known.cons.1 hb').1))
  | cons x bp ih =>
    obtain ⟨m, c⟩ := x
    cases bp' with
    | nil =>
      simp only [flat, List.append_nil] at h
      exact absurd h (haux _ _ _ _ (hx _ _ (Known.cons.1 hb).1))
    | cons y bp' =>
      obtain ⟨m', c'⟩ := y
      simp only [flat] at h
      have hc := (Known.cons.1 hb).1
      have hc' := (Known.cons.1 hb').1
      simp only at hc hc'
      obtain ⟨h1, h2, h3⟩ := rep_cons_inj (hx _ _ hc) (hx _ _ hc') h
      obtain ⟨h4, h5⟩ := ih (Known.cons.1 hb).2 (Known.cons.1 hb').2 h3
      have h6 : code c = code c' ∧ m % lam = m' % lam := by omega
      refine ⟨h1, ?_⟩
      rw [hi c c' hc h6.1, h5, ← Nat.div_add_mod m lam, ← Nat.div_add_mod m' lam, h4, h6.2]

theorem flat_congr {lam : Nat} {code code' : UInt8 → Nat} {bp : BP} (hb : Known code bp)
    (h : ∀ c, code c < 255 → code' c = code c) : flat lam code' bp = flat lam code bp ∧ Known code' bp := by
  induction bp with
  | nil => exact ⟨rfl, Known.nil⟩
  | cons x bp ih =>
    obtain ⟨m, c⟩ := x
    obtain ⟨h1, h2⟩ := Known.cons.1 hb
    obtain ⟨h3, h4⟩ := ih h2
    exact ⟨by simp only [flat]; rw [h c h1, h3], Known.cons.2 ⟨by rw [h c h1]; exact h1, h4⟩⟩

/-- labels and values by branch path, from labels and values by trie path -/
def byBranch [∀ (c : UInt8 → Nat) b, Decidable (Known c b)] (lam : Nat) (code : UInt8 → Nat) (Lp : List Nat → Bool → Option LV) :
    BP → Bool → Option LV :=
  fun bp e => if Known code bp then Lp (flat lam code bp) e else none

instance (code : UInt8 → Nat) (b : BP) : Decidable (Known code b) := by unfold Known; infer_instance

/-- every node is a branch node (labelled) or a step node (unlabelled) -/
def Shape (lam : Nat) (code : UInt8 → Nat) (E : List Nat → Prop) (Lp : List Nat → Option LV) : Prop :=
  ∀ p, E p → ∃ k bp, Known code bp ∧ p = List.replicate k 255 ++ flat lam code bp ∧ (k = 0 ↔ Lp p ≠ none)

theorem Shape.known {lam : Nat} {code code' : UInt8 → Nat} {E : List Nat → Prop} {Lp : List Nat → Option LV}
    (hS : Shape lam code E Lp) (hi' : Inj code') (h : ∀ c, code c < 255 → code' c = code c)
    {k : Nat} {bp : BP} (hb : Known code' bp) (hE : E (List.replicate k 255 ++ flat lam code' bp)) :
    Known code bp ∧ (k = 0 ↔ Lp (List.replicate k 255 ++ flat lam code' bp) ≠ none) := by
  obtain ⟨k2, bp2, h1, h2, h3⟩ := hS _ hE
  obtain ⟨h4, h5⟩ := flat_congr (lam := lam) h1 h
  rw [← h4] at h2
  obtain ⟨h6, h7⟩ := flat_inj hi' hb h5 h2
  subst h6 h7
  exact ⟨h1, h3⟩

theorem Shape.code {lam : Nat} {code code' : UInt8 → Nat} {E : List Nat → Prop} {Lp : List Nat → Bool → Option LV}
    (hS : Shape lam code E (Lp · false)) (hi' : Inj code') (h : ∀ c, code c < 255 → code' c = code c)
    (hEL : ∀ p e, Lp p e ≠ none → E p) :
    Shape lam code' E (Lp · false) ∧ byBranch lam code' Lp = byBranch lam code Lp := by
  refine ⟨?_, ?_⟩
  · intro p hp
    obtain ⟨k, bp, h1, h2, h3⟩ := hS p hp
    obtain ⟨h4, h5⟩ := flat_congr (lam := lam) h1 h
    exact ⟨k, bp, h5, by rw [h4]; exact h2, h3⟩
  · funext bp e
    simp only [byBranch]
    by_cases hk : Known code bp
    · obtain ⟨h4, h5⟩ := flat_congr (lam := lam) hk h
      rw [if_pos hk, if_pos h5, h4]
    · rw [if_neg hk]
      by_cases hk' : Known code' bp
      · rw [if_pos hk']
        by_contra hc
        exact hk (hS.known hi' h (k := 0) hk' (by simpa using hEL _ _ hc)).1
      · rw [if_neg hk']

theorem flat_suffix {lam : Nat} {code : UInt8 → Nat} {b q : BP} (h : b <:+ q) : ∃ r, flat lam code q = r ++ flat lam code b := by
  induction q with
  | nil => rw [List.suffix_nil.1 h]; exact ⟨[], rfl⟩
  | cons y q ih =>
    rcases List.suffix_cons_iff.1 h with rfl | h
    · exact ⟨[], rfl⟩
    · obtain ⟨r, hr⟩ := ih h
      obtain ⟨m, c⟩ := y
      exact ⟨(code c + 256 * (m % lam)) :: (List.replicate (m / lam) 255 ++ r), by rw [flat, hr]; simp⟩

/-! ### from labels with flags to labels -/

open Classical in
/-- what is left of the keys of `U` at a node -/
noncomputable def linkK (U : List UInt8 → Prop) (B : BP → Bool → Option LV) : BP → List UInt8 → Prop
  | [], k => U k
  | (n, c) :: bp, r => ∃ l v x, B bp (decide (linkK U B bp [])) = some (l, v) ∧ linkK U B bp x ∧ x ≠ l ∧ lcp x l = n ∧
      x[n]? = some c ∧ r = x.drop (n + 1)

open Classical in
/-- labels and values by branch path: the label of a node is empty iff nothing is left of the keys there -/
noncomputable def link (U : List UInt8 → Prop) (B : BP → Bool → Option LV) (bp : BP) : Option LV := B bp (decide (linkK U B bp []))

open Classical in
theorem link_unique {U : List UInt8 → Prop} {B : BP → Bool → Option LV} {M : BP → Option LV}
    (h : ∀ bp, M bp = B bp (decide (KeyAt U M bp []))) : M = link U B := by
  have key : ∀ bp, KeyAt U M bp = linkK U B bp := by
    intro bp
    induction bp with
    | nil => rfl
    | cons y bp ih =>
      obtain ⟨n, c⟩ := y
      funext r
      rw [KeyAt, linkK, ih, h bp, ih]
  funext bp
  rw [h bp, link, key]

open Classical in
theorem link_eq {U : List UInt8 → Prop} {B : BP → Bool → Option LV} (bp : BP) :
    link U B bp = B bp (decide (KeyAt U (link U B) bp [])) := by
  have key : ∀ bp, KeyAt U (link U B) bp = linkK U B bp := by
    intro bp
    induction bp with
    | nil => rfl
    | cons y bp ih =>
      obtain ⟨n, c⟩ := y
      funext r
      rw [KeyAt, linkK, ih, link]
  rw [key, link]

open Classical in
/-- a new label -/
theorem link_new {vs : Nat} {U : List UInt8 → Prop} (hU : KeySet vs U) {B B' : BP → Bool → Option LV} {b : BP} {r v : List UInt8}
    (hr : KeyAt U (link U B) b r) (hb : ∀ q e, b <:+ q → B q e = none) (h1 : B' b r.isEmpty = some (r, v))
    (h2 : ∀ q e, q ≠ b → B' q e = B q e) : link U B' = upd (link U B) b (r, v) := by
  symm
  apply link_unique
  intro q
  have hc : ∀ q, ¬ (b <:+ q ∧ b ≠ q) → KeyAt U (upd (link U B) b (r, v)) q [] = KeyAt U (link U B) q [] := by
    intro q hq
    have : ∀ p, p <:+ q → p ≠ q → upd (link U B) b (r, v) p = link U B p := by
      intro p hp hne
      simp only [upd]
      rw [if_neg]
      rintro rfl
      exact hq ⟨hp, hne⟩
    exact propext ⟨fun h => h.congr (fun p hp hne => by rw [this p hp hne]), fun h => h.congr (fun p hp hne => by rw [this p hp hne])⟩
  by_cases hq : q = b
  · subst hq
    rw [hc _ (fun h => h.2 rfl)]
    have : decide (KeyAt U (link U B) q []) = r.isEmpty := by
      rw [Bool.eq_iff_iff, decide_eq_true_iff, List.isEmpty_iff]
      exact ⟨fun h => (hr.sep hU h).nil_iff.2 rfl, fun h => h ▸ hr⟩
    rw [this, h1]
    simp [upd]
  · rw [h2 _ _ hq]
    simp only [upd]
    rw [if_neg hq]
    by_cases hs : b <:+ q
    · rw [link, hb _ _ hs, hb _ _ hs]
    · have := hc q (fun h => hs h.1)
      rw [this, ← link_eq (U := U) (B := B)]

open Classical in
/-- a new value -/
theorem link_store {U : List UInt8 → Prop} {B B' : BP → Bool → Option LV} {b : BP} {l v w : List UInt8}
    (hb : link U B b = some (l, v)) (h1 : ∀ e, B' b e = (B b e).map (fun x => (x.1, w)))
    (h2 : ∀ q e, q ≠ b → B' q e = B q e) : link U B' = upd (link U B) b (l, w) := by
  symm
  apply link_unique
  intro q
  have hl : ∀ p, (upd (link U B) b (l, w) p).map (·.1) = (link U B p).map (·.1) := by
    intro p
    simp only [upd]
    split
    next h => subst h; rw [hb]; rfl
    next => rfl
  have hc : KeyAt U (upd (link U B) b (l, w)) q [] = KeyAt U (link U B) q [] :=
    propext ⟨fun h => h.congr (fun p _ _ => (hl p).symm), fun h => h.congr (fun p _ _ => hl p)⟩
  rw [hc]
  by_cases hq : q = b
  · subst hq
    rw [h1, ← link_eq (U := U) (B := B), hb]
    simp [upd]
  · rw [h2 _ _ hq, ← link_eq (U := U) (B := B)]
    simp only [upd]
    rw [if_neg hq]

/-- the code of a byte; 255 = none -/
def cdOf (codes : Array Nat) (c : UInt8) : Nat := codes[c.toNat]?.getD 255

/-- the code table -/
structure CodeInv (codes : Array Nat) (n : Nat) : Prop where
  size : codes.size = 256
  zero : cdOf codes 0 = 0
  rng : ∀ c, cdOf codes c = 255 ∨ cdOf codes c < n
  inj : Inj (cdOf codes)
  pos : 1 ≤ n
  le : n ≤ 255
  count : cnt (fun i => decide (cdOf codes (UInt8.ofNat i) ≠ 255)) 256 = n

theorem CodeInv.rd {codes : Array Nat} {n : Nat} (h : CodeInv codes n) (c : UInt8) :
    Poplar.rd codes c.toNat = .ok (cdOf codes c) := by
  have hc : c.toNat < codes.size := by rw [h.size]; exact c.toNat_lt
  rw [rd_of_lt hc, cdOf, Array.getElem?_eq_getElem hc]; rfl

theorem CodeInv.le255 {codes : Array Nat} {n : Nat} (h : CodeInv codes n) (c : UInt8) :
    cdOf codes c ≤ 255 := by
  have := h.le
  rcases h.rng c with h | h <;> omega

theorem cdOf_set {codes : Array Nat} (hs : codes.size = 256) (c d : UInt8) (x : Nat) :
    cdOf (codes.setIfInBounds c.toNat x) d = if d = c then x else cdOf codes d := by
  have hc : c.toNat < codes.size := by rw [hs]; exact c.toNat_lt
  simp only [cdOf, Array.getElem?_setIfInBounds, hc]
  by_cases h : d = c
  · subst h; simp
  · have : c.toNat ≠ d.toNat := fun e => h (UInt8.toNat_inj.1 e).symm
    simp [h, this]

theorem CodeInv.assign {codes : Array Nat} {n : Nat} (h : CodeInv codes n) {c : UInt8}
    (hc : cdOf codes c = 255) (hn : n < 255) :
    CodeInv (codes.setIfInBounds c.toNat (n % 256)) (n + 1) ∧
    (∀ d, cdOf codes d < 255 → cdOf (codes.setIfInBounds c.toNat (n % 256)) d = cdOf codes d) := by
  have hs := cdOf_set h.size c
  have hn' : n % 256 = n := Nat.mod_eq_of_lt (by omega)
  rw [hn']
  have hold : ∀ d, cdOf codes d < 255 → cdOf (codes.setIfInBounds c.toNat n) d = cdOf codes d := by
    intro d hd; rw [hs, if_neg]; intro e; rw [e, hc] at hd; omega
  refine ⟨⟨by simp [h.size], ?_, ?_, ?_, by omega, by omega, ?_⟩, hold⟩
  · rw [hold _ (by rw [h.zero]; decide), h.zero]
  · intro d; rw [hs]; split
    · right; omega
    · rcases h.rng d with h1 | h1
      · left; exact h1
      · right; omega
  · intro d e hd he
    rw [hs] at hd he; rw [hs] at he
    split at hd
    next h1 =>
      rw [if_pos h1] at he
      split at he
      next h2 => rw [h1, h2]
      next h2 =>
        rcases h.rng e with h3 | h3 <;> omega
    next h1 =>
      rw [if_neg h1] at he
      split at he
      next h2 =>
        rcases h.rng d with h3 | h3 <;> omega
      next h2 => exact h.inj d e hd he
  · refine (cnt_set (a := c.toNat) (p := fun i => decide (cdOf codes (UInt8.ofNat i) ≠ 255))
      (by exact c.toNat_lt) ?_ ?_ ?_).trans (by rw [h.count])
    · simp [hc]
    · have : n ≠ 255 := by omega
      simp [hs, this]
    · intro i hi hne
      rw [hs, if_neg]
      intro e; apply hne; rw [← e]; simp; omega

/-- `codes_` after construction (map.hpp:63-64) -/
theorem CodeInv.init : CodeInv ((Array.replicate 256 255).setIfInBounds 0 0) 1 := by
  have hs := cdOf_set (codes := Array.replicate 256 255) (by simp) 0
  have h255 : ∀ d, cdOf (Array.replicate 256 255) d = 255 := by
    intro d
    have := d.toNat_lt
    simp only [cdOf, Array.getElem?_replicate]; split <;> rfl
  have hs' : ∀ d, cdOf ((Array.replicate 256 255).setIfInBounds 0 0) d = if d = 0 then 0 else 255 := by
    intro d; have := hs d 0; rw [h255] at this; exact this
  refine ⟨by simp, by rw [hs']; rfl, ?_, ?_, by omega, by omega, ?_⟩
  · intro d; rw [hs']; split
    · right; omega
    · left; rfl
  · intro d e hd he
    rw [hs'] at hd he; rw [hs'] at he
    split at hd
    next h1 =>
      rw [if_pos h1] at he; split at he
      next h2 => rw [h1, h2]
      next => omega
    next => omega
  · simp only [hs']
    decide +kernel

end Poplar
