import Verif.Proof.MapInv
import Mathlib.Algebra.BigOperators.Group.Finset.Sigma
import Mathlib.Algebra.Order.BigOperators.Group.Finset
import Mathlib.Data.Finset.Sigma
import Mathlib.Data.Finset.Card
import Mathlib.Data.List.Basic
/-
  Counting the places for trie nodes: a set of keys needs at most `nodesFor` of them.
-/
namespace Poplar
open Spec

theorem Spec.nodesFor_eq (lam : Nat) (ks : List Key) : nodesFor lam ks = ∑ k ∈ ks.toFinset, keyNodes lam k := by
  induction ks with
  | nil => rfl
  | cons k ks ih =>
    simp only [nodesFor, List.toFinset_cons]
    by_cases h : k ∈ ks
    · rw [if_pos h, Finset.insert_eq_of_mem (by simpa using h), ih]
    · rw [if_neg h, Finset.sum_insert (by simpa using h), ih]

theorem Spec.nodesFor_mono {lam : Nat} {ks ks' : List Key} (h : ∀ k ∈ ks, k ∈ ks') : nodesFor lam ks ≤ nodesFor lam ks' := by
  rw [nodesFor_eq, nodesFor_eq]
  refine Finset.sum_le_sum_of_subset ?_
  intro k hk
  simp only [List.mem_toFinset] at hk ⊢
  exact h k hk

theorem Spec.nodesFor_congr {lam : Nat} {ks ks' : List Key} (h : ∀ k, k ∈ ks ↔ k ∈ ks') : nodesFor lam ks = nodesFor lam ks' :=
  Nat.le_antisymm (nodesFor_mono fun k hk => (h k).1 hk) (nodesFor_mono fun k hk => (h k).2 hk)

theorem Spec.nodesFor_new {lam : Nat} {ks ks' : List Key} {k : Key} (h : ∀ k ∈ ks, k ∈ ks') (hk : k ∉ ks) (hk' : k ∈ ks') :
    nodesFor lam ks + 1 ≤ nodesFor lam ks' := by
  have h1 : nodesFor lam (k :: ks) ≤ nodesFor lam ks' := by
    apply nodesFor_mono
    intro x hx
    rcases List.mem_cons.1 hx with rfl | hx
    · exact hk'
    · exact h x hx
  simp only [nodesFor, if_neg hk, keyNodes] at h1
  exact Nat.le_trans (by rw [Nat.add_comm]; exact Nat.add_le_add_right (Nat.le_add_right _ _) _) h1

theorem Spec.keyNodes_le {lam : Nat} {k : Key} (hk : k ≠ []) : keyNodes lam k ≤ k.length := by
  have h1 := List.length_pos_iff.2 hk
  have h2 : (k.length - 1) / lam ≤ k.length - 1 := Nat.div_le_self _ _
  rw [keyNodes]; omega

theorem Spec.nodesFor_le_sum {lam : Nat} (ks : List Key) (h : ∀ k ∈ ks, k ≠ []) : nodesFor lam ks ≤ (ks.map List.length).sum := by
  induction ks with
  | nil => exact Nat.le_refl _
  | cons k ks ih =>
    have h1 := ih (fun x hx => h x (by simp [hx]))
    have h2 := keyNodes_le (lam := lam) (h k (by simp))
    simp only [nodesFor, List.map_cons, List.sum_cons]
    split <;> omega

/-- where a walk ends -/
theorem walk_end {vs : Nat} {U : List UInt8 → Prop} {M : BP → Option LV} (hM : AInv vs U M) (bp : BP) (key : List UInt8)
    (hk : KeyAt U M bp key) : (walk M bp key).2.length ≤ key.length ∧
      ∀ l v, M (walk M bp key).1 = some (l, v) → (walk M bp key).2 = l := by
  refine walk_ind hM (P := fun _ key x => x.2.length ≤ key.length ∧ ∀ l v, M x.1 = some (l, v) → x.2 = l) ?_ ?_ ?_ bp key hk
  · intro bp key _ hb
    exact ⟨Nat.le_refl _, fun l v h => by simp only [hb] at h; cases h⟩
  · intro bp l v _ hb
    refine ⟨Nat.le_refl _, fun l' v' h => ?_⟩
    simp only [hb, Option.some.injEq, Prod.mk.injEq] at h
    exact h.1
  · rintro bp key l v _ _ _ h _ ⟨h1, h2⟩
    refine ⟨Nat.le_trans h1 ?_, h2⟩
    simp

/-- a dictionary with the keys `ks` has at most `nodesFor lam ks` places for nodes -/
theorem Map.bound_of {vs : Nat} {U : List UInt8 → Prop} {M : BP → Option LV} (hM : AInv vs U M) {lam : Nat} (hl : 0 < lam)
    {ks : List Key} (hks : ∀ y, U y → dict M y ≠ none → y ∈ ks) : Map.Bound M lam (nodesFor lam ks) := by
  classical
  intro Q hQ hg
  rw [← List.toFinset_card_of_nodup hQ, nodesFor_eq]
  have hwit : ∀ x ∈ Q, ∃ y ∈ ks, (walk M [] y).1 = x.1 ∧ x.2 < keyNodes lam y := by
    intro x hx
    obtain ⟨l, v, g1, g2⟩ := hg x hx
    obtain ⟨y, y1, y2⟩ := hM.wit x.1 (by rw [g1]; simp)
    obtain ⟨w1, w2⟩ := walk_end hM [] y y1
    have hlen := w2 l v (by rw [y2]; exact g1)
    rw [hlen] at w1
    refine ⟨y, hks y y1 ?_, y2, ?_⟩
    · rw [dict, y2, g1]; simp
    · have : x.2 ≤ (y.length - 1) / lam := (Nat.le_div_iff_mul_le hl).2 (Nat.le_trans g2 (by omega))
      rw [keyNodes]
      exact Nat.lt_of_le_of_lt this (by rw [Nat.add_comm]; exact Nat.lt_succ_self _)
  have hcard : ∑ k ∈ ks.toFinset, keyNodes lam k = (ks.toFinset.sigma (fun k => Finset.range (keyNodes lam k))).card := by
    rw [Finset.card_sigma]; simp
  rw [hcard]
  refine Finset.card_le_card_of_injOn (fun x => if h : x ∈ Q then ⟨(hwit x h).choose, x.2⟩ else ⟨[], 0⟩) ?_ ?_
  · intro x hx
    have hx' : x ∈ Q := by simpa using hx
    obtain ⟨c1, _, c3⟩ := (hwit x hx').choose_spec
    simp only [hx', dif_pos, Finset.coe_sigma, Set.mem_sigma_iff, Finset.mem_coe, List.mem_toFinset, Finset.mem_range]
    exact ⟨c1, c3⟩
  · intro x hx x' hx' e
    have hx1 : x ∈ Q := by simpa using hx
    have hx2 : x' ∈ Q := by simpa using hx'
    obtain ⟨_, c2, _⟩ := (hwit x hx1).choose_spec
    obtain ⟨_, c2', _⟩ := (hwit x' hx2).choose_spec
    simp only [hx1, hx2, dif_pos] at e
    have e1 := congrArg Sigma.fst e
    have e2 := congrArg (fun s : (_ : Key) × Nat => s.2) e
    simp only at e1 e2
    refine Prod.ext ?_ e2
    rw [← c2, ← c2', e1]

end Poplar
