import Verif.Model.TrieRun
import Verif.Proof.PlainBonsaiTrie
import Verif.Proof.PlainFkhashTrie
import Verif.Proof.CompactFkhashTrie
import Mathlib.Data.List.Nodup
/-
  Histories of a trie class.
-/
namespace Poplar
open Spec (TreeOp Path)

namespace Notes
variable {τ : Type} {ops : TrieOps τ} {sb N : Nat} {z0 : Prop}

/-- invariant of histories -/
structure Good (S : TrieSpec ops sb N z0) (n : Notes τ) (ps : Spec.Tree) : Prop where
  inv : S.Inv n.trie
  room : ops.kind = .bonsai → ops.needsToExpand n.trie = false
  paths : n.ids.map (·.1) = ps
  nodup : ps.Nodup
  tree : ∀ p, S.T n.trie p = n.id? p
  size : ops.size n.trie = ps.length
  dense : ops.kind = .fkhash → n.ids.map (·.2) = List.range ps.length

theorem lookup_none_iff (l : List (Path × Nat)) (p : Path) : l.lookup p = none ↔ p ∉ l.map (·.1) := by
  induction l with
  | nil => simp
  | cons a l ih =>
    obtain ⟨q, i⟩ := a
    simp only [List.lookup_cons, List.map_cons, List.mem_cons, not_or]
    by_cases h : p = q
    · subst h; simp
    · have hb : (p == q) = false := by simpa using h
      rw [hb]
      exact ih.trans ⟨fun h' => ⟨h, h'⟩, fun h' => h'.2⟩

theorem lookup_append (l l' : List (Path × Nat)) (p : Path) :
    (l ++ l').lookup p = (l.lookup p).or (l'.lookup p) := by
  induction l with
  | nil => simp
  | cons a l ih =>
    obtain ⟨q, i⟩ := a
    simp only [List.cons_append, List.lookup_cons]
    cases p == q <;> simp [ih]

theorem remap_ok {nm : NodeMap} {f : Nat → Nat} : ∀ {l : List (Path × Nat)}, (∀ x ∈ l, nm.get x.2 = .ok (f x.2)) →
    remap nm l = .ok (l.map (fun x => (x.1, f x.2)))
  | [], _ => rfl
  | (p, i) :: l, h => by
    have h1 := h (p, i) (by simp)
    have h2 := remap_ok (l := l) (fun x hx => h x (by simp [hx]))
    simp only at h1
    rw [remap, h1, R.bind_ok, h2, R.bind_ok]
    rfl

theorem lookup_map (f : Nat → Nat) (l : List (Path × Nat)) (p : Path) :
    (l.map (fun x => (x.1, f x.2))).lookup p = (l.lookup p).map f := by
  induction l with
  | nil => rfl
  | cons a l ih =>
    obtain ⟨q, i⟩ := a
    simp only [List.map_cons, List.lookup_cons]
    cases p == q <;> simp [ih]

theorem lookup_of_mem {l : List (Path × Nat)} (hn : (l.map (·.1)).Nodup) {p : Path} {i : Nat} (h : (p, i) ∈ l) :
    l.lookup p = some i := by
  induction l with
  | nil => simp at h
  | cons a l ih =>
    obtain ⟨q, j⟩ := a
    simp only [List.map_cons, List.nodup_cons] at hn
    rw [List.lookup_cons]
    rcases List.mem_cons.1 h with h | h'
    · injection h with h1 h2; subst h1; subst h2; simp
    · have : p ≠ q := by
        rintro rfl
        exact hn.1 (List.mem_map.2 ⟨(p, i), ‹(p, i) ∈ l›, rfl⟩)
      have hb : (p == q) = false := by simpa using this
      rw [hb]; exact ih hn.2 h'

theorem mem_of_lookup {l : List (Path × Nat)} {p : Path} {i : Nat} (h : l.lookup p = some i) : (p, i) ∈ l := by
  induction l with
  | nil => simp at h
  | cons a l ih =>
    obtain ⟨q, j⟩ := a
    rw [List.lookup_cons] at h
    by_cases hq : p = q
    · subst hq; simp only [beq_self_eq_true, Option.some.injEq] at h; subst h; simp
    · have hb : (p == q) = false := by simpa using hq
      rw [hb] at h
      exact List.mem_cons_of_mem _ (ih h)

variable {S : TrieSpec ops sb N z0} {n : Notes τ} {ps : Spec.Tree}

theorem Good.mem_iff (h : Good S n ps) {p : Path} {i : Nat} : (p, i) ∈ n.ids ↔ S.T n.trie p = some i := by
  rw [h.tree]
  exact ⟨fun hm => lookup_of_mem (by rw [h.paths]; exact h.nodup) hm, mem_of_lookup⟩

/-- `expand` -/
theorem Good.expand_of (hk : ops.kind = .bonsai) {lim : Prop}
    (paths : n.ids.map (·.1) = ps) (nodup : ps.Nodup)
    (tree : ∀ p, S.T n.trie p = n.id? p) (size : ops.size n.trie = ps.length)
    (he : Post lim (ops.expand n.trie) (fun x =>
      S.Inv x.1 ∧ ops.needsToExpand x.1 = false ∧ ops.size x.1 = ops.size n.trie ∧
      ops.capaSize x.1 = 2 * ops.capaSize n.trie ∧ x.2.size = ops.capaSize n.trie ∧
      ∃ f : Nat → Nat, (∀ p i, S.T n.trie p = some i → x.2.get i = .ok (f i)) ∧
        (∀ i < ops.capaSize n.trie, (∀ p, S.T n.trie p ≠ some i) → x.2.get i = .ok u64max) ∧
        ∀ p, S.T x.1 p = (S.T n.trie p).map f)) :
    Post lim (doExpand ops n) (fun n' => Good S n' ps) := by
  unfold doExpand
  refine he.bind ?_
  rintro ⟨t, nm⟩ - ⟨h1, h2, h3, h4, h5, f, h6, h7, h8⟩
  dsimp only at *
  have hr : remap nm n.ids = .ok (n.ids.map (fun x => (x.1, f x.2))) := by
    apply remap_ok
    rintro ⟨p, i⟩ hx
    apply h6 p
    rw [tree]
    exact lookup_of_mem (by rw [paths]; exact nodup) hx
  rw [hr, R.bind_ok]
  refine { inv := h1, room := fun _ => h2, paths := ?_, nodup := nodup, tree := ?_, size := by rw [h3]; exact size, dense := fun hc => ?_ }
  · rw [← paths, List.map_map]; rfl
  · intro p; rw [h8, tree]; simp only [id?, lookup_map]
  · rw [hk] at hc; cases hc

/-- one operation -/
theorem Good.step (h : Good S n ps) {o : TreeOp} (hl : o.Legal sb) (hz : z0 ∨ ¬ o.zeroChild) {lim : Prop}
    (hlim : N ≤ ps.length + Spec.adds [o] → lim) :
    Post lim (Notes.step ops sb n o) (fun n' => Good S n' (ps.step o)) := by
  cases o with
  | expand =>
    simp only [Notes.step, Spec.Tree.step]
    split
    · rename_i hk
      exact (Good.expand_of hk.1 h.paths h.nodup h.tree h.size (S.expandAny hk.1 n.trie h.inv)).mono
        (fun hc => by omega) (fun _ _ hq => hq)
    · exact h
  | add p s =>
    simp only [Notes.step, Spec.Tree.step]
    cases hv : n.id? p with
    | none =>
      have hp : p ∉ ps := by rw [← h.paths]; exact (lookup_none_iff _ _).1 hv
      rw [if_neg (fun hc => hp hc.1)]
      exact h
    | some v =>
      have hp : p ∈ ps := by
        by_contra hc
        rw [← h.paths] at hc
        have := (lookup_none_iff _ _).2 hc
        rw [id?] at hv
        rw [hv] at this; cases this
      have hT : S.T n.trie p = some v := by rw [h.tree, hv]
      refine ((S.add n.trie h.inv h.room p v s hT hl (hz.imp id (fun hz => hz))).mono (lim' := lim)
        (fun hN => hlim (by rw [h.size] at hN; omega)) (fun _ _ hq => hq)).bind ?_
      · rintro ⟨t, c, b⟩ - ⟨h1, h2, h3, h4, h5, h6, h7, h8⟩
        dsimp only at *
        have hmem : s :: p ∈ ps ↔ b = false := by
          rw [h2, h.tree, ← h.paths]
          have := lookup_none_iff n.ids (s :: p)
          rw [id?]
          cases hx : n.ids.lookup (s :: p) with
          | none => simp only [Option.isNone_none, Bool.true_eq_false, iff_false]; exact this.1 hx
          | some j =>
            simp only [Option.isNone_some, iff_true]
            by_contra hc
            rw [this.2 hc] at hx; cases hx
        cases b with
        | false =>
          rw [if_neg (by simp), if_neg (by rw [hmem]; simp)]
          have hsome : ∃ j, S.T n.trie (s :: p) = some j := by
            cases hx : S.T n.trie (s :: p) with
            | none => rw [hx] at h2; simp at h2
            | some j => exact ⟨j, rfl⟩
          obtain ⟨j, hj⟩ := hsome
          refine { inv := h1, room := fun hk => ?_, paths := h.paths, nodup := h.nodup, tree := ?_, size := ?_, dense := h.dense }
          · rw [(h7 hk).2 rfl]; exact h.room hk
          · intro q
            show S.T t q = n.id? q
            rw [h3, ← h.tree]
            split
            · rename_i hq; rw [hq, hj, h4 j hj]
            · rfl
          · show ops.size t = _
            rw [h5, h.size]; rfl
        | true =>
          have hnew : s :: p ∉ ps := by rw [hmem]; simp
          have hcond : p ∈ ps ∧ s :: p ∉ ps := ⟨hp, hnew⟩
          rw [if_pos rfl]
          simp only [if_pos hcond]
          have hpaths : (n.ids ++ [(s :: p, c)]).map (·.1) = ps ++ [s :: p] := by
            rw [List.map_append, h.paths]; rfl
          have hnd : (ps ++ [s :: p]).Nodup := by
            rw [List.nodup_append]
            refine ⟨h.nodup, by simp, ?_⟩
            intro a ha b hb
            simp only [List.mem_singleton] at hb
            rw [hb]
            rintro rfl
            exact hnew ha
          have htree : ∀ q, S.T t q = Notes.id? { trie := t, ids := n.ids ++ [(s :: p, c)] } q := by
            intro q
            simp only [id?]
            rw [h3, lookup_append]
            by_cases hq : q = s :: p
            · subst hq
              have : n.ids.lookup (s :: p) = none := (lookup_none_iff _ _).2 (by rw [h.paths]; exact hnew)
              rw [if_pos rfl, this]
              simp
            · have hb : (q == s :: p) = false := by simpa using hq
              rw [if_neg hq, h.tree, id?]
              simp [List.lookup_cons, hb]
          have hsize : ops.size t = (ps ++ [s :: p]).length := by rw [h5, h.size]; simp
          split
          · rename_i hk
            refine (Good.expand_of (S := S) (n := { trie := t, ids := n.ids ++ [(s :: p, c)] }) hk.1 hpaths hnd htree hsize
              (S.expand hk.1 t h1 hk.2)).mono ?_ (fun _ _ hq => hq)
            intro hN
            apply hlim
            rw [hsize] at hN
            simpa [Spec.adds] using hN
          · rename_i hk
            refine { inv := h1, room := fun hkind => ?_, paths := hpaths, nodup := hnd, tree := htree, size := hsize, dense := ?_ }
            · cases hne : ops.needsToExpand t with
              | false => rfl
              | true => exact absurd ⟨hkind, hne⟩ hk
            · intro hkind
              rw [List.map_append, h.dense hkind]
              simp only [List.map_cons, List.map_nil, List.length_append, List.length_cons, List.length_nil]
              rw [List.range_succ, (h8 hkind) rfl, h.size]

theorem Good.run (os : List TreeOp) : ∀ {n : Notes τ} {ps : Spec.Tree}, Good S n ps → (∀ o ∈ os, o.Legal sb) →
    (z0 ∨ ∀ o ∈ os, ¬ o.zeroChild) → ∀ {lim : Prop}, (N ≤ ps.length + Spec.adds os → lim) →
    Post lim (Notes.run ops sb n os) (fun n' => Good S n' (os.foldl Spec.Tree.step ps)) := by
  induction os with
  | nil => intro n ps h _ _ lim _; exact h
  | cons o os ih =>
    intro n ps h hl hz lim hlim
    rw [Notes.run, List.foldl_cons]
    have hadds : Spec.adds (o :: os) = Spec.adds [o] + Spec.adds os := by
      cases o <;> simp [Spec.adds]; omega
    refine (h.step (hl o (by simp)) (hz.imp id (fun hz => hz o (by simp))) (lim := lim) (fun hN => hlim (by rw [hadds]; omega))).bind ?_
    intro n1 _ h1
    apply ih h1 (fun o ho => hl o (by simp [ho])) (hz.imp id (fun hz o ho => hz o (by simp [ho])))
    intro hN
    apply hlim
    have : (ps.step o).length ≤ ps.length + Spec.adds [o] := by
      cases o with
      | expand => simp [Spec.Tree.step]
      | add p s => simp only [Spec.Tree.step]; split <;> simp [Spec.adds]
    omega

theorem build_good (S : TrieSpec ops sb N z0) {cb : Nat} (hcb0 : S.cb0 ≤ cb) (hcb : max S.minb cb + sb < 64) {os : List TreeOp}
    (hl : ∀ o ∈ os, o.Legal sb) (hz : z0 ∨ ∀ o ∈ os, ¬ o.zeroChild) :
    Post (N ≤ 1 + Spec.adds os) (build ops cb sb os) (fun n => Good S n (Spec.Tree.run os)) := by
  obtain ⟨t, e1, hf, _⟩ := S.make_ok cb hcb0 hcb
  obtain ⟨t', r, e2, h1, h2, h3, h4, h5, _, h7⟩ := S.fresh_root t hf
  unfold build start
  rw [e1, R.bind_ok, e2, R.bind_ok, h2, R.bind_ok]
  show Post _ (Notes.run ops sb { trie := t', ids := [([], r)] } os) _
  refine Good.run os (S := S) (ps := [[]]) { inv := h1, room := fun _ => h5, paths := rfl, nodup := by simp, tree := ?_, size := h4, dense := ?_ } hl hz ?_
  · intro p
    rw [h3]
    simp only [id?, List.lookup_cons, List.lookup_nil]
    by_cases hp : p = []
    · subst hp; simp
    · have : (p == []) = false := by simpa using hp
      simp [hp, this]
  · intro hk; simp [h7 hk]
  · intro hN; simpa using hN

/-- walking a path of the tree ends at its node -/
theorem walk_ok (S : TrieSpec ops sb N z0) {t : τ} (h : S.Inv t) {p : Path} {i : Nat} (hp : S.T t p = some i)
    (hs : ∀ s ∈ p, s < 2 ^ sb) : nodeAt ops t p = .ok i := by
  induction p generalizing i with
  | nil =>
    obtain ⟨r, h1, h2⟩ := S.inv_root t h
    rw [nodeAt, h1]; rw [h2] at hp; injection hp with hp; rw [hp]
  | cons s p ih =>
    obtain ⟨v, hv⟩ := S.T_prefix t h s p i hp
    rw [nodeAt, ih hv (fun x hx => hs x (by simp [hx])), R.bind_ok, S.find t h p v s hv (hs s (by simp)), hp]
    rfl

end Notes
end Poplar
