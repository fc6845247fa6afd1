import Verif.Proof.NlmSpec
import Mathlib.Data.List.Infix
/-
  The path-decomposed trie, abstractly: nodes are addressed by the branches taken from the root
  (position in the label and byte, deepest first); a partial map gives their labels and values.
-/
namespace Poplar
open Spec

abbrev BP := List (Nat × UInt8)
abbrev LV := List UInt8 × List UInt8

theorem lcp_le_left (a b : List UInt8) : lcp a b ≤ a.length := by
  induction a generalizing b with
  | nil => simp [lcp]
  | cons x a ih =>
    cases b with
    | nil => simp [lcp]
    | cons y b =>
      simp only [lcp, List.length_cons]
      split
      · exact Nat.add_le_add_right (ih b) 1
      · omega

theorem lcp_take (a b : List UInt8) : a.take (lcp a b) = b.take (lcp a b) := by
  induction a generalizing b with
  | nil => cases b <;> simp [lcp]
  | cons x a ih =>
    cases b with
    | nil => simp [lcp]
    | cons y b =>
      simp only [lcp]
      split
      next h => subst h; simp [ih b]
      next h => simp

theorem _root_.Poplar.Spec.CString.ne_nil {k : List UInt8} (h : CString k) : k ≠ [] := by
  obtain ⟨s, _, rfl⟩ := h; simp

theorem _root_.Poplar.Spec.CString.cons {c : UInt8} {k : List UInt8} (h : CString (c :: k)) :
    (c = 0 ∧ k = []) ∨ (c ≠ 0 ∧ CString k) := by
  obtain ⟨s, hs, e⟩ := h
  cases s with
  | nil => simp at e; exact Or.inl e
  | cons a s =>
    simp at e
    obtain ⟨rfl, e⟩ := e
    exact Or.inr ⟨hs _ (by simp), s, fun x hx => hs x (by simp [hx]), e⟩

/-- `key` can be looked for below `bp`: it is what is left of a key of `U` at the node `bp` -/
def KeyAt (U : List UInt8 → Prop) (M : BP → Option LV) : BP → List UInt8 → Prop
  | [], k => U k
  | (n, c) :: bp, r => ∃ l v x, M bp = some (l, v) ∧ KeyAt U M bp x ∧ x ≠ l ∧ lcp x l = n ∧ x[n]? = some c ∧ r = x.drop (n + 1)

theorem KeyAt.ok {vs : Nat} {U : List UInt8 → Prop} {M : BP → Option LV} (hU : KeySet vs U) {bp : BP} {k : List UInt8}
    (h : KeyAt U M bp k) : OkLabel vs k := by
  induction bp generalizing k with
  | nil => exact ⟨Or.inr (hU.nul k h), hU.len k h⟩
  | cons y bp ih =>
    obtain ⟨n, c⟩ := y
    obtain ⟨l, v, x, _, hx, _, _, hc, rfl⟩ := h
    have hn : n < x.length := (List.getElem?_eq_some_iff.1 hc).1
    obtain ⟨h1, h2⟩ := ih hx
    refine ⟨?_, by rw [List.length_drop]; omega⟩
    rcases h1 with rfl | ⟨s, rfl⟩
    · simp at hn
    · simp only [List.length_append, List.length_singleton] at hn
      by_cases hs : n < s.length
      · right
        exact ⟨s.drop (n + 1), by rw [List.drop_append_of_le_length (by omega)]⟩
      · left
        exact List.drop_eq_nil_of_le (by simp; omega)

/-- the key from which a rest was left -/
theorem rest_eq {x l : List UInt8} {n : Nat} {c : UInt8} (h1 : lcp x l = n) (h2 : x[n]? = some c) :
    x = l.take n ++ c :: x.drop (n + 1) := by
  obtain ⟨hn, hc⟩ := List.getElem?_eq_some_iff.1 h2
  conv_lhs => rw [← List.take_append_drop n x, List.drop_eq_getElem_cons hn, hc]
  rw [← h1, lcp_take]

theorem _root_.Poplar.Spec.Sep.append {a b p : List UInt8} (h : Sep (p ++ a) (p ++ b)) : Sep a b := by
  induction p with
  | nil => exact h
  | cons x p ih => exact ih h.tail

theorem KeyAt.sep {vs : Nat} {U : List UInt8 → Prop} {M : BP → Option LV} (hU : KeySet vs U) {bp : BP} {k k' : List UInt8}
    (h : KeyAt U M bp k) (h' : KeyAt U M bp k') : Sep k k' := by
  induction bp generalizing k k' with
  | nil => exact hU.sep k k' h h'
  | cons y bp ih =>
    obtain ⟨n, c⟩ := y
    obtain ⟨l, v, x, hl, hx, _, hn, hc, rfl⟩ := h
    obtain ⟨l', v', x', hl', hx', _, hn', hc', rfl⟩ := h'
    rw [hl] at hl'
    cases hl'
    have := ih hx hx'
    rw [rest_eq hn hc, rest_eq hn' hc'] at this
    exact this.append.tail

theorem KeyAt.congr {U : List UInt8 → Prop} {M M' : BP → Option LV} {bp : BP}
    (h : ∀ q, q <:+ bp → q ≠ bp → (M' q).map (·.1) = (M q).map (·.1)) {k : List UInt8} (hk : KeyAt U M bp k) : KeyAt U M' bp k := by
  induction bp generalizing k with
  | nil => exact hk
  | cons y bp ih =>
    obtain ⟨n, c⟩ := y
    obtain ⟨l, v, x, hl, hx, h1, h2, h3, h4⟩ := hk
    have hne : ∀ q : BP, q <:+ bp → q ≠ (n, c) :: bp := fun q hq e => by
      have := hq.length_le; rw [e] at this; simp at this; omega
    have hb := h bp (List.suffix_cons _ _) (hne _ (List.suffix_refl _))
    rw [hl] at hb
    cases hb' : M' bp with
    | none => rw [hb'] at hb; simp at hb
    | some lv =>
      rw [hb'] at hb
      obtain ⟨l', v'⟩ := lv
      simp at hb
      subst hb
      exact ⟨_, v', x, hb', ih (fun q hq _ => h q (hq.trans (List.suffix_cons _ _)) (hne _ hq)) hx, h1, h2, h3, h4⟩

/-- follow `key` from `bp`: the node reached and what is left of the key -/
def walk (M : BP → Option LV) (bp : BP) (key : List UInt8) : BP × List UInt8 :=
  match M bp with
  | none => (bp, key)
  | some (l, _) =>
    if key = l then (bp, key)
    else if h : lcp key l < key.length then
      walk M ((lcp key l, key[lcp key l]) :: bp) (key.drop (lcp key l + 1))
    else (bp, key)
termination_by key.length
decreasing_by simp; omega

theorem walk_none {M : BP → Option LV} {bp : BP} {key : List UInt8} (h : M bp = none) :
    walk M bp key = (bp, key) := by
  rw [walk]; simp [h]

theorem walk_eq {M : BP → Option LV} {bp : BP} {l v : List UInt8} (h : M bp = some (l, v)) :
    walk M bp l = (bp, l) := by
  rw [walk]; simp [h]

theorem walk_step {M : BP → Option LV} {bp : BP} {key l v : List UInt8} (h : M bp = some (l, v))
    (hne : key ≠ l) (hl : lcp key l < key.length) :
    walk M bp key = walk M ((lcp key l, key[lcp key l]) :: bp) (key.drop (lcp key l + 1)) := by
  conv_lhs => rw [walk]
  simp [h, hne, hl]

structure AInv (vs : Nat) (U : List UInt8 → Prop) (M : BP → Option LV) : Prop where
  univ : KeySet vs U
  root : M [] ≠ none
  pre : ∀ x bp, M (x :: bp) ≠ none → M bp ≠ none
  lab : ∀ bp l v, M bp = some (l, v) → KeyAt U M bp l ∧ v.length = vs
  wit : ∀ bp, M bp ≠ none → ∃ y, U y ∧ (walk M [] y).1 = bp

theorem AInv.step {vs : Nat} {U : List UInt8 → Prop} {M : BP → Option LV} (hM : AInv vs U M) {bp : BP} {key l v : List UInt8}
    (hb : M bp = some (l, v)) (hk : KeyAt U M bp key) (hne : key ≠ l) : ∃ h : lcp key l < key.length,
      KeyAt U M ((lcp key l, key[lcp key l]) :: bp) (key.drop (lcp key l + 1)) := by
  have h := (hk.sep hM.univ (hM.lab _ _ _ hb).1).lcp_lt hne
  exact ⟨h, l, v, key, hb, hk, hne, rfl, List.getElem?_eq_getElem h, rfl⟩

/-- induction along a walk -/
theorem walk_ind {vs : Nat} {U : List UInt8 → Prop} {M : BP → Option LV} (hM : AInv vs U M)
    {P : BP → List UInt8 → BP × List UInt8 → Prop}
    (hnone : ∀ bp key, KeyAt U M bp key → M bp = none → P bp key (bp, key))
    (heq : ∀ bp l v, KeyAt U M bp l → M bp = some (l, v) → P bp l (bp, l))
    (hstep : ∀ bp key l v, KeyAt U M bp key → M bp = some (l, v) → key ≠ l →
      ∀ h : lcp key l < key.length,
      KeyAt U M ((lcp key l, key[lcp key l]) :: bp) (key.drop (lcp key l + 1)) →
      P ((lcp key l, key[lcp key l]) :: bp) (key.drop (lcp key l + 1))
        (walk M ((lcp key l, key[lcp key l]) :: bp) (key.drop (lcp key l + 1))) →
      P bp key (walk M ((lcp key l, key[lcp key l]) :: bp) (key.drop (lcp key l + 1)))) :
    ∀ bp key, KeyAt U M bp key → P bp key (walk M bp key) := by
  intro bp key
  induction hn : key.length using Nat.strongRecOn generalizing bp key with
  | ind n ih =>
    intro hk
    cases hb : M bp with
    | none => rw [walk_none hb]; exact hnone _ _ hk hb
    | some lv =>
      obtain ⟨l, v⟩ := lv
      by_cases he : key = l
      · subst he; rw [walk_eq hb]; exact heq _ _ _ hk hb
      · obtain ⟨h, h2⟩ := hM.step hb hk he
        rw [walk_step hb he h]
        exact hstep _ _ _ _ hk hb he h h2 (ih _ (by simp; omega) _ _ rfl h2)

theorem walk_post {vs : Nat} {U : List UInt8 → Prop} {M : BP → Option LV} (hM : AInv vs U M) (bp : BP) (key : List UInt8)
    (hk : KeyAt U M bp key) :
    bp <:+ (walk M bp key).1 ∧ KeyAt U M (walk M bp key).1 (walk M bp key).2 ∧
    (M (walk M bp key).1 = none ∨ ∃ v, M (walk M bp key).1 = some ((walk M bp key).2, v)) := by
  refine walk_ind hM (P := fun bp _ x => bp <:+ x.1 ∧ KeyAt U M x.1 x.2 ∧
    (M x.1 = none ∨ ∃ v, M x.1 = some (x.2, v))) ?_ ?_ ?_ bp key hk
  · intro bp key hk h; exact ⟨List.suffix_refl _, hk, Or.inl h⟩
  · intro bp l v hk h; exact ⟨List.suffix_refl _, hk, Or.inr ⟨v, h⟩⟩
  · intro bp key l v _ _ _ h _ ⟨h1, h2⟩
    exact ⟨(List.suffix_cons _ _).trans h1, h2⟩

theorem walk_inj {vs : Nat} {U : List UInt8 → Prop} {M : BP → Option LV} (hM : AInv vs U M) (bp : BP) (k1 : List UInt8)
    (h1 : KeyAt U M bp k1) : ∀ k2, KeyAt U M bp k2 → walk M bp k1 = walk M bp k2 → k1 = k2 := by
  refine walk_ind hM (P := fun bp k1 x => ∀ k2, KeyAt U M bp k2 → x = walk M bp k2 → k1 = k2)
    ?_ ?_ ?_ bp k1 h1
  · intro bp key _ hb k2 _ e
    rw [walk_none hb] at e; exact congrArg Prod.snd e
  · intro bp l v _ hb k2 hk2 e
    by_cases hne : k2 = l
    · exact hne.symm
    · exfalso
      obtain ⟨h, h2⟩ := hM.step hb hk2 hne
      rw [walk_step hb hne h] at e
      have := (walk_post hM _ _ h2).1.length_le
      rw [← e] at this; simp at this; omega
  · intro bp k1 l v hk1 hb hne h hk ih k2 hk2 e
    by_cases he : k2 = l
    · exfalso
      subst he
      rw [walk_eq hb] at e
      have := (walk_post hM _ _ hk).1.length_le
      rw [e] at this; simp at this; omega
    · obtain ⟨h', h2⟩ := hM.step hb hk2 he
      rw [walk_step hb he h'] at e
      have s1 := (walk_post hM _ _ hk).1
      have s2 := (walk_post hM _ _ h2).1
      rw [← e] at s2
      have hb' := (List.suffix_of_suffix_length_le s1 s2 (by simp)).eq_of_length (by simp)
      have h56 := List.cons.inj hb'
      have h5 := congrArg Prod.fst h56.1
      have h6 := congrArg Prod.snd h56.1
      simp only at h5 h6
      have h7 := ih (k2.drop (lcp k2 l + 1)) (by rw [hb']; exact h2) (by rw [e, hb'])
      rw [← List.take_append_drop (lcp k1 l) k1, ← List.take_append_drop (lcp k2 l) k2,
        lcp_take k1, lcp_take k2, h5, List.drop_eq_getElem_cons h', List.drop_eq_getElem_cons (i := lcp k2 l) (l := k1) (by omega)]
      have h8 : k1[lcp k2 l]'(by omega) = k2[lcp k2 l] := by rw [← h6]; congr 1; exact h5.symm
      rw [h8, ← h7, h5]

/-- the dictionary stored in `M` -/
def dict (M : BP → Option LV) (key : List UInt8) : Option (List UInt8) :=
  (M (walk M [] key).1).map (·.2)

/-- `M` changed at `b` -/
def upd (M : BP → Option LV) (b : BP) (x : LV) : BP → Option LV := fun q => if q = b then some x else M q

theorem walk_upd_ne {vs : Nat} {U : List UInt8 → Prop} {M M' : BP → Option LV} (hM : AInv vs U M) {b : BP}
    (hM' : ∀ q, q ≠ b → M' q = M q) (hb : M b = none) (bp : BP) (key : List UInt8) (hk : KeyAt U M bp key)
    (h : (walk M bp key).1 ≠ b) : walk M' bp key = walk M bp key := by
  revert h
  refine walk_ind hM (P := fun bp k x => x.1 ≠ b → walk M' bp k = x) ?_ ?_ ?_ bp key hk
  · intro bp key _ h hne; rw [walk_none]; rw [hM' _ hne]; exact h
  · intro bp l v _ h hne; rw [walk_eq]; rw [hM' _ hne]; exact h
  · intro bp k l v _ hl hne h _ ih hb'
    have : bp ≠ b := fun e => by rw [e, hb] at hl; cases hl
    rw [walk_step (l := l) (v := v) (by rw [hM' _ this]; exact hl) hne h]
    exact ih hb'

theorem walk_upd_eq {vs : Nat} {U : List UInt8 → Prop} {M : BP → Option LV} (hM : AInv vs U M) {b : BP} (x : LV)
    (hb : M b = none) (bp : BP) (key : List UInt8) (hk : KeyAt U M bp key)
    (h : (walk M bp key).1 = b) : walk (upd M b x) bp key = walk (upd M b x) b (walk M bp key).2 := by
  revert h
  refine walk_ind hM (P := fun bp k y => y.1 = b → walk (upd M b x) bp k = walk (upd M b x) b y.2) ?_ ?_ ?_ bp key hk
  · intro bp key _ h e; simp only at e; subst e; rfl
  · intro bp l v _ h e; simp only at e; subst e; rw [hb] at h
  · intro bp k l v _ hl hne h _ ih hb'
    have : bp ≠ b := fun e => by rw [e, hb] at hl; cases hl
    rw [walk_step (l := l) (v := v) (by simp [upd, this]; exact hl) hne h]
    exact ih hb'

theorem dict_insert {vs : Nat} {U : List UInt8 → Prop} {M : BP → Option LV} (hM : AInv vs U M) {k : List UInt8} (hk : U k)
    (hb : M (walk M [] k).1 = none) {v : List UInt8} (hv : v.length = vs) :
    AInv vs U (upd M (walk M [] k).1 ((walk M [] k).2, v)) ∧
    ∀ key, U key →
      dict (upd M (walk M [] k).1 ((walk M [] k).2, v)) key = if key = k then some v else dict M key := by
  have hp := walk_post hM [] k hk
  generalize hw : walk M [] k = w at *
  obtain ⟨b, r⟩ := w
  simp only at hp hb ⊢
  have hbne : b ≠ [] := fun e => hM.root (e ▸ hb)
  have hchild : ∀ y, M (y :: b) = none := fun y => by
    by_contra hc; exact hM.pre _ _ hc hb
  have hparent : ∃ y q l v, b = y :: q ∧ M q = some (l, v) := by
    have hgen := walk_ind hM (P := fun bp _ x => x.1 = bp ∨ ∃ y q l v, x.1 = y :: q ∧ M q = some (l, v))
      (fun _ _ _ _ => Or.inl rfl) (fun _ _ _ _ _ => Or.inl rfl)
      (fun bp key l v _ hl _ h _ ih => by
        rcases ih with h1 | h1
        · exact Or.inr ⟨_, _, _, _, h1, hl⟩
        · exact Or.inr h1) [] k hk
    rw [hw] at hgen
    rcases hgen with h1 | h1
    · exact absurd h1 hbne
    · exact h1
  obtain ⟨y, q, l0, v0, rfl, hq⟩ := hparent
  have hqne : q ≠ y :: q := fun e => by have := congrArg List.length e; simp at this
  have hnn : ∀ q' : BP, y :: q <:+ q' → q' ≠ y :: q → M q' = none := by
    intro q' hq'
    induction q' with
    | nil => intro _; have := hq'.length_le; simp at this
    | cons z q' ih =>
      intro hne
      rcases List.suffix_cons_iff.1 hq' with h1 | h1
      · exact absurd h1.symm hne
      · by_cases h2 : q' = y :: q
        · subst h2; exact hchild z
        · by_contra hc; exact hM.pre _ _ hc (ih h1 h2)
  have hcg : ∀ bp, (bp = y :: q ∨ M bp ≠ none) → ∀ {k}, KeyAt U M bp k → KeyAt U (upd M (y :: q) (r, v)) bp k := by
    intro bp hbp k hk
    refine hk.congr (fun q' hq' hne => ?_)
    simp only [upd]
    rw [if_neg]
    rintro rfl
    rcases hbp with rfl | h
    · exact hne rfl
    · exact h (hnn _ hq' (fun e => hne e.symm))
  refine ⟨⟨hM.univ, ?_, ?_, ?_, ?_⟩, ?_⟩
  · simp only [upd]; rw [if_neg (fun e => hbne e.symm)]; exact hM.root
  · intro x bp h
    simp only [upd] at h ⊢
    split
    · simp
    · split at h
      next h1 => injection h1 with h1 h2; subst h2; rw [hq]; simp
      next h1 => exact hM.pre _ _ h
  · intro bp l v' h
    simp only [upd] at h
    split at h
    next h1 => subst h1; injection h with h; injection h with h2 h3; subst h2 h3; exact ⟨hcg _ (Or.inl rfl) hp.2.1, hv⟩
    next h1 => exact ⟨hcg _ (Or.inr (by rw [h]; simp)) (hM.lab _ _ _ h).1, (hM.lab _ _ _ h).2⟩
  · intro bp h
    by_cases he : bp = y :: q
    · refine ⟨k, hk, ?_⟩
      rw [walk_upd_eq hM _ hb [] k hk (by rw [hw]), hw, walk_eq (v := v) (by simp [upd])]
      exact he.symm
    · simp only [upd, if_neg he] at h
      obtain ⟨z, z1, z2⟩ := hM.wit bp h
      refine ⟨z, z1, ?_⟩
      rw [walk_upd_ne hM (M' := upd M (y :: q) (r, v)) (fun q' hq' => by simp [upd, hq']) hb [] z z1 (by rw [z2]; exact he), z2]
  · intro key hkey
    have hp2 := walk_post hM [] key hkey
    by_cases he : (walk M [] key).1 = y :: q
    · rw [dict, walk_upd_eq hM _ hb [] key hkey he]
      by_cases hr : (walk M [] key).2 = r
      · have : key = k := walk_inj hM [] key hkey k hk (by rw [hw, ← he, ← hr])
        rw [if_pos this, hr, walk_eq (v := v) (by simp [upd])]
        simp [upd]
      · rw [if_neg (fun e => hr (by rw [e, hw]))]
        have hk2 : KeyAt U M (y :: q) (walk M [] key).2 := he ▸ hp2.2.1
        have h := (hk2.sep hM.univ hp.2.1).lcp_lt hr
        have hu : upd M (y :: q) (r, v) (y :: q) = some (r, v) := by simp [upd]
        rw [walk_step hu hr h]
        have hc : ∀ z, upd M (y :: q) (r, v) (z :: y :: q) = none := fun z => by
          simp only [upd]; rw [if_neg (fun e => by have := congrArg List.length e; simp at this)]; exact hchild z
        rw [walk_none (hc _), hc, dict, he, hb]
    · rw [dict, walk_upd_ne hM (M' := upd M (y :: q) (r, v)) (fun q' hq' => by simp [upd, hq']) hb [] key hkey he, if_neg]
      · simp only [upd]; rw [if_neg he]; rfl
      · intro e; apply he; rw [e, hw]

theorem walk_lab_congr {vs : Nat} {U : List UInt8 → Prop} {M M' : BP → Option LV} (hM : AInv vs U M)
    (h : ∀ q, (M' q).map (·.1) = (M q).map (·.1)) (bp : BP) (key : List UInt8) (hk : KeyAt U M bp key) :
    walk M' bp key = walk M bp key := by
  have hn : ∀ q, M q = none → M' q = none := fun q hq => by have := h q; rw [hq] at this; simpa using this
  have hs : ∀ q l v, M q = some (l, v) → ∃ v', M' q = some (l, v') := fun q l v hq => by
    have := h q
    rw [hq] at this
    cases h' : M' q with
    | none => rw [h'] at this; simp at this
    | some x => obtain ⟨a, b⟩ := x; rw [h'] at this; simp at this; exact ⟨b, by rw [this]⟩
  refine walk_ind hM (P := fun bp k x => walk M' bp k = x) ?_ ?_ ?_ bp key hk
  · intro bp key _ hb; rw [walk_none (hn _ hb)]
  · intro bp l v _ hb; obtain ⟨v', hv'⟩ := hs _ _ _ hb; rw [walk_eq hv']
  · intro bp k l v _ hl hne hlt _ ih
    obtain ⟨v', hv'⟩ := hs _ _ _ hl
    rw [walk_step hv' hne hlt]; exact ih

theorem dict_store {vs : Nat} {U : List UInt8 → Prop} {M : BP → Option LV} (hM : AInv vs U M) {k : List UInt8} (hk : U k)
    {l v0 v : List UInt8} (hb : M (walk M [] k).1 = some (l, v0)) (hv : v.length = vs) :
    AInv vs U (upd M (walk M [] k).1 (l, v)) ∧
    ∀ key, U key →
      dict (upd M (walk M [] k).1 (l, v)) key = if key = k then some v else dict M key := by
  have hcongr : ∀ q, (upd M (walk M [] k).1 (l, v) q).map (·.1) = (M q).map (·.1) := fun q => by
    simp only [upd]; split
    next h => subst h; rw [hb]; rfl
    next => rfl
  have hnn : ∀ q, M q ≠ none → upd M (walk M [] k).1 (l, v) q ≠ none := fun q h => by
    simp only [upd]; split
    · simp
    · exact h
  have hnn' : ∀ q, upd M (walk M [] k).1 (l, v) q ≠ none → M q ≠ none := fun q h => by
    simp only [upd] at h; split at h
    next h1 => subst h1; rw [hb]; simp
    next => exact h
  refine ⟨⟨hM.univ, hnn _ hM.root, fun x bp h => hnn _ (hM.pre x bp (hnn' _ h)), ?_, ?_⟩, ?_⟩
  · intro bp l' v' h
    simp only [upd] at h
    split at h
    next h1 => subst h1; injection h with h; injection h with h2 h3; subst h2 h3; exact ⟨(hM.lab _ _ _ hb).1.congr (fun q _ _ => hcongr q), hv⟩
    next h1 => exact ⟨(hM.lab _ _ _ h).1.congr (fun q _ _ => hcongr q), (hM.lab _ _ _ h).2⟩
  · intro bp h
    obtain ⟨z, z1, z2⟩ := hM.wit bp (hnn' _ h)
    exact ⟨z, z1, by rw [walk_lab_congr hM hcongr [] z z1]; exact z2⟩
  · intro key hkey
    rw [dict, walk_lab_congr hM hcongr [] key hkey]
    by_cases he : (walk M [] key).1 = (walk M [] k).1
    · have : key = k := by
        refine walk_inj hM [] key hkey k hk (Prod.ext he ?_)
        have h1 := (walk_post hM [] key hkey).2.2
        have h2 := (walk_post hM [] k hk).2.2
        rw [he] at h1
        rw [hb] at h1 h2
        rcases h1 with h1 | ⟨_, h1⟩
        · cases h1
        · rcases h2 with h2 | ⟨_, h2⟩
          · cases h2
          · injection h1 with h1; injection h2 with h2; injection h1 with h1 _; injection h2 with h2 _
            rw [← h1, ← h2]
      rw [if_pos this, this]; simp [upd]
    · rw [if_neg (fun e => he (by rw [e])), dict]; simp only [upd]; rw [if_neg he]

theorem dict_root {vs : Nat} {U : List UInt8 → Prop} (hU : KeySet vs U) {k v : List UInt8} (hk : U k) (hv : v.length = vs) :
    AInv vs U (fun bp => if bp = [] then some (k, v) else none) ∧
    ∀ key, U key → dict (fun bp => if bp = [] then some (k, v) else none) key = if key = k then some v else none := by
  refine ⟨⟨hU, by simp, fun x bp h => by simp at h, ?_, ?_⟩, ?_⟩
  · intro bp l v' h
    split at h
    next h1 => subst h1; injection h with h; injection h with h2 h3; subst h2 h3; exact ⟨hk, hv⟩
    next => cases h
  · intro bp h
    have : bp = [] := by by_contra hc; simp [hc] at h
    subst this
    exact ⟨k, hk, by rw [walk_eq (v := v) (by simp)]⟩
  · intro key hkey
    by_cases he : key = k
    · subst he
      rw [dict, walk_eq (v := v) (by simp)]; simp
    · have h := (hU.sep _ _ hkey hk).lcp_lt he
      rw [dict, walk_step (l := k) (v := v) (by simp) he h, walk_none (by simp)]; simp [he]

/-! ### where an unsuccessful walk stops -/

theorem lcp_le_right (a b : List UInt8) : lcp a b ≤ b.length := by
  induction a generalizing b with
  | nil => simp [lcp]
  | cons x a ih =>
    cases b with
    | nil => simp [lcp]
    | cons y b =>
      simp only [lcp, List.length_cons]
      split
      · exact Nat.add_le_add_right (ih b) 1
      · omega

theorem le_lcp {n : Nat} {a b : List UInt8} (h1 : n ≤ a.length) (h2 : n ≤ b.length) (h3 : a.take n = b.take n) :
    n ≤ lcp a b := by
  induction n generalizing a b with
  | zero => omega
  | succ n ih =>
    cases a with
    | nil => simp at h1
    | cons x a =>
      cases b with
      | nil => simp at h2
      | cons y b =>
        simp only [List.take_succ_cons, List.cons.injEq] at h3
        simp only [lcp, h3.1, if_true]
        have := ih (by simpa using h1) (by simpa using h2) h3.2
        omega

theorem take_of_le_lcp {n : Nat} {a b : List UInt8} (h : n ≤ lcp a b) : a.take n = b.take n := by
  have := congrArg (List.take n) (lcp_take a b)
  rwa [List.take_take, List.take_take, Nat.min_eq_left h] at this

theorem lcp_drop {n : Nat} {a b : List UInt8} (h1 : n ≤ a.length) (h2 : n ≤ b.length) (h3 : a.take n = b.take n) :
    lcp a b = n + lcp (a.drop n) (b.drop n) := by
  induction n generalizing a b with
  | zero => simp
  | succ n ih =>
    cases a with
    | nil => simp at h1
    | cons x a =>
      cases b with
      | nil => simp at h2
      | cons y b =>
        simp only [List.take_succ_cons, List.cons.injEq] at h3
        simp only [lcp, h3.1, if_true, List.drop_succ_cons]
        rw [ih (by simpa using h1) (by simpa using h2) h3.2]; omega

theorem lcp_congr {n : Nat} {a b l : List UInt8} (h1 : n < a.length) (h2 : n < b.length)
    (h3 : a.take (n + 1) = b.take (n + 1)) (h4 : lcp a l = n) : lcp b l = n := by
  have hn : a.take n = b.take n := by
    have := congrArg (List.take n) h3
    rwa [List.take_take, List.take_take, Nat.min_eq_left (by omega)] at this
  have hl := lcp_le_right a l
  have e1 : n ≤ lcp b l := le_lcp (by omega) (by omega) (by rw [← hn, ← h4, lcp_take])
  by_contra hc
  have e2 : n + 1 ≤ lcp b l := by omega
  have e3 := lcp_le_right b l
  have e4 : n + 1 ≤ lcp a l := le_lcp (by omega) (by omega) (by rw [h3, take_of_le_lcp e2])
  omega

theorem take_succ_iff {n : Nat} {a b : List UInt8} (h1 : n < a.length) (h2 : n < b.length) :
    a.take (n + 1) = b.take (n + 1) ↔ a.take n = b.take n ∧ a[n] = b[n] := by
  rw [List.take_succ_eq_append_getElem h1, List.take_succ_eq_append_getElem h2]
  constructor
  · intro h
    have := List.append_inj' h rfl
    exact ⟨this.1, by simpa using this.2⟩
  · rintro ⟨h3, h4⟩; rw [h3, h4]

theorem walk_len {vs : Nat} {U : List UInt8 → Prop} {M : BP → Option LV} (hM : AInv vs U M) (bp : BP) (key : List UInt8) (hk : KeyAt U M bp key) :
    (walk M bp key).2.length ≤ key.length := by
  refine walk_ind hM (P := fun _ key x => x.2.length ≤ key.length) ?_ ?_ ?_ bp key hk
  · intro bp key _ _; exact Nat.le_refl _
  · intro bp l v _ _; exact Nat.le_refl _
  · intro bp key l v _ _ _ h _ ih
    simp only [List.length_drop] at ih; omega

theorem walk_stay {vs : Nat} {U : List UInt8 → Prop} {M : BP → Option LV} (hM : AInv vs U M) {bp : BP} {key : List UInt8} (hk : KeyAt U M bp key)
    (h : (walk M bp key).1 = bp) : (walk M bp key).2 = key ∧ ∀ l v, M bp = some (l, v) → key = l := by
  cases hb : M bp with
  | none => rw [walk_none hb]; exact ⟨rfl, fun l v e => by cases e⟩
  | some lv =>
    obtain ⟨l, v⟩ := lv
    by_cases he : key = l
    · subst he; rw [walk_eq hb]; exact ⟨rfl, fun l v e => by cases e; rfl⟩
    · exfalso
      obtain ⟨h1, h2⟩ := hM.step hb hk he
      rw [walk_step hb he h1] at h
      have := (walk_post hM _ _ h2).1.length_le
      rw [h] at this; simp at this; omega

/-- if two walks go through the same first branch, the keys agree up to and including it -/
theorem walk_first {vs : Nat} {U : List UInt8 → Prop} {M : BP → Option LV} (hM : AInv vs U M) {bp : BP} {y l v : List UInt8} {n : Nat} {c : UInt8}
    (hy : KeyAt U M bp y) (hb : M bp = some (l, v)) (h : (n, c) :: bp <:+ (walk M bp y).1) :
    ∃ hn : n < y.length, y ≠ l ∧ lcp y l = n ∧ y[n] = c ∧ KeyAt U M ((n, c) :: bp) (y.drop (n + 1)) ∧
      walk M bp y = walk M ((n, c) :: bp) (y.drop (n + 1)) := by
  have hyl : y ≠ l := by
    rintro rfl
    rw [walk_eq hb] at h
    have := h.length_le; simp at this; omega
  obtain ⟨h1, h2⟩ := hM.step hb hy hyl
  rw [walk_step hb hyl h1] at h ⊢
  have h3 := (walk_post hM _ _ h2).1
  have h4 := (List.suffix_of_suffix_length_le h h3 (by simp)).eq_of_length (by simp)
  injection h4 with h5 _
  injection h5 with h6 h7
  subst h6
  exact ⟨h1, hyl, rfl, h7.symm, by rw [h7]; exact h2, by rw [h7]⟩

theorem walk_stuck_eq {vs : Nat} {U : List UInt8 → Prop} {M : BP → Option LV} (hM : AInv vs U M) (bp : BP) (key : List UInt8) (hk : KeyAt U M bp key) :
    ∀ mt c q, (walk M bp key).1 = (mt, c) :: q → (walk M bp key).1 ≠ bp → ∀ y, KeyAt U M bp y → (walk M bp y).1 = q →
      key.drop (lcp key y) = c :: (walk M bp key).2 := by
  refine walk_ind hM (P := fun bp key x => ∀ mt c q, x.1 = (mt, c) :: q → x.1 ≠ bp → ∀ y, KeyAt U M bp y →
    (walk M bp y).1 = q → key.drop (lcp key y) = c :: x.2) ?_ ?_ ?_ bp key hk
  · intro bp key _ _ _ _ _ _ h; exact absurd rfl h
  · intro bp key _ _ _ _ _ _ _ h; exact absurd rfl h
  · intro bp key l v hkey hl hne hlt hk2 ih mt c q hx _ y hy hq
    by_cases hs : (walk M ((lcp key l, key[lcp key l]) :: bp) (key.drop (lcp key l + 1))).1 = (lcp key l, key[lcp key l]) :: bp
    · rw [hs] at hx
      injection hx with hx1 hx2
      injection hx1 with _ hx3
      subst hx2
      have hyl := (walk_stay hM hy hq).2 _ _ hl
      subst hyl
      rw [(walk_stay hM hk2 hs).1, List.drop_eq_getElem_cons hlt, hx3]
    · have hsuf : (lcp key l, key[lcp key l]) :: bp <:+ q := by
        have := (walk_post hM _ _ hk2).1
        rw [hx] at this
        rcases List.suffix_cons_iff.1 this with h1 | h1
        · exact absurd (hx.trans h1.symm) hs
        · exact h1
      obtain ⟨hn, hyl, h2, h3, h4, h5⟩ := walk_first hM hy hl (by rw [hq]; exact hsuf)
      have h6 : key.take (lcp key l + 1) = y.take (lcp key l + 1) := by
        rw [take_succ_iff hlt hn]
        refine ⟨?_, h3.symm⟩
        have := lcp_take y l
        rw [h2] at this
        rw [lcp_take key l, this]
      rw [lcp_drop (n := lcp key l + 1) (by omega) (by omega) h6, ← List.drop_drop]
      exact ih mt c q hx hs _ h4 (by rw [← h5]; exact hq)

theorem walk_stuck_le {vs : Nat} {U : List UInt8 → Prop} {M : BP → Option LV} (hM : AInv vs U M) (bp : BP) (key : List UInt8) (hk : KeyAt U M bp key) :
    M (walk M bp key).1 = none → (walk M bp key).1 ≠ bp → ∀ y, KeyAt U M bp y → M (walk M bp y).1 ≠ none →
      lcp key y + (walk M bp key).2.length + 1 ≤ key.length := by
  refine walk_ind hM (P := fun bp key x => M x.1 = none → x.1 ≠ bp → ∀ y, KeyAt U M bp y → M (walk M bp y).1 ≠ none →
      lcp key y + x.2.length + 1 ≤ key.length) ?_ ?_ ?_ bp key hk
  · intro bp key _ _ _ h; exact absurd rfl h
  · intro bp key _ _ _ _ h; exact absurd rfl h
  · intro bp key l v hkey hl hne hlt hk2 ih hx _ y hy hq
    have hlen := walk_len hM _ _ hk2
    rw [List.length_drop] at hlen
    by_cases hle : lcp key y ≤ lcp key l
    · omega
    · have hlen1 := lcp_le_left key y
      have hlen2 := lcp_le_right key y
      have h6 : key.take (lcp key l + 1) = y.take (lcp key l + 1) := take_of_le_lcp (by omega)
      have hn : lcp key l < y.length := by omega
      have h2 : lcp y l = lcp key l := lcp_congr hlt hn h6 rfl
      have hyl : y ≠ l := by
        rintro rfl
        exact hle (Nat.le_refl _)
      obtain ⟨g1, g2⟩ := hM.step hl hy hyl
      rw [walk_step hl hyl g1] at hq
      have h3 : y[lcp y l] = key[lcp key l] := by
        simp only [h2]
        exact ((take_succ_iff hlt hn).1 h6).2.symm
      rw [h3] at g2 hq
      rw [h2] at g2 hq
      by_cases hs : (walk M ((lcp key l, key[lcp key l]) :: bp) (key.drop (lcp key l + 1))).1 = (lcp key l, key[lcp key l]) :: bp
      · exfalso
        rw [hs] at hx
        rw [walk_none hx] at hq
        exact hq hx
      · have := ih hx hs _ g2 hq
        rw [lcp_drop (n := lcp key l + 1) (by omega) (by omega) h6]
        rw [List.length_drop] at this; omega

/-- An unsuccessful walk stops at the byte after the longest common prefix of the key with the keys of the dictionary. -/
theorem walk_branch {vs : Nat} {U : List UInt8 → Prop} {M : BP → Option LV} (hM : AInv vs U M) {key : List UInt8} (hk : U key)
    (h : M (walk M [] key).1 = none) :
    ∃ mt c q n, (walk M [] key).1 = (mt, c) :: q ∧ key[n]? = some c ∧ (walk M [] key).2 = key.drop (n + 1) ∧
      (∀ y, U y → dict M y ≠ none → lcp key y ≤ n) ∧ ∃ y, U y ∧ dict M y ≠ none ∧ lcp key y = n := by
  have hne : (walk M [] key).1 ≠ [] := fun e => hM.root (by rw [← e]; exact h)
  have hgen := walk_ind hM (P := fun bp _ x => x.1 = bp ∨ ∃ y q, x.1 = y :: q ∧ M q ≠ none)
    (fun _ _ _ _ => Or.inl rfl) (fun _ _ _ _ _ => Or.inl rfl)
    (fun bp key l v _ hl _ h _ ih => by
      rcases ih with h1 | h1
      · exact Or.inr ⟨_, _, h1, by rw [hl]; simp⟩
      · exact Or.inr h1) [] key hk
  rcases hgen with h1 | ⟨⟨mt, c⟩, q, h1, h2⟩
  · exact absurd h1 hne
  obtain ⟨y, y1, y2⟩ := hM.wit q h2
  have hA := walk_stuck_eq hM [] key hk mt c q h1 hne y y1 y2
  have hlen := congrArg List.length hA
  simp only [List.length_drop, List.length_cons] at hlen
  refine ⟨mt, c, q, lcp key y, h1, ?_, ?_, ?_, y, y1, ?_, rfl⟩
  · have := congrArg (fun l => l[0]?) hA
    simpa using this
  · rw [← List.drop_drop, hA]; rfl
  · intro z z1 z2
    have := walk_stuck_le hM [] key hk h hne z z1 (by simpa [dict] using z2)
    omega
  · simpa [dict, y2] using h2

end Poplar
