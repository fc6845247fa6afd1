import Verif.Proof.Prefixes
import Verif.Spec.Nodes
/-
  The branches of the abstract trie, key by key: where each begins and how far the branches that leave it are away.
-/
namespace Poplar
open Spec

/-- the number of characters on the way to a branch -/
def bdepth (b : BP) : Nat := (b.map fun x => x.1 + 1).sum

@[simp] theorem bdepth_cons (x : Nat × UInt8) (b : BP) : bdepth (x :: b) = x.1 + 1 + bdepth b := by simp [bdepth]

theorem walk_depth {vs : Nat} {U : List UInt8 → Prop} {M : BP → Option LV} (hM : AInv vs U M) (bp : BP) (key : List UInt8) (hk : KeyAt U M bp key) :
    (walk M bp key).2.length + bdepth (walk M bp key).1 = key.length + bdepth bp := by
  refine walk_ind hM (P := fun bp key x => x.2.length + bdepth x.1 = key.length + bdepth bp) ?_ ?_ ?_ bp key hk
  · intros; rfl
  · intros; rfl
  · intro bp key l v _ _ _ h _ ih
    rw [ih, List.length_drop, bdepth_cons]; dsimp only; omega

namespace Spec

theorem sharedLen_eq {ks : List Key} {k : Key} {n : Nat} (h1 : ∀ x ∈ ks, lcp k x ≤ n) (h2 : ∃ x ∈ ks, lcp k x = n) : sharedLen ks k = n := by
  rcases Nat.eq_zero_or_pos n with rfl | hn
  · by_contra hc
    obtain ⟨x, x1, x2⟩ := (le_sharedLen (ks := ks) (k := k) (j := 1) (by omega)).1 (by omega)
    have := h1 x x1
    omega
  · obtain ⟨x, x1, x2⟩ := h2
    refine Nat.le_antisymm ?_ ((le_sharedLen hn).2 ⟨x, x1, Nat.le_of_eq x2.symm⟩)
    by_contra hc
    obtain ⟨y, y1, y2⟩ := (le_sharedLen (ks := ks) (k := k) (j := n + 1) (by omega)).1 (by omega)
    have := h1 y y1
    omega

theorem leaveAt_split {k : Key} {p : Nat} {e : Way} {S2 : List Way} (he : lcp k e.key = p) : ∀ {S1 : List Way}, (∀ x ∈ S1, lcp k x.key ≠ p) →
    leaveAt k p (S1 ++ e :: S2) = S1 ++ { e with reach := max e.reach (p - e.start) } :: S2
  | [], _ => by simp [leaveAt, he]
  | x :: S1, h => by
    rw [List.cons_append, leaveAt, if_neg (h x (by simp)), leaveAt_split he (fun y hy => h y (by simp [hy]))]; rfl

end Spec

/-- `S` lists the branches of `M` -/
structure Ways (U : List UInt8 → Prop) (M : BP → Option LV) (S : List Way) : Prop where
  univ : ∀ e ∈ S, U e.key
  nodup : (S.map fun e => (walk M [] e.key).1).Nodup
  mem : ∀ b, M b ≠ none ↔ ∃ e ∈ S, (walk M [] e.key).1 = b
  start : ∀ e ∈ S, e.start = bdepth (walk M [] e.key).1
  le : ∀ e ∈ S, ∀ mt c, M ((mt, c) :: (walk M [] e.key).1) ≠ none → mt ≤ e.reach
  att : ∀ e ∈ S, e.reach = 0 ∨ ∃ c, M ((e.reach, c) :: (walk M [] e.key).1) ≠ none
  before : S.Pairwise fun e' e => lcp e.key e'.key < e.start

namespace Ways
variable {vs : Nat} {U : List UInt8 → Prop} {M M' : BP → Option LV} {S : List Way}

theorem ne_nil (h : Ways U M S) (hM : AInv vs U M) : S ≠ [] := by
  rintro rfl
  obtain ⟨e, e1, _⟩ := (h.mem []).1 hM.root
  cases e1

/-- the same labels -/
theorem congr (h : Ways U M S) (hM : AInv vs U M) (hc : ∀ q, (M' q).map (·.1) = (M q).map (·.1)) : Ways U M' S := by
  have hw : ∀ e ∈ S, walk M' [] e.key = walk M [] e.key := fun e he => walk_lab_congr hM hc [] e.key (h.univ e he)
  have hn : ∀ q, M' q = none ↔ M q = none := fun q => by
    rw [← Option.map_eq_none_iff (f := Prod.fst), ← Option.map_eq_none_iff (f := Prod.fst) (x := M q), hc]
  refine ⟨h.univ, ?_, fun b => ?_, fun e he => ?_, fun e he mt c hb => ?_, fun e he => ?_, h.before⟩
  · rw [List.map_congr_left fun e he => by rw [hw e he]]; exact h.nodup
  · rw [Ne, hn, ← Ne, h.mem]
    constructor <;> rintro ⟨e, e1, e2⟩ <;> exact ⟨e, e1, by first | rw [hw e e1]; exact e2 | rw [← hw e e1]; exact e2⟩
  · rw [hw e he]; exact h.start e he
  · rw [hw e he, Ne, hn] at hb; exact h.le e he mt c hb
  · rw [hw e he]
    exact (h.att e he).imp id fun ⟨c, hc⟩ => ⟨c, by rw [Ne, hn]; exact hc⟩

/-- the keys with a label are those of `S` -/
theorem dict_iff (h : Ways U M S) (hM : AInv vs U M) {y : Key} (hy : U y) : dict M y ≠ none ↔ ∃ e ∈ S, e.key = y := by
  have hd : dict M y ≠ none ↔ M (walk M [] y).1 ≠ none := by rw [dict]; simp
  rw [hd]
  constructor
  · intro h1
    obtain ⟨e, e1, e2⟩ := (h.mem _).1 h1
    refine ⟨e, e1, walk_inj hM [] _ (h.univ e e1) _ hy (Prod.ext e2 ?_)⟩
    obtain ⟨_, _, p1⟩ := walk_post hM [] y hy
    obtain ⟨_, _, p2⟩ := walk_post hM [] e.key (h.univ e e1)
    rw [e2] at p2
    obtain ⟨v, p1⟩ := p1.resolve_left h1
    obtain ⟨w, p2⟩ := p2.resolve_left h1
    rw [p1] at p2
    injection p2 with p2
    injection p2 with p2 _
    exact p2.symm
  · rintro ⟨e, e1, rfl⟩
    exact (h.mem _).2 ⟨e, e1, rfl⟩

theorem first {k : Key} (hk : U k) {v : List UInt8} (hM : M = fun b => if b = [] then some (k, v) else none) : Ways U M [⟨k, 0, 0⟩] := by
  have hw : walk M [] k = ([], k) := walk_eq (v := v) (by rw [hM]; rfl)
  refine ⟨by simpa using hk, by simp, fun b => ?_, ?_, ?_, ?_, by simp⟩
  · simp only [List.mem_singleton, exists_eq_left, hw]
    rw [hM]; dsimp only
    split
    next e => simp [e]
    next e => simpa using fun h : [] = b => e h.symm
  · simp [hw, bdepth]
  · simp only [List.mem_singleton, forall_eq, hw]
    intro mt c hb
    rw [hM] at hb; simp at hb
  · simp

theorem step (h : Ways U M S) (hM : AInv vs U M) {k : Key} (hk : U k) (hn : M (walk M [] k).1 = none) {v : List UInt8}
    (hM' : M' = upd M (walk M [] k).1 ((walk M [] k).2, v)) : Ways U M' (addWay S k) := by
  obtain ⟨mt, c, q, n, g1, g2, g3, g4, y, g5, g6, g7⟩ := walk_branch hM hk hn
  have hnk : n < k.length := (List.getElem?_eq_some_iff.1 g2).1
  have hsh : sharedLen (S.map Way.key) k = n := by
    refine sharedLen_eq (fun x hx => ?_) ?_
    · obtain ⟨e, e1, rfl⟩ := List.mem_map.1 hx
      exact g4 _ (h.univ e e1) ((h.dict_iff hM (h.univ e e1)).2 ⟨e, e1, rfl⟩)
    · obtain ⟨e, e1, rfl⟩ := (h.dict_iff hM g5).1 g6
      exact ⟨_, List.mem_map.2 ⟨e, e1, rfl⟩, g7⟩
  -- the key that `k` leaves
  obtain ⟨_, p2, _⟩ := walk_post hM [] k hk
  have hq : M q ≠ none := by
    rw [g1] at p2
    obtain ⟨l, w, _, p3, _⟩ := p2
    rw [p3]; simp
  obtain ⟨x, x1, x2⟩ := (h.mem q).1 hq
  have hne : (walk M [] k).1 ≠ [] := by rw [g1]; simp
  have hlx : lcp k x.key = n := by
    have h1 := walk_stuck_eq hM [] k hk mt c q g1 hne x.key (h.univ x x1) x2
    have h1 := congrArg List.length h1
    rw [g3] at h1
    simp only [List.length_drop, List.length_cons] at h1
    have := lcp_le_left k x.key
    omega
  have hdq : bdepth q + mt = n := by
    have h1 := walk_depth hM [] k hk
    rw [g1, g3, bdepth_cons] at h1
    simp only [List.length_drop, bdepth, List.map_nil, List.sum_nil] at h1
    simp only [bdepth]
    omega
  have hsx : x.start = bdepth q := by rw [h.start x x1, x2]
  obtain ⟨S1, S2, rfl⟩ := List.append_of_mem x1
  have hbef : ∀ e ∈ S1, lcp k e.key ≠ n := by
    intro e he hc
    have h1 : lcp x.key e.key < x.start := (List.pairwise_append.1 h.before).2.2 e he x (by simp)
    have h2 : n ≤ lcp x.key e.key := by
      have hx := lcp_le_right k x.key
      have he' := lcp_le_right k e.key
      refine le_lcp (by omega) (by omega) ?_
      rw [← take_of_le_lcp (a := k) (b := x.key) (by omega), take_of_le_lcp (a := k) (b := e.key) (by omega)]
    omega
  have hadd : addWay (S1 ++ x :: S2) k = (S1 ++ { x with reach := max x.reach mt } :: S2) ++ [⟨k, n + 1, 0⟩] := by
    rw [addWay, if_neg (by simp), hsh, leaveAt_split hlx hbef, hsx, show n - bdepth q = mt by omega]
  rw [hadd]
  -- the walks in the new trie
  have hold : ∀ e ∈ S1 ++ x :: S2, walk M' [] e.key = walk M [] e.key := by
    intro e he
    refine walk_upd_ne hM (b := (walk M [] k).1) (fun q hq => by rw [hM', upd, if_neg hq]) hn [] e.key (h.univ e he) ?_
    intro e2
    exact (h.mem _).2 ⟨e, he, e2⟩ hn
  have hnew : walk M' [] k = walk M [] k := by
    rw [hM', walk_upd_eq hM _ hn [] k hk rfl, walk_eq (v := v) (by rw [upd, if_pos rfl])]
  -- both kinds of members
  have hmemS : ∀ e ∈ S1 ++ { x with reach := max x.reach mt } :: S2, ∃ e0 ∈ S1 ++ x :: S2, e.key = e0.key ∧ e.start = e0.start ∧
      ((e = e0 ∧ e0 ≠ x) ∨ (e0 = x ∧ e.reach = max x.reach mt)) := by
    have hnd := List.nodup_middle.1 (List.Nodup.of_map _ h.nodup)
    obtain ⟨hnx, _⟩ := List.nodup_cons.1 hnd
    rw [List.mem_append, not_or] at hnx
    intro e he
    rw [List.mem_append, List.mem_cons] at he
    rcases he with he | rfl | he
    · exact ⟨e, by simp [he], rfl, rfl, Or.inl ⟨rfl, fun hx => by subst hx; exact hnx.1 he⟩⟩
    · exact ⟨x, by simp, rfl, rfl, Or.inr ⟨rfl, rfl⟩⟩
    · exact ⟨e, by simp [he], rfl, rfl, Or.inl ⟨rfl, fun hx => by subst hx; exact hnx.2 he⟩⟩
  have hkeys : (S1 ++ { x with reach := max x.reach mt } :: S2).map Way.key = (S1 ++ x :: S2).map Way.key := by simp
  have hmem' : ∀ b, M' b ≠ none ↔ M b ≠ none ∨ b = (walk M [] k).1 := by
    intro b
    rw [hM', upd]
    split
    next e => simp [e]
    next e => simp [e]
  have hinj : ∀ e ∈ S1 ++ x :: S2, (walk M [] e.key).1 = q → e = x := fun e he e2 =>
    List.inj_on_of_nodup_map h.nodup he x1 (e2.trans x2.symm)
  have hmap : ∀ L : List Way, L.map (fun e => (walk M' [] e.key).1) = (L.map Way.key).map fun z => (walk M' [] z).1 := fun L => by simp
  refine ⟨fun e he => ?_, ?_, fun b => ?_, fun e he => ?_, fun e he mt' c' hb => ?_, fun e he => ?_, ?_⟩
  · rcases List.mem_append.1 he with he | he
    · obtain ⟨e0, m1, m2, _⟩ := hmemS e he
      rw [m2]; exact h.univ e0 m1
    · rw [List.mem_singleton.1 he]; exact hk
  · rw [List.map_append, hmap, hkeys, ← hmap, List.map_congr_left fun e he => by rw [hold e he]]
    refine List.nodup_append.2 ⟨h.nodup, by simp, ?_⟩
    intro b1 hb1 b2 hb2 e
    simp only [List.map_cons, List.map_nil, List.mem_singleton, hnew] at hb2
    subst e
    obtain ⟨e, e1, e2⟩ := List.mem_map.1 hb1
    rw [hb2] at e2
    exact (h.mem _).2 ⟨e, e1, e2⟩ hn
  · rw [hmem', h.mem]
    constructor
    · rintro (⟨e, e1, e2⟩ | rfl)
      · have : e.key ∈ (S1 ++ { x with reach := max x.reach mt } :: S2).map Way.key := by rw [hkeys]; exact List.mem_map.2 ⟨e, e1, rfl⟩
        obtain ⟨e', m1, m2⟩ := List.mem_map.1 this
        exact ⟨e', List.mem_append.2 (Or.inl m1), by rw [m2, hold e e1]; exact e2⟩
      · exact ⟨_, List.mem_append.2 (Or.inr (List.mem_singleton.2 rfl)), by rw [hnew]⟩
    · rintro ⟨e, he, e2⟩
      rcases List.mem_append.1 he with he | he
      · obtain ⟨e0, m1, m2, _⟩ := hmemS e he
        rw [m2, hold e0 m1] at e2
        exact Or.inl ⟨e0, m1, e2⟩
      · rw [List.mem_singleton.1 he, hnew] at e2
        exact Or.inr e2.symm
  · rcases List.mem_append.1 he with he | he
    · obtain ⟨e0, m1, m2, m3, _⟩ := hmemS e he
      rw [m3, m2, hold e0 m1]; exact h.start e0 m1
    · rw [List.mem_singleton.1 he, hnew, g1, bdepth_cons]; dsimp only; omega
  · rcases List.mem_append.1 he with he | he
    · obtain ⟨e0, m1, m2, _, m4⟩ := hmemS e he
      rw [m2, hold e0 m1] at hb
      rcases (hmem' _).1 hb with hb | hb
      · have := h.le e0 m1 mt' c' hb
        rcases m4 with ⟨rfl, _⟩ | ⟨rfl, m4⟩
        · exact this
        · rw [m4]; omega
      · rw [g1] at hb
        injection hb with hb1 hb2
        injection hb1 with hb1 _
        have e3 := hinj e0 m1 hb2
        rcases m4 with ⟨_, m4⟩ | ⟨_, m4⟩
        · exact absurd e3 m4
        · rw [m4]; omega
    · rw [List.mem_singleton.1 he, hnew] at hb
      rcases (hmem' _).1 hb with hb | hb
      · exact absurd hn (hM.pre _ _ hb)
      · have := congrArg List.length hb; simp at this
  · rcases List.mem_append.1 he with he | he
    · obtain ⟨e0, m1, m2, _, m4⟩ := hmemS e he
      rw [m2, hold e0 m1]
      rcases m4 with ⟨rfl, _⟩ | ⟨rfl, m4⟩
      · exact (h.att _ m1).imp id fun ⟨c, hc⟩ => ⟨c, (hmem' _).2 (Or.inl hc)⟩
      · rw [m4]
        rcases Nat.le_total e0.reach mt with hl | hl
        · rw [Nat.max_eq_right hl, x2]
          exact Or.inr ⟨c, (hmem' _).2 (Or.inr g1.symm)⟩
        · rw [Nat.max_eq_left hl]
          exact (h.att _ m1).imp id fun ⟨c, hc⟩ => ⟨c, (hmem' _).2 (Or.inl hc)⟩
    · rw [List.mem_singleton.1 he]; exact Or.inl rfl
  · refine List.pairwise_append.2 ⟨?_, by simp, fun e he e' he' => ?_⟩
    · have := h.before
      simp only [List.pairwise_append, List.pairwise_cons, List.mem_cons, forall_eq_or_imp] at this ⊢
      exact this
    · rw [List.mem_singleton.1 he']
      obtain ⟨e0, m1, m2, _⟩ := hmemS e he
      rw [m2]
      have := g4 _ (h.univ e0 m1) ((h.dict_iff hM (h.univ e0 m1)).2 ⟨e0, m1, rfl⟩)
      dsimp only; omega

end Ways
end Poplar
