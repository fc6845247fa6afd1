import Verif.Proof.FillMap
/-
  The whole history.
-/
namespace Poplar.Fill
open Poplar.Spec Poplar.Map

variable {p : Params} {hp : p.Valid} {m : Map CompactFk CompactFkNlm} {nc b : Nat}

theorem okLabel (hv : p.valSize < 2 ^ 63) (s : List UInt8) (hs : s.length < 2 ^ 62) : OkLabel p.valSize (s ++ [0]) := by
  refine ⟨.inr ⟨s, rfl⟩, ?_⟩
  rw [List.length_append, List.length_singleton]
  omega

theorem not_bad (s : List UInt8) : ¬ badKey (s ++ [0]) = true := by
  unfold badKey
  rw [List.getLast?_append_of_ne_nil _ (by simp)]
  simp

theorem branchKey_append (q : Nat) (s : List UInt8) : branchKey q (s ++ [0]) = branchKey q s ++ [0] := by
  simp [branchKey]

/-- `update` of a non-empty map starts at the root -/
theorem update_root {t : CompactFk} (ht : m.trie = t) (hI : CompactFk.Inv (Alias.compactCfg p) 13 t) (s : List UInt8) :
    Map.update (Alias.cfg .compactFkhash p) m (s ++ [0]) =
      updLoop (Alias.cfg .compactFkhash p) ((s ++ [0]).length + 1) m 0 (s ++ [0]) := by
  subst ht
  have hz : ¬ (Alias.cfg .compactFkhash p).T.size m.trie = 0 := by
    show ¬ m.trie.size = 0
    rw [hI.size]; omega
  rw [update_later (not_bad s) hz]
  show (m.trie.getRoot >>= _) = _
  rw [hI.root, R.bind_ok]

/-- what an `update` by a user does -/
theorem exec_of {key : List UInt8} {Q : Map CompactFk CompactFkNlm → Prop}
    (h : Map.update (Alias.cfg .compactFkhash p) m key = .error .limit ∨
      ∃ m' l w, Map.update (Alias.cfg .compactFkhash p) m key = .ok (m', .ptr l) ∧ Map.load (Alias.cfg .compactFkhash p) m' l = .ok w ∧ Q m') :
    Map.exec (Alias.cfg .compactFkhash p) m (.update key) = .error .limit ∨
      ∃ m' x, Map.exec (Alias.cfg .compactFkhash p) m (.update key) = .ok (m', x) ∧ Q m' := by
  rcases h with e | ⟨m', l, w, e, hl, hQ⟩
  · left; show (Map.update _ _ _ >>= _) = _; rw [e]; rfl
  · right
    refine ⟨m', .value w, ?_, hQ⟩
    show (Map.update _ _ _ >>= _) = _
    rw [e, R.bind_ok]
    dsimp only
    rw [hl]
    rfl

theorem parent_step (hs : Std (Alias.compactCfg p)) (hv : p.valSize < 2 ^ 63) {q : Nat} (hq : q < 200) (h : MS hp (min q 25) (q + 1) m)
    (ht : Start (Alias.compactCfg p) q m.trie) :
    Map.exec (Alias.cfg .compactFkhash p) m (.update (parentKey q)) = .error .limit ∨
      ∃ m' x, Map.exec (Alias.cfg .compactFkhash p) m (.update (parentKey q)) = .ok (m', x) ∧
        MS hp (min (q + 1) 25) (q + 2) m' ∧ Start (Alias.compactCfg p) (q + 1) m'.trie := by
  have hq8 : q / 25 < 32 := by omega
  obtain ⟨hl1, hl2⟩ := letter_ne (c := q % 25 + 1) (by omega) (by omega)
  have hroom := room hs ht.inv ht.bits
  have hsize := ht.size
  have hok : OkLabel p.valSize lab33 := okLabel hv (List.replicate 33 97) (by simp)
  have hlab : lab33.isEmpty = false := rfl
  refine exec_of ?_
  have hkey : parentKey q = branchKey q (List.replicate 33 97) ++ [0] := branchKey_append q (List.replicate 33 97)
  rw [hkey, update_root rfl ht.inv, ← hkey]
  unfold parentKey branchKey
  rw [h.round (Nat.succ_pos q) hq8 hl1 lab33]
  have hadd : CompactFk.addChild (Alias.compactCfg p) m.trie 0 (q / 25 * 256 + (q % 25 + 1)) = .error .limit ∨
      ∃ t', CompactFk.addChild (Alias.compactCfg p) m.trie 0 (q / 25 * 256 + (q % 25 + 1)) = .ok (t', m.trie.size, true) ∧
        t'.size = m.trie.size + 1 ∧ Start (Alias.compactCfg p) (q + 1) t' := by
    rcases ht.step hs hq with e | ⟨t', e, h'⟩
    · exact .inl e
    · refine .inr ⟨t', ?_, ?_, h'⟩
      · rw [hsize, Nat.add_comm 1 q]; exact e
      · rw [h'.size, hsize]; omega
  have fin : ∀ m' : Map CompactFk CompactFkNlm, MS hp (min (q + 1) 25) (q + 1) m' → m'.trie.size = m.trie.size + 1 →
      (∃ w, (Alias.nlmSpec .compactFkhash p hp).L m'.nlm m.trie.size lab33.isEmpty = some (lab33, w)) → MS hp (min (q + 1) 25) (q + 2) m' := by
    intro m' h1 h2 h3
    refine { h1 with lab := ?_, bsz := by rw [h2, hsize]; omega }
    intro i hi
    by_cases he : i = q + 1
    · rw [hlab, hsize] at h3
      rw [he, Nat.add_comm]; exact h3
    · exact h1.lab i (by omega)
  by_cases h25 : q < 25
  · have e1 : min q 25 = q := by omega
    have e2 : min (q + 1) 25 = q + 1 := by omega
    have e3 : q % 25 + 1 = q + 1 := by omega
    rw [e1] at h
    rw [e2] at fin ⊢
    have hunk : cdOf m.codes (letter (q % 25 + 1)) = 255 := h.unk _ (by omega) (by omega)
    have hnum := h.num
    rw [round_unknown h.codes hunk (by omega)]
    obtain ⟨a1, a2⟩ := h.codes.assign hunk (by omega)
    have hset := cdOf_set h.codes.size (letter (q % 25 + 1))
    have h1 : MS hp (q + 1) (q + 1) { m with codes := m.codes.setIfInBounds (letter (q % 25 + 1)).toNat (m.numCodes % 256), numCodes := m.numCodes + 1 } := by
      refine ⟨h.lam, ?_, ?_, by omega, ?_, ?_, h.nlm, h.lsz, h.lab, h.bsz⟩
      · show CodeInv (m.codes.setIfInBounds _ (m.numCodes % 256)) _
        rw [hnum]; exact a1
      · show m.numCodes + 1 = q + 1 + 1
        rw [hnum]
      · intro i hi1 hi2
        show cdOf (m.codes.setIfInBounds _ (m.numCodes % 256)) _ = _
        rw [hset]
        split
        · rename_i e
          have := letter_inj (by omega) (by omega) e
          omega
        · rename_i e
          refine h.known i hi1 ?_
          rcases Nat.lt_or_ge q i with hlt | hge
          · exact absurd (by rw [show i = q % 25 + 1 by omega]) e
          · exact hge
      · intro i hi1 hi2
        show cdOf (m.codes.setIfInBounds _ (m.numCodes % 256)) _ = _
        rw [hset, if_neg]
        · exact h.unk i (by omega) hi2
        · intro e
          have := letter_inj (by omega) (by omega) e
          omega
    rcases h1.put (K := updLoop (Alias.cfg .compactFkhash p) _) (h1.known (q % 25 + 1) (by omega) (by omega)) (by omega) hq8 hok hadd with e | ⟨m', l, w, e, b1, b2, b3, b4, b5⟩
    · exact .inl e
    · exact .inr ⟨m', l, w, e, b1, fin m' b2 b4 b5, b3⟩
  · have e1 : min q 25 = 25 := by omega
    have e2 : min (q + 1) 25 = 25 := by omega
    rw [e1] at h
    rw [e2] at fin ⊢
    have hk := h.known (q % 25 + 1) (by omega) (by omega)
    rw [round_known h.codes hk (by omega)]
    rcases h.put (K := updLoop (Alias.cfg .compactFkhash p) _) hk (by omega) hq8 hok hadd with e | ⟨m', l, w, e, b1, b2, b3, b4, b5⟩
    · exact .inl e
    · exact .inr ⟨m', l, w, e, b1, fin m' b2 b4 b5, b3⟩

theorem leaf_step (hs : Std (Alias.compactCfg p)) (hv : p.valSize < 2 ^ 63) {lo f r g n e : Nat} (hf : f < 65536) (hn : n < 53084) (hE : f ∉ E)
    (he : Ent lo f r e) (h : MS hp 25 201 m) (ht : Stage (Alias.compactCfg p) f r g n m.trie) :
    Map.exec (Alias.cfg .compactFkhash p) m (.update (leafKey e)) = .error .limit ∨
      ∃ m' x, Map.exec (Alias.cfg .compactFkhash p) m (.update (leafKey e)) = .ok (m', x) ∧
        MS hp 25 201 m' ∧ Stage (Alias.compactCfg p) (f + 1) (rot (h29 (entryKey e)) + 1) (g + if 15 ≤ lo then 1 else 0) (n + 1) m'.trie := by
  obtain ⟨e1, e2, e3, e4, -, -, -⟩ := id he
  generalize hqd : e / 1024 - 1 = q
  have hq : q < 200 := by omega
  have hq8 : q / 25 < 32 := by omega
  obtain ⟨hl1, hl2⟩ := letter_ne (c := q % 25 + 1) (by omega) (by omega)
  obtain ⟨hl3, hl4⟩ := letter_ne e3 e4
  have hroom := room hs ht.inv ht.bits
  have hsize := ht.size
  refine exec_of ?_
  have hrest : List.replicate (e / 32 % 32) 97 ++ letter (e % 32) :: [0] = (List.replicate (e / 32 % 32) 97 ++ [letter (e % 32)]) ++ [0] := by simp
  have hkey : leafKey e = branchKey q (List.replicate (e / 32 % 32) 97 ++ [letter (e % 32)]) ++ [0] := by
    unfold leafKey; rw [hqd, hrest, branchKey_append]
  have hlen : (leafKey e).length = q / 25 + 1 + (e / 32 % 32) + 2 := by
    unfold leafKey branchKey
    rw [hqd]
    simp
    omega
  rw [hkey, update_root rfl ht.inv, ← hkey, hlen]
  unfold leafKey branchKey
  rw [hqd]
  rw [h.round (by omega) hq8 hl1, round_known h.codes (h.known (q % 25 + 1) (by omega) (by omega)) (by omega),
    branch_eq h.codes (h.known (q % 25 + 1) (by omega) (by omega)) (by omega) hq8]
  have hfound : CompactFk.addChild (Alias.compactCfg p) m.trie 0 (q / 25 * 256 + (q % 25 + 1)) = .ok (m.trie, q + 1, false) := by
    refine ht.inv.add_found hs.ok (p := []) rfl (psym_lt hq) (by omega) ?_
    rw [Nat.zero_mul, Nat.zero_add]
    exact ht.par q hq
  rw [hfound, R.bind_ok, if_neg (by simp)]
  show (updLoop _ (q / 25 + 1 + (e / 32 % 32) + 1 + 1) m (q + 1) _ = _) ∨ _
  have hk := h.known (e % 32) e3 e4
  rw [h.round (by omega) (Nat.mod_lt _ (by decide)) hl3, round_known h.codes hk (by omega)]
  have hadd : CompactFk.addChild (Alias.compactCfg p) m.trie (q + 1) (e / 32 % 32 * 256 + e % 32) = .error .limit ∨
      ∃ t', CompactFk.addChild (Alias.compactCfg p) m.trie (q + 1) (e / 32 % 32 * 256 + e % 32) = .ok (t', m.trie.size, true) ∧
        t'.size = m.trie.size + 1 ∧ Stage (Alias.compactCfg p) (f + 1) (rot (h29 (entryKey e)) + 1) (g + if 15 ≤ lo then 1 else 0) (n + 1) t' := by
    have e5 : q + 1 = e / 1024 := by omega
    rw [e5]
    rcases ht.put hs hf hn hE he with e | ⟨t', e, h'⟩
    · exact .inl e
    · exact .inr ⟨t', by rw [hsize]; exact e, by rw [h'.size, hsize], h'⟩
  rcases h.put (K := updLoop (Alias.cfg .compactFkhash p) _) hk (by omega) (Nat.mod_lt _ (by decide)) (okLabel hv [] (by decide)) hadd with e | ⟨m', l, w, e, b1, b2, b3, b4, b5⟩
  · exact .inl e
  · exact .inr ⟨m', l, w, e, b1, b2, b3⟩

/-- a run that fails or reaches a state -/
def Run (p : Params) (m : Map CompactFk CompactFkNlm) (ks : List (List UInt8)) (Q : Map CompactFk CompactFkNlm → Prop) : Prop :=
  Map.run (Alias.cfg .compactFkhash p) m (ks.map .update) = .error .limit ∨
    ∃ m' xs, Map.run (Alias.cfg .compactFkhash p) m (ks.map .update) = .ok (m', xs) ∧ Q m'

theorem Run.cons {k : List UInt8} {ks : List (List UInt8)} {P Q : Map CompactFk CompactFkNlm → Prop}
    (h : Map.exec (Alias.cfg .compactFkhash p) m (.update k) = .error .limit ∨
      ∃ m' x, Map.exec (Alias.cfg .compactFkhash p) m (.update k) = .ok (m', x) ∧ P m')
    (h2 : ∀ m', P m' → Run p m' ks Q) : Run p m (k :: ks) Q := by
  unfold Run
  rw [List.map_cons]
  rcases h with e | ⟨m', x, e, hP⟩
  · left; rw [Map.run, e]; rfl
  · rcases h2 m' hP with e2 | ⟨m2, xs, e2, hQ⟩
    · left; rw [Map.run, e, R.bind_ok]; dsimp only; rw [e2]; rfl
    · right; refine ⟨m2, x :: xs, ?_, hQ⟩
      rw [Map.run, e, R.bind_ok]; dsimp only; rw [e2]; rfl

theorem Run.append {ks ks' : List (List UInt8)} {P Q : Map CompactFk CompactFkNlm → Prop}
    (h : Run p m ks P) (h2 : ∀ m', P m' → Run p m' ks' Q) : Run p m (ks ++ ks') Q := by
  unfold Run
  rw [List.map_append, Map.run_append]
  rcases h with e | ⟨m', xs, e, hP⟩
  · left; rw [e]; rfl
  · rcases h2 m' hP with e2 | ⟨m2, ys, e2, hQ⟩
    · left; rw [e, R.bind_ok]; dsimp only; rw [e2]; rfl
    · right; refine ⟨m2, xs ++ ys, ?_, hQ⟩
      rw [e, R.bind_ok]; dsimp only; rw [e2]; rfl

theorem parents_run (hs : Std (Alias.compactCfg p)) (hv : p.valSize < 2 ^ 63) : ∀ (n q : Nat) (m : Map CompactFk CompactFkNlm), q + n ≤ 200 →
    MS hp (min q 25) (q + 1) m → Start (Alias.compactCfg p) q m.trie →
    Run p m ((List.range' q n).map parentKey) (fun m' => MS hp (min (q + n) 25) (q + n + 1) m' ∧ Start (Alias.compactCfg p) (q + n) m'.trie) := by
  intro n
  induction n with
  | zero => intro q m _ h1 h2; exact .inr ⟨m, [], rfl, h1, h2⟩
  | succ n ih =>
    intro q m hq h1 h2
    rw [List.range'_succ, List.map_cons]
    refine Run.cons (parent_step hs hv (by omega) h1 h2) ?_
    rintro m' ⟨h3, h4⟩
    have := ih (q + 1) m' (by omega) h3 h4
    rwa [show q + 1 + n = q + (n + 1) by omega] at this

theorem Path.le {lo f r es f' r'} (h : Path lo f r es f' r') : f ≤ f' := by
  induction h with
  | nil => exact Nat.le_refl _
  | gap _ _ ih => omega
  | up _ _ ih => exact ih
  | put _ _ _ ih => omega

theorem leaves_run (hs : Std (Alias.compactCfg p)) (hv : p.valSize < 2 ^ 63) {lo f r es f' r'} (h : Path lo f r es f' r') (hf : f' ≤ 65536) :
    ∀ (m : Map CompactFk CompactFkNlm) (g n : Nat), n + es.length ≤ 53084 → MS hp 25 201 m → Stage (Alias.compactCfg p) f r g n m.trie →
    Run p m (es.map leafKey) (fun m' => MS hp 25 201 m' ∧
      Stage (Alias.compactCfg p) f' r' (g + if 15 ≤ lo then es.length else 0) (n + es.length) m'.trie) := by
  induction h with
  | nil =>
    intro m g n _ h1 h2
    refine .inr ⟨m, [], rfl, h1, ?_⟩
    simpa using h2
  | gap a _ ih => intro m g n hn h1 h2; exact ih hf m g n hn h1 (h2.gap a)
  | up a _ ih => intro m g n hn h1 h2; exact ih hf m g n hn h1 (h2.up a)
  | @put f r e es f' r' a b c ih =>
    intro m g n hn h1 h2
    rw [List.length_cons] at hn
    have := c.le
    rw [List.map_cons]
    refine Run.cons (leaf_step hs hv (by omega) (by omega) a b h1 h2) ?_
    rintro m' ⟨h3, h4⟩
    have := ih hf m' _ _ (by omega) h3 h4
    rw [List.length_cons, show n + (es.length + 1) = n + 1 + es.length by omega]
    by_cases hlo : 15 ≤ lo
    · simp only [if_pos hlo] at this ⊢
      rwa [show g + (es.length + 1) = g + 1 + es.length by omega]
    · simpa only [if_neg hlo] using this

/-- the keys -/
def fillKeys : List (List UInt8) := lab33 :: ((List.range' 0 200).map parentKey ++ (ents0.map leafKey ++ ents1.map leafKey))

theorem fillKeys_length : fillKeys.length = 52654 := by
  simp only [fillKeys, List.length_cons, List.length_append, List.length_map, List.length_range', ents0_length, ents1_length]

/-- the first key -/
theorem root_step (hv : p.valSize < 2 ^ 63) {m0 : Map CompactFk CompactFkNlm}
    (hF : FreshM (Alias.trieSpec .compactFkhash p 13 0 (by decide)) (Alias.nlmSpec .compactFkhash p hp) m) (hb : m.trie.capa.bits = 16)
    (h0 : m0 = m ∨ m0 = Map.default (Alias.cfg .compactFkhash p) ∧ Map.make (Alias.cfg .compactFkhash p) 0 32 = .ok m) :
    ∃ m' x, Map.exec (Alias.cfg .compactFkhash p) m0 (.update lab33) = .ok (m', x) ∧ MS hp 0 1 m' ∧ Start (Alias.compactCfg p) 0 m'.trie := by
  have hfr : CompactFk.Fresh (Alias.compactCfg p) 13 m.trie := hF.trie.1
  obtain ⟨t, t1, t2, t3, t4, t5⟩ := hfr.addRoot (Alias.compactOK p)
  have hok : OkLabel p.valSize lab33 := okLabel hv (List.replicate 33 97) (by simp)
  have hI : (Alias.nlmSpec .compactFkhash p hp).Inv 0 m.nlm := (Alias.nlmSpec .compactFkhash p hp).inv_fk rfl _ _ _ hF.nlm
  obtain ⟨n', l, a1, a2, a3, a4, a5, a6, a7⟩ := (Alias.nlmSpec .compactFkhash p hp).append rfl 0 m.nlm hI lab33 hok
  rw [hF.fk] at a3 a4 a6 a7
  have hupd : Map.update (Alias.cfg .compactFkhash p) m0 lab33 = .ok ({ m with size := m.size + 1, trie := t, nlm := n' }, .ptr l) := by
    have hz : (Alias.cfg .compactFkhash p).T.size m0.trie = 0 := by
      rcases h0 with rfl | ⟨rfl, _⟩
      · exact hfr.size
      · rfl
    rw [update_first (key := lab33) (not_bad (List.replicate 33 97)) hz]
    have cont : ((do
        let trie ← (Alias.cfg .compactFkhash p).T.addRoot m.trie
        let node ← (Alias.cfg .compactFkhash p).T.getRoot trie
        putLabel (Alias.cfg .compactFkhash p) { m with size := m.size + 1, trie := trie } node lab33) : R _) =
        .ok ({ m with size := m.size + 1, trie := t, nlm := n' }, .ptr l) := by
      show (m.trie.addRoot >>= _) = _
      rw [t1, R.bind_ok]
      show (t.getRoot >>= _) = _
      rw [t2.root, R.bind_ok]
      show ((Alias.cfg .compactFkhash p).L.append m.nlm lab33 >>= _) = _
      rw [a1]
      rfl
    rcases h0 with rfl | ⟨rfl, e⟩
    · rw [if_neg (by simp [hF.ready]), R.pure_eq, R.bind_ok]
      exact cont
    · rw [if_pos (show (!(Map.default (Alias.cfg .compactFkhash p)).isReady) = true from rfl), e, R.bind_ok]
      exact cont
  have hM : ∀ k, t.M (Alias.compactCfg p) 13 k = none := by
    intro k
    have := t5 (k / 2 ^ 13) (k % 2 ^ 13)
    rw [CompactFk.child, childOf, if_pos (Nat.mod_lt _ (by decide)), Nat.div_add_mod' k] at this
    exact this
  have hused := t2.size
  rw [t3] at hused
  have hocc : ∀ i < 65536, t.occ (Alias.compactCfg p) 13 i = none := by
    intro i hi
    cases ho : t.occ (Alias.compactCfg p) 13 i with
    | none => rfl
    | some k =>
      have := hM k
      rw [CompactFk.M, lookv_none] at this
      exact absurd ho (this i (by rw [t4, hb]; exact hi))
  refine ⟨{ m with size := m.size + 1, trie := t, nlm := n' }, .value (List.replicate p.valSize 0), ?_, ?_, ?_⟩
  · show (Map.update _ _ _ >>= _) = _
    rw [hupd, R.bind_ok]
    dsimp only
    rw [show Map.load (Alias.cfg .compactFkhash p) { m with size := m.size + 1, trie := t, nlm := n' } l = .ok (List.replicate p.valSize 0) from
      (Alias.nlmSpec .compactFkhash p hp).load 0 n' a2 l _ _ _ _ a3 a6]
    rfl
  · refine ⟨hF.lam.trans (by decide), by have := hF.codes; rw [hF.num] at this; exact this, hF.num, by decide, fun i h1 h2 => by omega, ?_, a2, a4.trans t3.symm, ?_, ?_⟩
    · intro i h1 h2
      have := hF.not_coded (letter i)
      by_contra hc
      exact this ⟨hF.ready, hc, (letter_ne (by omega) h2).2⟩
    · intro i hi
      obtain rfl : i = 0 := by omega
      exact ⟨_, a6⟩
    · show 1 ≤ t.size
      rw [t3]
  · refine ⟨t2, by show t.capa.bits = 16; rw [t4, hb], t3, ?_, fun k hk => absurd hk (Nat.not_lt_zero _), ?_⟩
    · intro i hi
      rw [hocc i hi]
      simp
    · intro k x hx
      rw [hM] at hx
      cases hx

/-- the whole history -/
theorem fill_limit (hs : Std (Alias.compactCfg p)) (hv : p.valSize < 2 ^ 63) {m0 : Map CompactFk CompactFkNlm}
    (hF : FreshM (Alias.trieSpec .compactFkhash p 13 0 (by decide)) (Alias.nlmSpec .compactFkhash p hp) m) (hb : m.trie.capa.bits = 16)
    (h0 : m0 = m ∨ m0 = Map.default (Alias.cfg .compactFkhash p) ∧ Map.make (Alias.cfg .compactFkhash p) 0 32 = .ok m) :
    Map.run (Alias.cfg .compactFkhash p) m0 (fillKeys.map .update) = .error .limit := by
  have key : Run p m0 fillKeys (fun _ => False) := by
    unfold fillKeys
    refine Run.cons (.inr (root_step hv hF hb h0)) ?_
    rintro m1 ⟨h1, h2⟩
    refine Run.append (parents_run hs hv 200 0 m1 (by decide) h1 h2) ?_
    rintro m2 ⟨h3, h4⟩
    refine Run.append (leaves_run hs hv path0 (by decide) m2 0 201 (by rw [ents0_length]; decide) h3 h4.stage) ?_
    rintro m3 ⟨h5, h6⟩
    rw [ents0_length] at h6
    rcases leaves_run hs hv path1 (by decide) m3 _ _ (by rw [ents1_length]; decide) h5 h6 with e | ⟨m4, xs, e, h7, h8⟩
    · exact .inl e
    · have := h8.bound hs (by decide)
      rw [ents1_length] at this
      simp at this
  rcases key with e | ⟨_, _, _, h⟩
  · exact e
  · exact h.elim

end Poplar.Fill
