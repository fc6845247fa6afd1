import Verif.Proof.ReadsSpec
import Verif.Proof.MapDict
/-
  `find` byte by byte: run in one go it is `find`, and it reads no byte of any value.
-/
namespace Poplar.Map
open Poplar Spec

section
variable {τ ν : Type} {cfg : MapCfg τ ν} {sb N vs : Nat} {z0 : Prop} {U : List UInt8 → Prop} {B : ByteOps ν}
variable {TS : TrieSpec cfg.T sb N z0} {NS : NlmSpec cfg.L cfg.T.kind vs}

theorem findLoopR_run (hB : ∀ m i key, (B.compare m i key).run (B.byte m) = cfg.L.compare m i key) (m : Map τ ν) (fuel : Nat) :
    ∀ node key, (findLoopR cfg B m fuel node key).run (B.byte m.nlm) = findLoop cfg m fuel node key := by
  induction fuel with
  | zero => intros; rfl
  | succ fuel ih =>
    intro node key
    simp only [findLoopR, findLoop]
    split
    · rw [Reads.run_bind, hB]; rfl
    · rw [Reads.run_bind, hB]
      congr 1
      funext x
      obtain ⟨vptr, mt⟩ := x
      cases vptr with
      | some l => rfl
      | none =>
        dsimp only
        rw [Reads.run_bind, Reads.run_ret]
        congr 1
        funext key
        rw [Reads.run_bind, Reads.run_ret]
        congr 1
        funext r
        cases r with
        | none => rfl
        | some r =>
          obtain ⟨node, mt⟩ := r
          cases key with
          | nil => rfl
          | cons c rest =>
            dsimp only
            rw [Reads.run_bind, Reads.run_ret]
            congr 1
            funext code
            split
            · rfl
            · rw [Reads.run_bind, Reads.run_ret]
              congr 1
              funext symb
              rw [Reads.run_bind, Reads.run_ret]
              congr 1
              funext node
              split
              · rfl
              · exact ih _ _

theorem findR_run (hB : ∀ m i key, (B.compare m i key).run (B.byte m) = cfg.L.compare m i key) (m : Map τ ν) (key : List UInt8) :
    (findR cfg B m key).run (B.byte m.nlm) = find cfg m key := by
  simp only [findR, find]
  split
  · rfl
  · split
    · rfl
    · rw [Reads.run_bind, Reads.run_ret]
      congr 1
      funext node
      exact findLoopR_run hB m _ _ _

/-- only the static part of the label store matters -/
theorem findSteps_nlm (m : Map τ ν) (n : ν) (fuel : Nat) : ∀ node mt, findSteps cfg { m with nlm := n } fuel node mt = findSteps cfg m fuel node mt := by
  induction fuel with
  | zero => intros; rfl
  | succ fuel ih =>
    intro node mt
    simp only [findSteps, ih]

theorem findLoopR_nlm (m : Map τ ν) {n : ν} (h : B.compare n = B.compare m.nlm) (fuel : Nat) : ∀ node key,
    findLoopR cfg B { m with nlm := n } fuel node key = findLoopR cfg B m fuel node key := by
  induction fuel with
  | zero => intros; rfl
  | succ fuel ih =>
    intro node key
    simp only [findLoopR, findSteps_nlm, h, ih, makeSymb]

theorem findR_nlm (m : Map τ ν) {n : ν} (h : B.compare n = B.compare m.nlm) (key : List UInt8) :
    findR cfg B { m with nlm := n } key = findR cfg B m key := by
  simp only [findR, findLoopR_nlm m h]

theorem FInv.findLoopR_within (hB : ByteSpec B NS) {n : Nat} {m : Map τ ν} (h : FInv TS NS U n m) (hA : AInv vs U (MM TS NS U m)) (fuel : Nat) :
    ∀ (bp : BP) (node : Nat) (key : List UInt8), key.length < fuel → KeyAt U (MM TS NS U m) bp key →
    Known (cdOf m.codes) bp → TS.T m.trie (flat m.lambda (cdOf m.codes) bp) = some node →
    (findLoopR cfg B m fuel node key).Within (NS.Outside m.nlm) (B.byte m.nlm) := by
  induction fuel with
  | zero => intro bp node key hf; omega
  | succ fuel ih =>
    intro bp node key hf hkey hkn hn
    have hne := h.mm_some hkn (by rw [hn]; simp)
    obtain ⟨⟨l, v⟩, hlv⟩ := Option.ne_none_iff_exists'.1 hne
    obtain ⟨e0, hL⟩ := h.at_node hlv hn
    have hlab := (hA.lab _ _ _ hlv).1
    have hsep := hkey.sep hA.univ hlab
    have hcmp := NS.compare _ _ h.core.nlm node _ l v hL key hsep
    have hwi := hB.within _ _ h.core.nlm node _ l v hL key hsep
    simp only [findLoopR]
    split
    · exact Reads.within_bind hwi fun _ _ => trivial
    · refine Reads.within_bind hwi fun x hx => ?_
      rw [hB.run] at hx
      by_cases he : key = l
      · obtain ⟨p, hp1, hp2⟩ := hcmp.1 he
        rw [hp1] at hx
        cases hx
        trivial
      · obtain ⟨hlt, hk2⟩ := hA.step hlv hkey he
        rw [hcmp.2 he] at hx
        cases hx
        dsimp only
        rw [advance, if_pos (by omega)]
        refine Reads.within_bind (Reads.within_ret _ _ _) fun key' hk' => ?_
        rw [Reads.run_ret] at hk'
        cases hk'
        obtain ⟨r, hr1, hr2, hr3⟩ := h.findSteps_ok (p := flat m.lambda (cdOf m.codes) bp) (lcp key l + 1) 0 node (lcp key l)
          (by omega) (by simpa using hn)
        simp only [Nat.zero_add] at hr2 hr3
        rw [hr1]
        refine Reads.within_bind (Reads.within_ret _ _ _) fun r' hr' => ?_
        rw [Reads.run_ret] at hr'
        cases hr'
        generalize hmt : lcp key l = mt at *
        generalize hbc : key[mt] = c at *
        cases r with
        | none => trivial
        | some x =>
          obtain ⟨node', j⟩ := x
          obtain ⟨hn', hj⟩ := hr3 _ rfl
          simp only at hn' hj
          have hdrop : key.drop mt = c :: key.drop (mt + 1) := by
            rw [List.drop_eq_getElem_cons hlt, hbc]
          simp only [hdrop, h.codes.rd]
          refine Reads.within_bind (Reads.within_ret _ _ _) fun code hc' => ?_
          rw [Reads.run_ret] at hc'
          cases hc'
          by_cases hcode : cdOf m.codes c = 255
          · rw [if_pos hcode]; trivial
          · have hclt : cdOf m.codes c < 255 := by have := h.codes.le255 c; omega
            have hjl : j < m.lambda := by rw [hj]; exact Nat.mod_lt _ h.lam_pos
            rw [if_neg hcode, h.makeSymb hclt hjl]
            refine Reads.within_bind (Reads.within_ret _ _ _) fun symb hs' => ?_
            rw [Reads.run_ret] at hs'
            cases hs'
            rw [TS.find m.trie h.core.trie _ node' _ hn' (h.symb_lt (by omega) hjl)]
            refine Reads.within_bind (Reads.within_ret _ _ _) fun node2 hn2 => ?_
            rw [Reads.run_ret] at hn2
            cases hn2
            have hflat : (cdOf m.codes c + 256 * j) :: (List.replicate (mt / m.lambda) 255 ++ flat m.lambda (cdOf m.codes) bp)
                = flat m.lambda (cdOf m.codes) ((mt, c) :: bp) := by simp only [flat]; rw [hj]
            rw [hflat]
            cases hch : TS.T m.trie (flat m.lambda (cdOf m.codes) ((mt, c) :: bp)) with
            | none => simp only [Option.getD_none, if_true]; trivial
            | some i =>
              have hi := (TS.T_bound m.trie h.core.trie _ i hch).2
              simp only [Option.getD_some]
              rw [if_neg (by omega)]
              exact ih _ i _ (by simp; omega) hk2 (Known.cons.2 ⟨hclt, hkn⟩) hch

theorem Live.findR_within (hB : ByteSpec B NS) {m : Map τ ν} {d : Dict} (h : Live TS NS U m d) {k : Key} (hk : U k) :
    (findR cfg B m k).Within (NS.Outside m.nlm) (B.byte m.nlm) := by
  obtain ⟨r, r1, r2⟩ := TS.inv_root m.trie h.inv.core.trie
  simp only [findR]
  split
  · trivial
  · split
    · trivial
    · refine Reads.within_bind (Reads.within_ret _ _ _) fun x hx => ?_
      rw [Reads.run_ret, r1] at hx
      cases hx
      exact h.inv.toF.findLoopR_within hB h.ainv _ [] r k (by omega) hk Known.nil (by simpa [flat] using r2)

/-- an empty map: nothing is read -/
theorem State.findR_within (hB : ByteSpec B NS) {m : Map τ ν} {d : Dict} (hU : KeySet vs U) (h : State TS NS U m d) {k : Key} (hk : U k)
    (P : Loc → Prop) (hP : Live TS NS U m d → ∀ q, NS.Outside m.nlm q → P q) :
    (findR cfg B m k).Within P (B.byte m.nlm) := by
  have hb : badKey k = false := hU.badKey hk
  have weaken : ∀ {α : Type} (r : Reads α) (P Q : Loc → Prop) (mem : Loc → R UInt8), (∀ q, P q → Q q) → r.Within P mem → r.Within Q mem := by
    intro α r P Q mem hPQ hr
    induction r with
    | ret x => trivial
    | read l k ih => exact ⟨hPQ _ hr.1, fun x hx => ih x (hr.2 x hx)⟩
  rcases h with ⟨rfl, hsb, rfl⟩ | ⟨h, rfl⟩ | h
  · have hd2 : (default cfg : Map τ ν).isReady = false := rfl
    unfold Map.findR
    simp only [hb, hd2]; trivial
  · have hz1 := TS.fresh_size _ h.trie
    unfold Map.findR
    simp only [hb, hz1, decide_true, Bool.or_true, if_true, Bool.false_eq_true, if_false]; trivial
  · exact weaken _ _ _ _ (hP h) (h.findR_within hB hk)

end

end Poplar.Map
