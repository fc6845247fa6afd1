import Verif.Proof.History
import Verif.Proof.Lost
import Verif.Proof.Codes
/-
  The user's observations after the byte codes are exhausted.
-/
namespace Poplar
open Spec

theorem _root_.Poplar.Spec.KeySet.not_malformed {vs : Nat} {K : Key → Prop} (hU : KeySet vs K) {k : Key} (hk : K k) : ¬ Malformed k :=
  not_malformed_iff.2 (hU.nul k hk)

namespace Map
variable {τ ν : Type} {cfg : MapCfg τ ν} {sb N vs : Nat} {z0 : Prop} {U : Key → Prop}
variable {TS : TrieSpec cfg.T sb N z0} {NS : NlmSpec cfg.L cfg.T.kind vs}

theorem Live.codesOk {m : Map τ ν} {d : Dict} (h : Live TS NS U m d) : CodesOk m := by
  refine ⟨h.inv.ready, h.inv.codes.size, Or.inl ⟨?_, h.inv.codes.le⟩⟩
  rw [← h.inv.codes.count, known]
  apply cnt_congr
  intro i hi
  rw [decide_eq_decide]
  have hlt : i < m.codes.size := by rw [h.inv.codes.size]; exact hi
  have hn : (UInt8.ofNat i).toNat = i := by simp only [UInt8.toNat_ofNat']; omega
  simp only [cdOf, hn, Array.getElem?_eq_getElem hlt, Option.getD_some, ne_eq, Option.some.injEq]

theorem run_length {os : List Op} : ∀ {m m' : Map τ ν} {xs : List Out}, run cfg m os = .ok (m', xs) → xs.length = os.length := by
  induction os with
  | nil =>
    intro m m' xs h
    simp only [run, Except.ok.injEq, Prod.mk.injEq] at h
    rw [← h.2]; rfl
  | cons o os ih =>
    intro m m' xs h
    simp only [run] at h
    obtain ⟨⟨m1, x⟩, h1, h⟩ := R.bind_eq_ok h
    obtain ⟨⟨m2, ys⟩, h2, h⟩ := R.bind_eq_ok h
    simp only [R.pure_eq, Except.ok.injEq, Prod.mk.injEq] at h
    rw [← h.2, List.length_cons, List.length_cons, ih h2]

theorem LostPost.finds {m m' : Map τ ν} {r : UpdOut} {d : Dict} (h : LostPost TS NS U m m' r) (hL : Live TS NS U m d) :
    ∀ qs : List Key, (∀ q ∈ qs, U q) →
      run cfg m' (qs.map .find ++ [.size]) = .ok (m', qs.map (fun q => .found (d.get q)) ++ [.count (d.length + 1)]) := by
  intro qs
  induction qs with
  | nil =>
    intro _
    simp only [List.map_nil, List.nil_append, run, exec, h.size, hL.size, R.bind_ok, R.pure_eq]
  | cons q qs ih =>
    intro hq
    have h1 := ih (fun q hm => hq q (List.mem_cons_of_mem _ hm))
    simp only [List.map_cons, List.cons_append, run]
    rw [h.find hL (hq q (by simp)), R.bind_ok]
    dsimp only
    rw [h1, R.bind_ok]
    rfl

end Map

namespace Alias
variable {a : Alias} {p : Params} {i : Init} {K : Key → Prop} {os : List Op}

theorem bytes_ne (h : a.Admissible p i K os) {s : AState} {xs : List Out} (hs : AState.run p.valSize {} os = some (s, xs))
    {m m1 : Map a.Trie a.Nlm} {ys : List Out} (hm : a.new p i = .ok m) (hr : Map.run (a.cfg p) m os = .ok (m1, ys))
    (hb : s.bytes ≠ []) : ∃ hsb, Map.Live (a.trieSpec p i.symbBits i.capa0 hsb) (a.nlmSpec p h.params) K m1 s.dict ∧
      m1.numCodes = s.bytes.length + 1 := by
  obtain ⟨hsb, m', h1, h2⟩ := after h hs
  rw [hm] at h1; injection h1 with h1; subst h1
  rw [hr] at h2
  obtain ⟨_, h3, h4, _⟩ := h2
  dsimp only at h3 h4
  obtain ⟨b, bs, hbb⟩ : ∃ b bs, s.bytes = b :: bs := by
    cases hx : s.bytes with
    | nil => exact absurd hx hb
    | cons b bs => exact ⟨b, bs, rfl⟩
  have hcd : Map.Coded m1 b := (h4.mem b).2 (by rw [hbb]; simp)
  have hL : Map.Live (a.trieSpec p i.symbBits i.capa0 hsb) (a.nlmSpec p h.params) K m1 s.dict := by
    rcases h3 with ⟨rfl, _, _⟩ | ⟨hF, _⟩ | hL
    · cases hcd.1
    · exact absurd hcd (hF.not_coded b)
    · exact hL
  exact ⟨hsb, hL, h4.numCodes hL⟩

theorem no_more_throw (h : a.Admissible p i K os) {s : AState} {xs : List Out} (hs : AState.run p.valSize {} os = some (s, xs))
    (hb : s.bytes.length = 254) (os' : List Op) {zs : List Out} (hz : a.history p i (os ++ os') = .ok zs)
    (j : Nat) (o : Op) (k : Key) (ho : os'[j]? = some o) (hk : o.inserts = some k) : zs[os.length + j]? ≠ some .exn := by
  unfold history at hz
  obtain ⟨m, hm, hz⟩ := R.bind_eq_ok hz
  rw [Map.run_append] at hz
  obtain ⟨⟨m3, ws⟩, hw, hz⟩ := R.bind_eq_ok hz
  obtain ⟨⟨m1, ys⟩, hr, hw⟩ := R.bind_eq_ok hw
  obtain ⟨⟨m2, vs⟩, hr2, hw⟩ := R.bind_eq_ok hw
  simp only [R.pure_eq, Except.ok.injEq, Prod.mk.injEq] at hw hz
  obtain ⟨hsb, hL, hn⟩ := bytes_ne h hs hm hr (by intro e; rw [e] at hb; simp at hb)
  have hlen := Map.run_length hr
  rw [← hz, ← hw.2, ← hlen, List.getElem?_append_right (by omega), Nat.add_sub_cancel_left]
  obtain ⟨k1, k2, k3⟩ := Spec.inserts_key hk
  have hne : k ≠ [] := fun e => k3 (Or.inl e)
  have hbk : Map.badKey k = false := by have := (badKey_iff k).not.2 k3; simpa using this
  refine (Map.run_codes hL.codesOk hr2).2.2 (by omega) j o ho k k1 ?_ hbk
  rw [k2]
  exact List.length_pos_of_ne_nil hne

/-- `update` of a key that branches off at the last byte value without a code -/
theorem lost {k : Key} (h : a.Admissible p i K (os ++ [.update k])) {s : AState} {xs : List Out} (hs : AState.run p.valSize {} os = some (s, xs))
    (hb : s.bytes.length = 254) {c : UInt8}
    (hbr : BranchesAt s.dict k c) (h0 : c ≠ 0) (hc : c ∉ s.bytes)
    (qs : List Key) (hq : ∀ q ∈ qs, K q) (hk : K k) :
    PostE (fun e => (a.AtLimit p i (os ++ [.update k]) ∧ (e = .limit ∨ e = .throw)) ∨
        (e = .assertion ∧ (p.dbg = true ∨ ∃ k' ∈ inserted (os ++ [.update k]), 2 ^ (i.symbBits - 8) < k'.length)))
      (a.history p i (os ++ .update k :: (qs.map .find ++ [.size])))
      (fun zs => p.dbg = false ∧ zs = xs ++ .value (List.replicate p.valSize 0) ::
        (qs.map (fun q => .found (s.dict.get q)) ++ [.count (s.dict.length + 1)])) := by
  have hle : ∀ x ∈ inserted os, x ∈ inserted (os ++ [.update k]) := by
    intro x hx; rw [Spec.inserted_append]; exact List.mem_append_left _ hx
  obtain ⟨hsb, m, h1, h2⟩ := after_nost h.append_left hs
  unfold history
  rw [h1]
  simp only [R.bind_ok]
  rw [Map.run_append]
  cases hr : Map.run (a.cfg p) m os with
  | error e =>
    rw [hr] at h2
    left
    obtain ⟨h3, h4⟩ := h2
    exact ⟨h3.mono hle, h4⟩
  | ok y =>
    obtain ⟨m1, ys⟩ := y
    rw [hr] at h2
    obtain ⟨⟨g1, g2, g3, g4⟩, g5⟩ := h2
    dsimp only at g1 g2 g3 g4 g5
    subst g1
    have hL := g2.live hbr.1
    have hn := g3.numCodes hL
    have hz : (a.plainFk = false ∨ p.dbg = false) ∨ k.head? ≠ some 0 ∨ ∃ l, firstKey s.dict = some (0 :: l) := by
      rcases h.z0 with hz | hz
      · exact Or.inl hz
      · right
        rcases (Map.ZeroOk.arun hs hz).now (k := k) (by simp [Op.inserts, h.keys.not_malformed hk]) with h1 | h1 | h1
        · exact Or.inl h1
        · exact absurd h1 hbr.1
        · exact Or.inr h1
    have hU := hL.updLost (E := fun e => (a.AtLimit p i (os ++ [.update k]) ∧ (e = .limit ∨ e = .throw)) ∨
        (e = .assertion ∧ (p.dbg = true ∨ ∃ k' ∈ inserted (os ++ [.update k]), 2 ^ (i.symbBits - 8) < k'.length)))
      hk (by omega) hbr h0 (fun hcd => hc ((g3.mem c).1 hcd)) hz (by
        intro hN
        have : a.AtLimit p i (os ++ [.update k]) := by
          unfold AtLimit
          rw [← h.init.lambda]
          refine Nat.le_trans hN (nodesFor_mono fun x hx => ?_)
          rcases List.mem_cons.1 hx with rfl | hx
          · rw [Spec.inserted_append]
            exact List.mem_append_right _ (by simp [inserted, Op.inserts, h.keys.not_malformed hk])
          · exact hle x (by simpa using AState.run_keys hs hx)
        exact ⟨Or.inl ⟨this, Or.inl rfl⟩, Or.inl ⟨this, Or.inr rfl⟩⟩) (by
        intro hd
        refine Or.inr ⟨rfl, Or.inl ?_⟩
        have : (a.cfg p).dbg = p.dbg := by cases a <;> rfl
        rw [← this]; exact hd) (by
        intro hns
        refine Or.inr ⟨rfl, Or.inr ?_⟩
        by_contra hcon
        apply hns
        have hall : ∀ k' ∈ inserted (os ++ [.update k]), k'.length ≤ 2 ^ (i.symbBits - 8) := by
          intro k' hk'
          by_contra hlt
          exact hcon ⟨k', hk', by omega⟩
        refine ⟨g5 (fun k' hk' => hall k' (by rw [Spec.inserted_append]; simp [hk'])) hbr.1, hall k ?_⟩
        rw [Spec.inserted_append, List.mem_append]
        right
        simp [inserted, Op.inserts, h.keys.not_malformed hk])
    simp only [R.bind_ok, Map.run, Map.exec]
    cases hu : Map.update (a.cfg p) m1 k with
    | error e => rw [hu] at hU; exact hU
    | ok y =>
      obtain ⟨m2, r⟩ := y
      rw [hu] at hU
      have hP : Map.LostPost (a.trieSpec p i.symbBits i.capa0 hsb) (a.nlmSpec p h.params) K m1 m2 r := hU
      obtain ⟨l, rfl, hl⟩ := hP.ptr
      have hl' : Map.load (a.cfg p) m2 l = .ok (List.replicate p.valSize 0) := hl
      have hf := hP.finds hL qs hq
      have hd : (a.cfg p).dbg = p.dbg := by cases a <;> rfl
      simp only [R.bind_ok, hl', R.pure_eq, hf]
      exact ⟨by rw [← hd]; exact hP.rel, rfl⟩

end Alias
end Poplar
