import Verif.Proof.Alphabet
/-
  Whole histories of operations on a `map`.
-/
namespace Poplar
open Spec

namespace Map
variable {τ ν : Type} {cfg : MapCfg τ ν} {sb N vs : Nat} {z0 : Prop} {U : List UInt8 → Prop}

/-- side conditions on the template arguments, met by all aliases -/
structure Ok (TS : TrieSpec cfg.T sb N z0) (NS : NlmSpec cfg.L cfg.T.kind vs) : Prop where
  empty : cfg.T.size cfg.T.empty = 0
  min : NS.minb ≤ TS.minb
  min64 : TS.minb + 13 < 64

/-- no key that starts with NUL is inserted, or the first key starts with NUL -/
def ZeroOk (d : Dict) (os : List Op) : Prop :=
  (∀ k ∈ inserted os, k.head? ≠ some 0) ∨ ∃ l, (d.map (·.1) ++ inserted os).head? = some (0 :: l)

variable {TS : TrieSpec cfg.T sb N z0} {NS : NlmSpec cfg.L cfg.T.kind vs}

theorem run_cons_ok {lim : Prop} {m : Map τ ν} {o : Op} {os : List Op} {P : Map τ ν × List Out → Prop}
    {Q : Map τ ν × Out → Prop}
    (h1 : Post lim (exec cfg m o) Q)
    (h2 : ∀ m' x, Q (m', x) → Post lim (run cfg m' os) (fun y => P (y.1, x :: y.2))) :
    Post lim (run cfg m (o :: os)) P := by
  unfold run
  refine Post.bind h1 ?_
  rintro ⟨m', x⟩ _ hq
  refine Post.bind (h2 m' x hq) ?_
  rintro ⟨m'', xs⟩ _ hp
  exact hp

theorem Live.ne_nil {m : Map τ ν} {d : Dict} (h : Live TS NS U m d) : d ≠ [] := by
  rintro rfl
  obtain ⟨⟨l, v⟩, hl⟩ := Option.ne_none_iff_exists'.1 h.ainv.root
  have hk : U l := (h.ainv.lab [] _ _ hl).1
  have := h.get l hk
  rw [dict, walk_eq hl, hl] at this
  cases this

theorem State.live {m : Map τ ν} {d : Dict} (h : State TS NS U m d) (hd : d ≠ []) : Live TS NS U m d := by
  rcases h with ⟨_, _, h⟩ | ⟨_, h⟩ | h
  · exact absurd h hd
  · exact absurd h hd
  · exact h

theorem set_ne_nil (d : Dict) (k : Key) (v : Val) : d.set k v ≠ [] := by
  cases d with
  | nil => simp [Dict.set]
  | cons x d => simp only [Dict.set]; split <;> simp

theorem step_ne_nil {d : Dict} (o : Op) (hd : d ≠ []) : (step vs d o).1 ≠ [] := by
  cases o <;> simp only [step]
  · split <;> exact hd
  · split
    · exact hd
    · cases d.get _ with
      | none => exact set_ne_nil _ _ _
      | some v => exact hd
  · split
    · exact hd
    · exact set_ne_nil _ _ _
  · exact hd

theorem firstKey_step {d : Dict} (o : Op) (hd : d ≠ []) : firstKey (step vs d o).1 = firstKey d := by
  cases o <;> simp only [step]
  · split <;> rfl
  · split
    · rfl
    · cases d.get _ with
      | none => simp only [firstKey_set, if_neg hd]
      | some v => rfl
  · split
    · rfl
    · simp only [firstKey_set, if_neg hd]

theorem step_nil_inserts {o : Op} : (step vs [] o).1.map (·.1) = (o.inserts).toList := by
  cases o <;> simp only [step, Op.inserts]
  · split <;> rfl
  · split
    · rfl
    · rfl
  · split
    · rfl
    · rfl
  · rfl

theorem ZeroOk.now {d : Dict} {o : Op} {os : List Op} (h : ZeroOk d (o :: os)) {k : Key} (hk : o.inserts = some k) :
    k.head? ≠ some 0 ∨ d = [] ∨ ∃ l, firstKey d = some (0 :: l) := by
  have hin : inserted (o :: os) = k :: inserted os := by simp [inserted, hk]
  rw [ZeroOk, hin] at h
  rcases h with h | h
  · exact Or.inl (h k (by simp))
  · right
    cases d with
    | nil => exact Or.inl rfl
    | cons x d => right; simpa [firstKey] using h

theorem ZeroOk.skip {d : Dict} {o : Op} {os : List Op} (h : ZeroOk d (o :: os)) (hd : d ≠ []) : ZeroOk d os := by
  rcases h with h | h
  · left; intro k hc; apply h; simp only [inserted, List.filterMap_cons] at hc ⊢; split
    · exact hc
    · exact List.mem_cons_of_mem _ hc
  · right
    cases d with
    | nil => exact absurd rfl hd
    | cons x d => simpa using h

theorem ZeroOk.next {d : Dict} {o : Op} {os : List Op} (h : ZeroOk d (o :: os)) : ZeroOk (step vs d o).1 os := by
  by_cases hd : d = []
  · subst hd
    rcases h with h | h
    · left; intro k hc; apply h; simp only [inserted, List.filterMap_cons] at hc ⊢; split
      · exact hc
      · exact List.mem_cons_of_mem _ hc
    · right
      rw [step_nil_inserts]
      simp only [inserted, List.filterMap_cons] at h
      cases hi : o.inserts with
      | none => rw [hi] at h; simpa [inserted] using h
      | some k => rw [hi] at h; simpa [inserted] using h
  · have h1 := h.skip hd
    rcases h1 with h1 | h1
    · exact Or.inl h1
    · right
      have h2 := firstKey_step (vs := vs) o hd
      have h3 := step_ne_nil (vs := vs) o hd
      cases d with
      | nil => exact absurd rfl hd
      | cons x d =>
        cases h4 : (step vs (x :: d) o).1 with
        | nil => exact absurd h4 h3
        | cons y d' =>
          rw [h4] at h2
          simp only [firstKey, List.head?_cons, Option.map_some, Option.some.injEq] at h2
          simpa [h2] using h1

theorem ZeroOk.astep {s s1 : AState} {o : Op} {x : Out} {os : List Op} (e1 : s.step vs o = some (s1, x))
    (h : ZeroOk s.dict (o :: os)) : ZeroOk s1.dict os := by
  cases hn : s.newByte o with
  | none =>
    simp only [AState.step, hn, Option.some.injEq, Prod.mk.injEq] at e1
    rw [← e1.1]; exact h.next
  | some c =>
    obtain ⟨k, k1, k2, k3, k4⟩ := (s.newByte_iff o c).1 hn
    simp only [AState.step, hn] at e1
    split at e1
    · simp only [Option.some.injEq, Prod.mk.injEq] at e1
      rw [← e1.1]; exact h.next
    · split at e1
      · simp only [Option.some.injEq, Prod.mk.injEq] at e1
        rw [← e1.1]; exact h.skip k2.1
      · cases e1

theorem ZeroOk.arun : ∀ {os : List Op} {s s' : AState} {xs : List Out} {os' : List Op},
    AState.run vs s os = some (s', xs) → ZeroOk s.dict (os ++ os') → ZeroOk s'.dict os' := by
  intro os
  induction os with
  | nil =>
    intro s s' xs os' e h
    simp only [AState.run, Option.some.injEq, Prod.mk.injEq] at e
    rw [← e.1]; exact h
  | cons o os ih =>
    intro s s' xs os' e h
    simp only [AState.run, Option.bind_eq_bind, Option.bind_eq_some_iff] at e
    obtain ⟨⟨s1, x1⟩, e1, ⟨s2, ys⟩, e2, e3⟩ := e
    simp only [pure, Option.some.injEq, Prod.mk.injEq] at e3
    rw [← e3.1]
    exact ih e2 (h.astep e1)

theorem cnt_mem_eq {A : List UInt8} (hA : A.Nodup) : cnt (fun i => decide (UInt8.ofNat i ∈ A)) 256 = A.length := by
  induction A with
  | nil => rw [cnt_zero] <;> simp
  | cons a A ih =>
    obtain ⟨h1, h2⟩ := List.nodup_cons.1 hA
    rw [List.length_cons, ← ih h2]
    refine cnt_set a.toNat_lt ?_ ?_ ?_
    · simp [h1]
    · simp
    · intro i hi hne
      have : UInt8.ofNat i ≠ a := by
        rintro rfl; apply hne; simp; omega
      simp [this]

/-- the bytes with a code are `bs` -/
structure Rel (m : Map τ ν) (bs : List UInt8) : Prop where
  nodup : bs.Nodup
  mem : ∀ c, Coded m c ↔ c ∈ bs

theorem Rel.numCodes {m : Map τ ν} {bs : List UInt8} (h : Rel m bs) {d : Dict} (hL : Live TS NS U m d) :
    m.numCodes = bs.length + 1 := by
  have h0 : (0 : UInt8) ∉ bs := fun h1 => ((h.mem 0).2 h1).2.2 rfl
  rw [← hL.inv.codes.count, ← List.length_cons (a := (0 : UInt8)), ← cnt_mem_eq (List.nodup_cons.2 ⟨h0, h.nodup⟩)]
  apply cnt_congr
  intro i _
  rw [decide_eq_decide, List.mem_cons, ← h.mem, Coded]
  by_cases hi : UInt8.ofNat i = 0
  · simp [hi, hL.inv.codes.zero]
  · simp [hi, hL.inv.ready]

theorem Rel.le {m : Map τ ν} {bs : List UInt8} (h : Rel m bs) {d : Dict} (hS : State TS NS U m d) :
    m.numCodes ≤ bs.length + 1 := hS.numCodes_le (fun c hc => (h.mem c).1 hc)

theorem branchesAt_unique {d : Dict} {k : Key} {c c' : UInt8} (h : BranchesAt d k c) (h' : BranchesAt d k c') : c = c' := by
  have := h.2.2.symm.trans h'.2.2
  injection this

theorem _root_.Poplar.Spec.step_keys {d : Dict} {o : Op} {k : Key} (h : k ∈ (step vs d o).1.map (·.1)) :
    k ∈ o.inserts.toList ++ d.map (·.1) := by
  have hset : ∀ k' v, k ∈ (d.set k' v).map (·.1) → k = k' ∨ k ∈ d.map (·.1) := by
    intro k' v hm
    obtain ⟨e, e1, e2⟩ := List.mem_map.1 hm
    rcases Dict.mem_set e1 with h1 | ⟨e', h1, h2⟩
    · exact Or.inl (e2.symm.trans h1)
    · exact Or.inr (List.mem_map.2 ⟨e', h1, h2.trans e2⟩)
  rw [List.mem_append]
  cases o with
  | size => exact Or.inr h
  | find k' => simp only [step] at h; split at h <;> exact Or.inr h
  | update k' =>
    simp only [step, Op.inserts] at h ⊢
    split at h
    · exact Or.inr h
    next hm =>
      rw [if_neg hm]
      split at h
      · exact Or.inr h
      · simpa using hset _ _ h
  | write k' v =>
    simp only [step, Op.inserts] at h ⊢
    split at h
    · exact Or.inr h
    next hm =>
      rw [if_neg hm]
      simpa using hset _ _ h

theorem _root_.Poplar.Spec.AState.step_keys {s s' : AState} {o : Op} {x : Out} (e : s.step vs o = some (s', x)) {k : Key}
    (h : k ∈ s'.dict.map (·.1)) : k ∈ o.inserts.toList ++ s.dict.map (·.1) := by
  simp only [AState.step] at e
  split at e
  · injection e with e; injection e with e _; subst e; exact Spec.step_keys h
  · split at e
    · injection e with e; injection e with e _; subst e; exact Spec.step_keys h
    · split at e
      · injection e with e; injection e with e _; subst e; simp only at h; exact List.mem_append_right _ h
      · cases e

theorem _root_.Poplar.Spec.AState.run_keys {os : List Op} {s s' : AState} {xs : List Out} (e : AState.run vs s os = some (s', xs)) {k : Key}
    (h : k ∈ s'.dict.map (·.1)) : k ∈ inserted os ++ s.dict.map (·.1) := by
  induction os generalizing s xs with
  | nil =>
    simp only [AState.run, Option.some.injEq, Prod.mk.injEq] at e
    obtain ⟨rfl, rfl⟩ := e
    exact List.mem_append_right _ h
  | cons o os ih =>
    simp only [AState.run, Option.bind_eq_bind, Option.bind_eq_some_iff] at e
    obtain ⟨⟨s1, x1⟩, e1, ⟨s2, ys⟩, e2, e3⟩ := e
    simp only [pure, Option.some.injEq, Prod.mk.injEq] at e3
    obtain ⟨rfl, rfl⟩ := e3
    have hi : inserted (o :: os) = o.inserts.toList ++ inserted os := by
      simp only [inserted, List.filterMap_cons]; cases o.inserts <;> rfl
    rw [hi]
    have h1 := ih e2
    simp only [List.mem_append] at h1 ⊢
    rcases h1 with h1 | h1
    · exact Or.inl (Or.inr h1)
    · have := AState.step_keys e1 h1
      rw [List.mem_append] at this
      tauto

/-- any history to which the specification gives a meaning -/
theorem run_exact (hU : KeySet vs U) (hok : Ok TS NS) : ∀ (os : List Op) (m : Map τ ν) (s : AState), State TS NS U m s.dict → Rel m s.bytes →
    (∀ o ∈ os, o.Legal vs U) → (z0 ∨ ZeroOk s.dict os) →
    ∀ (s' : AState) (xs : List Out), AState.run vs s os = some (s', xs) →
    ∀ b, nodesFor (2 ^ (sb - 8)) (inserted os ++ s.dict.map (·.1)) ≤ b →
    Post (N ≤ b) (run cfg m os) (fun x =>
      x.2 = xs ∧ State TS NS U x.1 s'.dict ∧ Rel x.1 s'.bytes ∧
      CapaTo TS m x.1 ∧
      ((∀ k ∈ inserted os, k.length ≤ 2 ^ (sb - 8)) → (s.dict ≠ [] → NoStep TS NS m.trie m.nlm) →
        s'.dict ≠ [] → NoStep TS NS x.1.trie x.1.nlm) ∧
      (NS.stable → Live TS NS U m s.dict → PStab TS NS U m x.1 ∧ Live TS NS U x.1 s'.dict)) := by
  intro os
  induction os with
  | nil =>
    intro m s h hr _ _ s' xs e b _
    simp only [AState.run, Option.some.injEq, Prod.mk.injEq] at e
    obtain ⟨rfl, rfl⟩ := e
    exact ⟨rfl, h, hr, .refl TS _, fun _ h => h, fun _ hL => ⟨fun _ _ _ hp => hp, hL⟩⟩
  | cons o os ih =>
    intro m s h hr hl hz s' xs e b hb
    have hi : inserted (o :: os) = o.inserts.toList ++ inserted os := by
      simp only [inserted, List.filterMap_cons]; cases o.inserts <;> rfl
    rw [hi] at hb
    simp only [AState.run, Option.bind_eq_bind, Option.bind_eq_some_iff] at e
    obtain ⟨⟨s1, x1⟩, e1, ⟨s2, ys⟩, e2, e3⟩ := e
    simp only [pure, Option.some.injEq, Prod.mk.injEq] at e3
    obtain ⟨rfl, rfl⟩ := e3
    simp only at e2
    have hcode : ∀ k, o.inserts = some k → (m.numCodes < 255 ∨ ∀ c, c ≠ 0 → BranchesAt s.dict k c → Coded m c) := by
      intro k hk
      by_cases hlen : s.bytes.length < 254
      · left; have := hr.le h; omega
      · right
        intro c h0 hb
        by_contra hc
        have hn := (s.newByte_iff o c).2 ⟨k, hk, hb, h0, fun hm => hc ((hr.mem c).2 hm)⟩
        simp only [AState.step, hn] at e1
        rw [if_neg (by omega), if_neg (by omega)] at e1
        cases e1
    have he := exec_ok hU h hok.empty hok.min hok.min64 (hl o (by simp)) (hz.imp id (fun h _ hk => h.now hk)) hcode
    refine run_cons_ok (he.mono (fun hN => Nat.le_trans hN (Nat.le_trans (nodesFor_mono fun k hk => by
      simp only [List.mem_append] at hk ⊢; tauto) hb)) (fun _ _ h => h)) ?_
    intro m' x hx
    simp only at hx
    -- one step
    have hone : x = x1 ∧ State TS NS U m' s1.dict ∧ Rel m' s1.bytes ∧ (s.dict ≠ [] → s1.dict ≠ []) ∧ (z0 ∨ ZeroOk s1.dict os) := by
      cases hn : s.newByte o with
      | none =>
        simp only [AState.step, hn, Option.some.injEq, Prod.mk.injEq] at e1
        obtain ⟨rfl, rfl⟩ := e1
        have hnx : ¬ Exhausts m s.dict o := by
          rintro ⟨k, c, k1, k2, k3, k4, _⟩
          have := (s.newByte_iff o c).2 ⟨k, k1, k3, k2, fun hm => k4 ((hr.mem c).2 hm)⟩
          rw [hn] at this; cases this
        rcases hx.res with ⟨_, r1, r2, _⟩ | ⟨r0, _⟩
        · refine ⟨r1, r2, ⟨hr.nodup, ?_⟩, step_ne_nil o, hz.imp id ZeroOk.next⟩
          intro c
          rw [hx.coded c]
          constructor
          · rintro (hc | ⟨h0, k, k1, k2⟩)
            · exact (hr.mem c).1 hc
            · by_contra hc
              have := (s.newByte_iff o c).2 ⟨k, k1, k2, h0, hc⟩
              rw [hn] at this; cases this
          · exact fun hc => Or.inl ((hr.mem c).2 hc)
        · exact absurd r0 hnx
      | some c =>
        obtain ⟨k, k1, k2, k3, k4⟩ := (s.newByte_iff o c).1 hn
        have hrel : Rel m' (c :: s.bytes) := by
          refine ⟨List.nodup_cons.2 ⟨k4, hr.nodup⟩, ?_⟩
          intro c'
          rw [hx.coded c', List.mem_cons, hr.mem c']
          constructor
          · rintro (hc | ⟨h0, k', k1', k2'⟩)
            · exact Or.inr hc
            · rw [k1] at k1'; injection k1' with k1'; subst k1'
              exact Or.inl (branchesAt_unique k2' k2)
          · rintro (rfl | hc)
            · exact Or.inr ⟨k3, k, k1, k2⟩
            · exact Or.inl hc
        have hL := h.live k2.1
        have hnum := hr.numCodes hL
        have hnc : ¬ Coded m c := fun hc => k4 ((hr.mem c).1 hc)
        simp only [AState.step, hn] at e1
        by_cases hlt : s.bytes.length < 253
        · rw [if_pos hlt] at e1
          simp only [Option.some.injEq, Prod.mk.injEq] at e1
          obtain ⟨rfl, rfl⟩ := e1
          rcases hx.res with ⟨_, r1, r2, _⟩ | ⟨_, _, _, r0, _⟩
          · exact ⟨r1, r2, hrel, step_ne_nil o, hz.imp id ZeroOk.next⟩
          · omega
        · rw [if_neg hlt] at e1
          split at e1
          next heq =>
            simp only [Option.some.injEq, Prod.mk.injEq] at e1
            obtain ⟨rfl, rfl⟩ := e1
            rcases hx.res with ⟨r0, _⟩ | ⟨_, r1, r2, _⟩
            · exact absurd ⟨k, c, k1, k3, k2, hnc, by omega⟩ r0
            · exact ⟨r1, r2, hrel, id, hz.imp id (fun h => h.skip k2.1)⟩
          next => cases e1
    obtain ⟨rfl, g2, g3, g4, g5⟩ := hone
    refine (ih m' s1 g2 g3 (fun o ho => hl o (by simp [ho])) g5 s2 ys e2 b (Nat.le_trans (nodesFor_mono fun k hk => by
      simp only [List.mem_append] at hk ⊢
      rcases hk with hk | hk
      · tauto
      · have := AState.step_keys e1 hk
        rw [List.mem_append] at this
        tauto) hb)).imp ?_
    rintro ⟨m'', zs⟩ ⟨f1, f2, f3, f5, f7, f6⟩
    simp only at f1 f2 f3 f5 f6 f7 ⊢
    refine ⟨by rw [f1], f2, f3, hx.capa.trans f5, ?_, ?_⟩
    · intro hle hns
      have hin : ∀ k, o.inserts = some k → k.length ≤ 2 ^ (sb - 8) := by
        intro k hk; apply hle; simp [inserted, hk]
      refine f7 (fun k hk => hle k ?_) ?_
      · simp only [inserted, List.filterMap_cons]; split
        · exact hk
        · exact List.mem_cons_of_mem _ hk
      · intro hne
        rcases hx.nost hin hns with ⟨n1, n2⟩ | n1
        · rw [n2]
          apply hns
          have hnb : s.newByte o = none := by simp [AState.newByte, n1]
          simp only [AState.step, hnb, Option.some.injEq, Prod.mk.injEq] at e1
          rw [← e1.1] at hne
          rintro e
          apply hne
          have := step_nil_inserts (vs := vs) (o := o)
          rw [n1] at this
          simp only [e]
          simpa using this
        · exact n1
    · intro hs hL
      obtain ⟨q1, q2⟩ := f6 hs (g2.live (g4 hL.ne_nil))
      exact ⟨fun l k hk hp => q1 l k hk (hx.stab hs hL l k hk hp), q2⟩

theorem run_append (m : Map τ ν) (os1 os2 : List Op) :
    run cfg m (os1 ++ os2) = (do
      let (m1, xs) ← run cfg m os1
      let (m2, ys) ← run cfg m1 os2
      pure (m2, xs ++ ys)) := by
  induction os1 generalizing m with
  | nil =>
    simp only [List.nil_append, run, R.bind_ok]
    cases run cfg m os2 <;> rfl
  | cons o os1 ih =>
    simp only [List.cons_append, run, ih]
    cases exec cfg m o with
    | error e => rfl
    | ok x =>
      simp only [R.bind_ok]
      cases run cfg x.1 os1 with
      | error e => rfl
      | ok y =>
        simp only [R.bind_ok, R.pure_eq]
        cases run cfg y.1 os2 <;> rfl

end Map
end Poplar
