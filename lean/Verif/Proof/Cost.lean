import Verif.Spec.Cost
import Verif.Model.MapRun
import Verif.Proof.Basic
/-
  How many edges and labels `find` and `update` look at. An argument on the control flow alone.
-/
namespace Poplar

namespace Map
variable {τ ν : Type} {cfg : MapCfg τ ν} {m : Map τ ν}

theorem reading_self (cfg : MapCfg τ ν) : cfg.reading cfg.T.findChild cfg.L.compare = cfg := rfl

theorem makeSymb_reading {f : τ → Nat → Nat → R Nat} {g : ν → Nat → List UInt8 → R (Option Loc × Nat)} {c : UInt8} {k : Nat} :
    makeSymb (cfg.reading f g) m c k = makeSymb cfg m c k := rfl

theorem findSteps_reads (cfg : MapCfg τ ν) (m : Map τ ν) : ∀ (fuel node k : Nat), ∃ E : List (Nat × Nat),
    E.length * m.lambda ≤ k ∧
    (∀ f g, (∀ e ∈ E, f m.trie e.1 e.2 = cfg.T.findChild m.trie e.1 e.2) →
      findSteps (cfg.reading f g) m fuel node k = findSteps cfg m fuel node k) := by
  intro fuel
  induction fuel with
  | zero => intro node k; exact ⟨[], by simp, fun _ _ _ => rfl⟩
  | succ fuel ih =>
    intro node k
    by_cases hk : m.lambda ≤ k
    · cases hc : cfg.T.findChild m.trie node stepSymb with
      | error e =>
        refine ⟨[(node, stepSymb)], by simpa using hk, fun f g h => ?_⟩
        have h1 : f m.trie node stepSymb = _ := h (node, stepSymb) (by simp)
        unfold findSteps
        rw [if_pos hk, if_pos hk]
        show (f m.trie node stepSymb >>= _) = _
        rw [h1, hc, R.bind_error, R.bind_error]
      | ok n =>
        obtain ⟨E, h1, h2⟩ := ih n (k - m.lambda)
        refine ⟨(node, stepSymb) :: E, by rw [List.length_cons, Nat.add_mul]; omega, fun f g h => ?_⟩
        have h3 : f m.trie node stepSymb = _ := h (node, stepSymb) (by simp)
        have h4 := h2 f g (fun e he => h e (List.mem_cons_of_mem _ he))
        unfold findSteps
        rw [if_pos hk, if_pos hk]
        show (f m.trie node stepSymb >>= _) = _
        rw [h3, hc, R.bind_ok, R.bind_ok, h4]
    · refine ⟨[], by simp, fun f g h => ?_⟩
      unfold findSteps
      rw [if_neg hk, if_neg hk]

theorem findLoop_reads (cfg : MapCfg τ ν) (m : Map τ ν) (hl : 0 < m.lambda) : ∀ (fuel node : Nat) (key : List UInt8),
    ∃ (E : List (Nat × Nat)) (N : List Nat) (j : Nat),
    E.length ≤ N.length + j ∧ N.length ≤ key.length + 1 ∧ j * m.lambda + N.length ≤ key.length + 1 ∧ E.length ≤ key.length ∧
    (∀ f g, (∀ e ∈ E, f m.trie e.1 e.2 = cfg.T.findChild m.trie e.1 e.2) →
      (∀ n ∈ N, ∀ k, g m.nlm n k = cfg.L.compare m.nlm n k) →
      findLoop (cfg.reading f g) m fuel node key = findLoop cfg m fuel node key) := by
  intro fuel
  induction fuel with
  | zero => intro node key; exact ⟨[], [], 0, by simp, by simp, by simp, by simp, fun _ _ _ _ => rfl⟩
  | succ fuel ih =>
    intro node key
    by_cases hk : key.isEmpty
    · refine ⟨[], [node], 0, by simp, by simp, by simp, by simp, fun f g _ hg => ?_⟩
      have h1 := hg node (by simp) key
      unfold findLoop
      rw [if_pos hk, if_pos hk]
      show (do pure (← g m.nlm node key).1) = _
      rw [h1]
    · cases hc : cfg.L.compare m.nlm node key with
      | error e =>
        refine ⟨[], [node], 0, by simp, by simp, by simp, by simp, fun f g _ hg => ?_⟩
        have h1 := hg node (by simp) key
        unfold findLoop
        rw [if_neg hk, if_neg hk]
        show (g m.nlm node key >>= _) = _
        rw [h1, hc, R.bind_error, R.bind_error]
      | ok r =>
        obtain ⟨vptr, k⟩ := r
        cases vptr with
        | some l =>
          refine ⟨[], [node], 0, by simp, by simp, by simp, by simp, fun f g _ hg => ?_⟩
          have h1 := hg node (by simp) key
          unfold findLoop
          rw [if_neg hk, if_neg hk]
          show (g m.nlm node key >>= _) = _
          rw [h1, hc, R.bind_ok, R.bind_ok]
        | none =>
          by_cases hadv : k ≤ key.length
          · obtain ⟨E1, e1, e2⟩ := findSteps_reads cfg m (k + 1) node k
            have e3 : E1.length ≤ k := Nat.le_trans (Nat.le_mul_of_pos_right _ hl) e1
            -- the end of the search at this node, reading nothing further
            have stop : (∀ f g, (∀ e ∈ E1, f m.trie e.1 e.2 = cfg.T.findChild m.trie e.1 e.2) →
                (∀ n ∈ [node], ∀ k, g m.nlm n k = cfg.L.compare m.nlm n k) →
                findLoop (cfg.reading f g) m (fuel + 1) node key = findLoop cfg m (fuel + 1) node key) →
                ∃ (E : List (Nat × Nat)) (N : List Nat) (j : Nat),
    E.length ≤ N.length + j ∧ N.length ≤ key.length + 1 ∧ j * m.lambda + N.length ≤ key.length + 1 ∧ E.length ≤ key.length ∧
    (∀ f g, (∀ e ∈ E, f m.trie e.1 e.2 = cfg.T.findChild m.trie e.1 e.2) →
      (∀ n ∈ N, ∀ k, g m.nlm n k = cfg.L.compare m.nlm n k) →
      findLoop (cfg.reading f g) m (fuel + 1) node key = findLoop cfg m (fuel + 1) node key) :=
              fun h => ⟨E1, [node], E1.length, by simp, by simp, by simp; omega, by omega, h⟩
            have unf : ∀ f g, (∀ e ∈ E1, f m.trie e.1 e.2 = cfg.T.findChild m.trie e.1 e.2) →
                g m.nlm node key = cfg.L.compare m.nlm node key →
                findLoop (cfg.reading f g) m (fuel + 1) node key = (do
                  match ← findSteps cfg m (k + 1) node k with
                  | none => pure none
                  | some (node, match') =>
                    match key.drop k with
                    | [] => .error .oob
                    | c :: rest =>
                      if (← rd m.codes c.toNat) = 255 then pure none
                      else
                        let node ← f m.trie node (← makeSymb cfg m c match')
                        if node = u64max then pure none
                        else findLoop (cfg.reading f g) m fuel node rest) := by
              intro f g hf hg
              conv => lhs; unfold findLoop
              rw [if_neg hk]
              show (g m.nlm node key >>= _) = _
              rw [hg, hc, R.bind_ok]
              dsimp only
              unfold advance
              rw [if_pos hadv, R.bind_ok, e2 f g hf]
              rfl
            have unf0 := unf cfg.T.findChild cfg.L.compare (fun _ _ => rfl) rfl
            rw [reading_self] at unf0
            cases hs : findSteps cfg m (k + 1) node k with
            | error e =>
              refine stop fun f g hf hg => ?_
              rw [unf f g hf (hg node (by simp) key), unf0, hs, R.bind_error, R.bind_error]
            | ok x =>
              cases x with
              | none =>
                refine stop fun f g hf hg => ?_
                rw [unf f g hf (hg node (by simp) key), unf0, hs, R.bind_ok, R.bind_ok]
              | some x =>
                obtain ⟨n1, k1⟩ := x
                cases hd : key.drop k with
                | nil =>
                  refine stop fun f g hf hg => ?_
                  rw [unf f g hf (hg node (by simp) key), unf0, hs, hd]
                | cons c rest =>
                  have hlen : key.length = k + (rest.length + 1) := by
                    have := congrArg List.length hd
                    rw [List.length_drop, List.length_cons] at this; omega
                  cases hr : rd m.codes c.toNat with
                  | error e =>
                    refine stop fun f g hf hg => ?_
                    rw [unf f g hf (hg node (by simp) key), unf0, hs, hd]
                    simp only [R.bind_ok, hr, R.bind_error]
                  | ok code =>
                    by_cases h255 : code = 255
                    · refine stop fun f g hf hg => ?_
                      rw [unf f g hf (hg node (by simp) key), unf0, hs, hd]
                      simp only [R.bind_ok, hr, if_pos h255]
                    · cases hy : makeSymb cfg m c k1 with
                      | error e =>
                        refine stop fun f g hf hg => ?_
                        rw [unf f g hf (hg node (by simp) key), unf0, hs, hd]
                        simp only [R.bind_ok, hr, if_neg h255, hy, R.bind_error]
                      | ok s =>
                        have nxt : ∀ f g, (∀ e ∈ E1 ++ [(n1, s)], f m.trie e.1 e.2 = cfg.T.findChild m.trie e.1 e.2) →
                            g m.nlm node key = cfg.L.compare m.nlm node key →
                            findLoop (cfg.reading f g) m (fuel + 1) node key = (do
                              let node ← cfg.T.findChild m.trie n1 s
                              if node = u64max then pure none
                              else findLoop (cfg.reading f g) m fuel node rest) := by
                          intro f g hf hg
                          rw [unf f g (fun e he => hf e (by simp [he])) hg, hs, hd]
                          have := hf (n1, s) (by simp)
                          dsimp only at this
                          simp only [R.bind_ok, hr, if_neg h255, hy, this]
                        have nxt0 := nxt cfg.T.findChild cfg.L.compare (fun _ _ => rfl) rfl
                        rw [reading_self] at nxt0
                        cases hf1 : cfg.T.findChild m.trie n1 s with
                        | error e =>
                          refine ⟨E1 ++ [(n1, s)], [node], E1.length, by simp; omega, by simp, by simp; omega, by simp; omega, fun f g hf hg => ?_⟩
                          rw [nxt f g hf (hg node (by simp) key), nxt0, hf1, R.bind_error, R.bind_error]
                        | ok n2 =>
                          by_cases hn2 : n2 = u64max
                          · refine ⟨E1 ++ [(n1, s)], [node], E1.length, by simp; omega, by simp, by simp; omega, by simp; omega, fun f g hf hg => ?_⟩
                            rw [nxt f g hf (hg node (by simp) key), nxt0, hf1]
                            simp only [R.bind_ok, if_pos hn2]
                          · obtain ⟨E2, N2, j, a1, a2, a3, a4, a5⟩ := ih n2 rest
                            refine ⟨E1 ++ (n1, s) :: E2, node :: N2, E1.length + j, by simp; omega, by simp; omega,
                              by rw [Nat.add_mul, List.length_cons]; omega, by simp; omega, fun f g hf hg => ?_⟩
                            rw [nxt f g (fun e he => hf e (by
                              rcases List.mem_append.1 he with he | he
                              · simp [he]
                              · have := List.mem_singleton.1 he; simp [this])) (hg node (by simp) key), nxt0, hf1]
                            simp only [R.bind_ok, if_neg hn2]
                            exact a5 f g (fun e he => hf e (by simp [he])) (fun n hn => hg n (by simp [hn]))
          · refine ⟨[], [node], 0, by simp, by simp, by simp, by simp, fun f g _ hg => ?_⟩
            have h1 := hg node (by simp) key
            unfold findLoop
            rw [if_neg hk, if_neg hk]
            show (g m.nlm node key >>= _) = _
            rw [h1, hc, R.bind_ok, R.bind_ok]
            dsimp only
            unfold advance
            rw [if_neg hadv, R.bind_error, R.bind_error]

theorem find_reads (cfg : MapCfg τ ν) (m : Map τ ν) (hl : 0 < m.lambda) (key : List UInt8) :
    ∃ (E : List (Nat × Nat)) (N : List Nat),
    E.length ≤ key.length ∧ N.length ≤ key.length + 1 ∧ E.length ≤ N.length + (key.length + 1 - N.length) / m.lambda ∧
    (∀ f g, (∀ e ∈ E, f m.trie e.1 e.2 = cfg.T.findChild m.trie e.1 e.2) →
      (∀ n ∈ N, ∀ k, g m.nlm n k = cfg.L.compare m.nlm n k) →
      find (cfg.reading f g) m key = find cfg m key) := by
  have triv : (∀ f g, find (cfg.reading f g) m key = find cfg m key) → ∃ (E : List (Nat × Nat)) (N : List Nat),
      E.length ≤ key.length ∧ N.length ≤ key.length + 1 ∧ E.length ≤ N.length + (key.length + 1 - N.length) / m.lambda ∧
      (∀ f g, (∀ e ∈ E, f m.trie e.1 e.2 = cfg.T.findChild m.trie e.1 e.2) →
        (∀ n ∈ N, ∀ k, g m.nlm n k = cfg.L.compare m.nlm n k) →
        find (cfg.reading f g) m key = find cfg m key) :=
    fun h => ⟨[], [], by simp, by simp, by simp, fun f g _ _ => h f g⟩
  by_cases hb : badKey key
  · refine triv fun f g => ?_
    unfold find
    rw [if_pos hb, if_pos hb]
  · by_cases hr : (!m.isReady || decide (cfg.T.size m.trie = 0)) = true
    · refine triv fun f g => ?_
      unfold find
      rw [if_neg hb, if_neg hb, if_pos hr]
      exact if_pos hr
    · have unf : ∀ f g, find (cfg.reading f g) m key =
          cfg.T.getRoot m.trie >>= fun node => findLoop (cfg.reading f g) m (key.length + 1) node key := by
        intro f g
        unfold find
        rw [if_neg hb]
        exact if_neg hr
      have unf0 := unf cfg.T.findChild cfg.L.compare
      rw [reading_self] at unf0
      cases hg : cfg.T.getRoot m.trie with
      | error e => exact triv fun f g => by rw [unf f g, unf0, hg, R.bind_error, R.bind_error]
      | ok node =>
        obtain ⟨E, N, j, h1, h2, h3, h4, h5⟩ := findLoop_reads cfg m hl (key.length + 1) node key
        refine ⟨E, N, h4, h2, ?_, fun f g hf hgg => ?_⟩
        · have : j ≤ (key.length + 1 - N.length) / m.lambda := (Nat.le_div_iff_mul_le hl).2 (by omega)
          omega
        · rw [unf f g, unf0, hg]
          exact h5 f g hf hgg

end Map
end Poplar

namespace Poplar

namespace Map
variable {τ ν : Type} {cfg : MapCfg τ ν} {m : Map τ ν}

theorem adding_self (cfg : MapCfg τ ν) : cfg.adding cfg.T.addChild cfg.L.compare = cfg := rfl

theorem expandIfNeeded_lambda {node : Nat} {x : Map τ ν × Nat} (h : expandIfNeeded cfg m node = .ok x) : x.1.lambda = m.lambda := by
  unfold expandIfNeeded at h
  split at h
  · cases h; rfl
  · split at h
    · cases h; rfl
    · obtain ⟨y, _, h⟩ := R.bind_eq_ok h
      obtain ⟨z, _, h⟩ := R.bind_eq_ok h
      obtain ⟨w, _, h⟩ := R.bind_eq_ok h
      cases h; rfl

theorem updSteps_reads (cfg : MapCfg τ ν) : ∀ (fuel : Nat) (m : Map τ ν) (node k : Nat), ∃ E : List (τ × Nat × Nat),
    E.length * m.lambda ≤ k ∧
    (∀ f g, (∀ e ∈ E, f e.1 e.2.1 e.2.2 = cfg.T.addChild e.1 e.2.1 e.2.2) →
      updSteps (cfg.adding f g) fuel m node k = updSteps cfg fuel m node k) ∧
    (∀ x, updSteps cfg fuel m node k = .ok x → x.1.lambda = m.lambda) := by
  intro fuel
  induction fuel with
  | zero => intro m node k; exact ⟨[], by simp, fun _ _ _ => rfl, fun _ h => by cases h⟩
  | succ fuel ih =>
    intro m node k
    by_cases hk : m.lambda ≤ k
    · have unf : ∀ f g, f m.trie node stepSymb = cfg.T.addChild m.trie node stepSymb →
          updSteps (cfg.adding f g) (fuel + 1) m node k = (do
            let (trie, node, isNew) ← cfg.T.addChild m.trie node stepSymb
            let m := { m with trie := trie }
            if isNew then
              let (m, node) ← expandIfNeeded cfg m node
              let m := { m with numSteps := m.numSteps + 1 }
              match cfg.T.kind with
              | .fkhash =>
                R.assert (node = cfg.L.size m.nlm)
                let nlm ← cfg.L.appendDummy m.nlm
                updSteps (cfg.adding f g) fuel { m with nlm := nlm } node (k - m.lambda)
              | .bonsai => updSteps (cfg.adding f g) fuel m node (k - m.lambda)
            else updSteps (cfg.adding f g) fuel m node (k - m.lambda)) := by
        intro f g h
        conv => lhs; unfold updSteps
        rw [if_pos hk]
        show (f m.trie node stepSymb >>= _) = _
        rw [h]; rfl
      have unf0 := unf cfg.T.addChild cfg.L.compare rfl
      rw [adding_self] at unf0
      -- nothing else is looked up, or the loop goes on with one state
      have stop : (∀ f g, f m.trie node stepSymb = cfg.T.addChild m.trie node stepSymb →
            updSteps (cfg.adding f g) (fuel + 1) m node k = updSteps cfg (fuel + 1) m node k) →
            (∀ x, updSteps cfg (fuel + 1) m node k = .ok x → x.1.lambda = m.lambda) → _ :=
        fun h h' => (⟨[(m.trie, node, stepSymb)], by simpa using hk, fun f g hf => h f g (hf (m.trie, node, stepSymb) (by simp)), h'⟩ :
          ∃ E : List (τ × Nat × Nat), E.length * m.lambda ≤ k ∧
          (∀ f g, (∀ e ∈ E, f e.1 e.2.1 e.2.2 = cfg.T.addChild e.1 e.2.1 e.2.2) →
            updSteps (cfg.adding f g) (fuel + 1) m node k = updSteps cfg (fuel + 1) m node k) ∧
          (∀ x, updSteps cfg (fuel + 1) m node k = .ok x → x.1.lambda = m.lambda))
      have go : ∀ (m' : Map τ ν) (node' : Nat), m'.lambda = m.lambda →
            (∀ f g, f m.trie node stepSymb = cfg.T.addChild m.trie node stepSymb →
            updSteps (cfg.adding f g) (fuel + 1) m node k = updSteps (cfg.adding f g) fuel m' node' (k - m.lambda)) → _ :=
        fun m' node' hm h => (by
          obtain ⟨E, e1, e2, e3⟩ := ih m' node' (k - m.lambda)
          refine ⟨(m.trie, node, stepSymb) :: E, by rw [List.length_cons, Nat.add_mul, ← hm]; rw [← hm] at hk e1; omega, fun f g hf => ?_, fun x hx => ?_⟩
          · rw [h f g (hf (m.trie, node, stepSymb) (by simp)), e2 f g (fun e he => hf e (by simp [he]))]
            have h0 := h cfg.T.addChild cfg.L.compare rfl
            rw [adding_self] at h0
            exact h0.symm
          · have h0 := h cfg.T.addChild cfg.L.compare rfl
            rw [adding_self] at h0
            rw [h0] at hx
            exact (e3 x hx).trans hm :
          ∃ E : List (τ × Nat × Nat), E.length * m.lambda ≤ k ∧
          (∀ f g, (∀ e ∈ E, f e.1 e.2.1 e.2.2 = cfg.T.addChild e.1 e.2.1 e.2.2) →
            updSteps (cfg.adding f g) (fuel + 1) m node k = updSteps cfg (fuel + 1) m node k) ∧
          (∀ x, updSteps cfg (fuel + 1) m node k = .ok x → x.1.lambda = m.lambda))
      cases hc : cfg.T.addChild m.trie node stepSymb with
      | error e =>
        refine stop (fun f g hf => ?_) (fun x hx => ?_)
        · rw [unf f g hf, unf0, hc, R.bind_error, R.bind_error]
        · rw [unf0, hc] at hx; cases hx
      | ok r =>
        obtain ⟨t1, n1, isNew⟩ := r
        cases isNew with
        | false =>
          refine go { m with trie := t1 } n1 rfl (fun f g hf => ?_)
          rw [unf f g hf, hc]; rfl
        | true =>
          cases he : expandIfNeeded cfg { m with trie := t1 } n1 with
          | error e =>
            refine stop (fun f g hf => ?_) (fun x hx => ?_)
            · rw [unf f g hf, unf0, hc]
              simp only [R.bind_ok, if_true, he, R.bind_error]
            · rw [unf0, hc] at hx
              simp only [R.bind_ok, if_true, he, R.bind_error] at hx
              cases hx
          | ok r =>
            obtain ⟨m2, n2⟩ := r
            have hl := expandIfNeeded_lambda he
            dsimp only at hl
            cases hK : cfg.T.kind with
            | bonsai =>
              refine go { m2 with numSteps := m2.numSteps + 1 } n2 hl (fun f g hf => ?_)
              rw [unf f g hf, hc]
              simp only [R.bind_ok, if_true, he, hK, hl]
            | fkhash =>
              by_cases ha : n2 = cfg.L.size m2.nlm
              · cases hd : cfg.L.appendDummy m2.nlm with
                | error e =>
                  refine stop (fun f g hf => ?_) (fun x hx => ?_)
                  · rw [unf f g hf, unf0, hc]
                    simp only [R.bind_ok, if_true, he, hK, hd, R.bind_error]
                  · rw [unf0, hc] at hx
                    simp only [R.bind_ok, if_true, he, hK, hd, R.bind_error] at hx
                    rw [R.assert_dec ha] at hx
                    cases hx
                | ok nlm =>
                  refine go { m2 with numSteps := m2.numSteps + 1, nlm := nlm } n2 hl (fun f g hf => ?_)
                  rw [unf f g hf, hc]
                  simp only [R.bind_ok, if_true, he, hK, hd, hl]
                  rw [R.assert_dec ha]; rfl
              · have hn : (R.assert (decide (n2 = cfg.L.size m2.nlm))) = .error .assertion := by simp [R.assert, ha]
                refine stop (fun f g hf => ?_) (fun x hx => ?_)
                · rw [unf f g hf, unf0, hc]
                  simp only [R.bind_ok, if_true, he, hK, hn, R.bind_error]
                · rw [unf0, hc] at hx
                  simp only [R.bind_ok, if_true, he, hK, hn, R.bind_error] at hx
                  cases hx
    · refine ⟨[], by simp, fun f g h => ?_, fun x hx => ?_⟩
      · unfold updSteps
        rw [if_neg hk, if_neg hk]
      · unfold updSteps at hx
        rw [if_neg hk] at hx
        cases hx; rfl

/-- what `updLoop` and `update` look at -/
def Adds (cfg : MapCfg τ ν) (l n : Nat) (F : MapCfg τ ν → R (Map τ ν × UpdOut)) : Prop :=
  ∃ (E : List (τ × Nat × Nat)) (N : List (ν × Nat × List UInt8)) (j : Nat),
    E.length ≤ N.length + j ∧ N.length ≤ n + 1 ∧ j * l + N.length ≤ n + 1 ∧ E.length ≤ n ∧
    (∀ f g, (∀ e ∈ E, f e.1 e.2.1 e.2.2 = cfg.T.addChild e.1 e.2.1 e.2.2) →
      (∀ e ∈ N, g e.1 e.2.1 e.2.2 = cfg.L.compare e.1 e.2.1 e.2.2) → F (cfg.adding f g) = F cfg)

/-- the rest of a round of `updLoop` once the branching node is known (`K`: the next round) -/
def branch (cfg : MapCfg τ ν) (f : τ → Nat → Nat → R (τ × Nat × Bool)) (K : Map τ ν → Nat → List UInt8 → R (Map τ ν × UpdOut))
    (m : Map τ ν) (node match' : Nat) (c : UInt8) (rest : List UInt8) : R (Map τ ν × UpdOut) := do
  let (trie, node, isNew) ← f m.trie node (← makeSymb cfg m c match')
  let m := { m with trie := trie }
  if isNew then
    let (m, node) ← expandIfNeeded cfg m node
    let m := { m with size := m.size + 1 }
    R.assert (cfg.T.kind = .bonsai || node = cfg.L.size m.nlm)
    putLabel cfg m node rest
  else K m node rest

/-- a round of `updLoop` after the comparison -/
def round (cfg : MapCfg τ ν) (f : τ → Nat → Nat → R (τ × Nat × Bool)) (K : Map τ ν → Nat → List UInt8 → R (Map τ ν × UpdOut))
    (key : List UInt8) (x : Map τ ν × Nat × Nat) : R (Map τ ν × UpdOut) :=
  match key with
  | [] => .error .oob
  | c :: rest => do
    let unknown := (← rd x.1.codes c.toNat) = 255
    let m ← if unknown then do
        let codes ← wr x.1.codes c.toNat (x.1.numCodes % 256)
        pure { x.1 with codes := codes, numCodes := x.1.numCodes + 1 }
      else pure x.1
    if unknown && 255 = m.numCodes then pure (m, .exn)
    else branch cfg f K m x.2.1 x.2.2 c rest

theorem expandIfNeeded_adding {f : τ → Nat → Nat → R (τ × Nat × Bool)} {g : ν → Nat → List UInt8 → R (Option Loc × Nat)} (node : Nat) :
    expandIfNeeded (cfg.adding f g) m node = expandIfNeeded cfg m node := by
  unfold expandIfNeeded; rfl

theorem putLabel_adding {f : τ → Nat → Nat → R (τ × Nat × Bool)} {g : ν → Nat → List UInt8 → R (Option Loc × Nat)} (node : Nat)
    (key : List UInt8) : putLabel (cfg.adding f g) m node key = putLabel cfg m node key := by
  unfold putLabel; rfl

theorem makeSymb_adding {f : τ → Nat → Nat → R (τ × Nat × Bool)} {g : ν → Nat → List UInt8 → R (Option Loc × Nat)} (c : UInt8)
    (k : Nat) : makeSymb (cfg.adding f g) m c k = makeSymb cfg m c k := by
  unfold makeSymb; rfl

theorem branch_adding {f : τ → Nat → Nat → R (τ × Nat × Bool)} {g : ν → Nat → List UInt8 → R (Option Loc × Nat)}
    (f' : τ → Nat → Nat → R (τ × Nat × Bool)) (K : Map τ ν → Nat → List UInt8 → R (Map τ ν × UpdOut)) (node k : Nat) (c : UInt8)
    (rest : List UInt8) : branch (cfg.adding f g) f' K m node k c rest = branch cfg f' K m node k c rest := by
  unfold branch
  simp only [expandIfNeeded_adding, putLabel_adding, makeSymb_adding]
  rfl

theorem round_adding {f : τ → Nat → Nat → R (τ × Nat × Bool)} {g : ν → Nat → List UInt8 → R (Option Loc × Nat)}
    (f' : τ → Nat → Nat → R (τ × Nat × Bool)) (K : Map τ ν → Nat → List UInt8 → R (Map τ ν × UpdOut)) (key : List UInt8) :
    round (cfg.adding f g) f' K key = round cfg f' K key := by
  funext x
  unfold round
  simp only [branch_adding]

/-- a round of `updLoop` that does not end at `node` -/
theorem updLoop_round {fuel node k : Nat} {key : List UInt8} (hk : ¬ key.isEmpty = true)
    (hc : cfg.L.compare m.nlm node key = .ok (none, k)) (hadv : k ≤ key.length) :
    updLoop cfg (fuel + 1) m node key =
      updSteps cfg (k + 1) m node k >>= round cfg cfg.T.addChild (updLoop cfg fuel) (key.drop k) := by
  conv => lhs; unfold updLoop
  rw [if_neg hk, hc, R.bind_ok]
  dsimp only
  unfold advance
  rw [if_pos hadv, R.bind_ok]
  rfl

/-- a round of `updLoop` that ends at `node` -/
theorem updLoop_done {fuel node : Nat} {key : List UInt8} (hk : ¬ key.isEmpty = true)
    (hc : ∀ k, cfg.L.compare m.nlm node key = .ok (none, k) → ¬ k ≤ key.length) :
    updLoop cfg (fuel + 1) m node key = (match cfg.L.compare m.nlm node key with
      | .error e => .error e
      | .ok (some l, _) => .ok (m, .ptr l)
      | .ok (none, _) => .error .oob) := by
  conv => lhs; unfold updLoop
  rw [if_neg hk]
  cases h : cfg.L.compare m.nlm node key with
  | error e => rfl
  | ok r =>
    obtain ⟨v, k⟩ := r
    cases v with
    | some l => rfl
    | none =>
      rw [R.bind_ok]
      dsimp only
      unfold advance
      rw [if_neg (hc k h)]
      rfl

theorem updLoop_nil {fuel node : Nat} {key : List UInt8} (hk : key.isEmpty = true) :
    updLoop cfg (fuel + 1) m node key = (match cfg.L.compare m.nlm node key with
      | .error e => .error e
      | .ok (some l, _) => .ok (m, .ptr l)
      | .ok (none, _) => .ok (m, .null)) := by
  conv => lhs; unfold updLoop
  rw [if_pos hk]
  cases h : cfg.L.compare m.nlm node key with
  | error e => rfl
  | ok r =>
    obtain ⟨v, k⟩ := r
    cases v <;> rfl

theorem round_cases (cfg : MapCfg τ ν) (key : List UInt8) (x : Map τ ν × Nat × Nat) :
    (∀ f K f' K', round cfg f K key x = round cfg f' K' key x) ∨
    ∃ m2 c rest, key = c :: rest ∧ m2.lambda = x.1.lambda ∧ ∀ f K, round cfg f K key x = branch cfg f K m2 x.2.1 x.2.2 c rest := by
  obtain ⟨m1, n1, k1⟩ := x
  cases key with
  | nil => exact Or.inl fun _ _ _ _ => rfl
  | cons c rest =>
    dsimp only [round]
    cases hr : rd m1.codes c.toNat with
    | error e => exact Or.inl fun _ _ _ _ => rfl
    | ok code =>
      dsimp only [R.bind_ok]
      by_cases h : code = 255
      · simp only [if_pos h]
        cases hw : wr m1.codes c.toNat (m1.numCodes % 256) with
        | error e => exact Or.inl fun _ _ _ _ => rfl
        | ok codes =>
          by_cases h2 : 255 = m1.numCodes + 1
          · refine Or.inl fun f K f' K' => ?_
            simp only [R.bind_ok]
            show (if _ then _ else _) = (if _ then _ else _)
            rw [if_pos (by simp [h, ← h2]), if_pos (by simp [h, ← h2])]
          · refine Or.inr ⟨{ m1 with codes := codes, numCodes := m1.numCodes + 1 }, c, rest, rfl, rfl, fun f K => ?_⟩
            · simp only [R.bind_ok]
              show (if _ then _ else _) = _
              rw [if_neg (by simp [h2])]
      · refine Or.inr ⟨m1, c, rest, rfl, rfl, fun f K => ?_⟩
        simp only [if_neg h]
        show (if _ then _ else _) = _
        rw [if_neg (by simp [h])]

theorem branch_cases (cfg : MapCfg τ ν) (m : Map τ ν) (node k : Nat) (c : UInt8) (rest : List UInt8) :
    ∃ s, (∀ f K f' K', f m.trie node s = cfg.T.addChild m.trie node s → f' m.trie node s = cfg.T.addChild m.trie node s →
      branch cfg f K m node k c rest = branch cfg f' K' m node k c rest) ∨
    ∃ m' n', m'.lambda = m.lambda ∧ ∀ f K, f m.trie node s = cfg.T.addChild m.trie node s →
      branch cfg f K m node k c rest = K m' n' rest := by
  unfold branch
  cases hs : makeSymb cfg m c k with
  | error e => exact ⟨0, Or.inl fun _ _ _ _ _ _ => rfl⟩
  | ok s =>
    refine ⟨s, ?_⟩
    simp only [R.bind_ok]
    cases ha : cfg.T.addChild m.trie node s with
    | error e => refine Or.inl fun f K f' K' h h' => ?_; rw [h, h']; rfl
    | ok r =>
      obtain ⟨t, n, isNew⟩ := r
      cases isNew with
      | true => refine Or.inl fun f K f' K' h h' => ?_; rw [h, h']; rfl
      | false => refine Or.inr ⟨{ m with trie := t }, n, rfl, fun f K h => ?_⟩; rw [h]; rfl

theorem updLoop_reads (cfg : MapCfg τ ν) (l : Nat) (hl : 0 < l) : ∀ (fuel : Nat) (m : Map τ ν) (node : Nat) (key : List UInt8),
    m.lambda = l → Adds cfg l key.length (fun cfg => updLoop cfg fuel m node key) := by
  intro fuel
  induction fuel with
  | zero => intro m node key _; exact ⟨[], [], 0, by simp, by simp, by simp, by simp, fun _ _ _ _ => rfl⟩
  | succ fuel ih =>
    intro m node key hm
    -- looking at the label of `node` only
    have stop0 : (∀ f g, g m.nlm node key = cfg.L.compare m.nlm node key →
        updLoop (cfg.adding f g) (fuel + 1) m node key = updLoop cfg (fuel + 1) m node key) →
        Adds cfg l key.length (fun cfg => updLoop cfg (fuel + 1) m node key) :=
      fun h => ⟨[], [(m.nlm, node, key)], 0, by simp, by simp, by simp, by simp, fun f g _ hg => h f g (hg (m.nlm, node, key) (by simp))⟩
    by_cases hk : key.isEmpty = true
    · refine stop0 fun f g hg => ?_
      rw [updLoop_nil hk, updLoop_nil hk]
      show (match g m.nlm node key with | .error e => _ | .ok (some l, _) => _ | .ok (none, _) => _) = _
      rw [hg]
    · by_cases hc : ∃ k, cfg.L.compare m.nlm node key = .ok (none, k) ∧ k ≤ key.length
      case neg =>
        have hc' : ∀ k, cfg.L.compare m.nlm node key = .ok (none, k) → ¬ k ≤ key.length := fun k h1 h2 => hc ⟨k, h1, h2⟩
        refine stop0 fun f g hg => ?_
        have hg' : (cfg.adding f g).L.compare m.nlm node key = cfg.L.compare m.nlm node key := hg
        rw [updLoop_done (cfg := cfg.adding f g) hk (fun k hx => hc' k (hg'.symm.trans hx)), updLoop_done hk hc', hg']
      case pos =>
            obtain ⟨k, hc, hadv⟩ := hc
            obtain ⟨E1, e1, e2, e3⟩ := updSteps_reads cfg (k + 1) m node k
            rw [hm] at e1
            have e4 : E1.length ≤ k := Nat.le_trans (Nat.le_mul_of_pos_right _ hl) e1
            have stop : (∀ f g, (∀ e ∈ E1, f e.1 e.2.1 e.2.2 = cfg.T.addChild e.1 e.2.1 e.2.2) →
                g m.nlm node key = cfg.L.compare m.nlm node key →
                updLoop (cfg.adding f g) (fuel + 1) m node key = updLoop cfg (fuel + 1) m node key) →
                Adds cfg l key.length (fun cfg => updLoop cfg (fuel + 1) m node key) :=
              fun h => ⟨E1, [(m.nlm, node, key)], E1.length, by simp, by simp, by simp; omega, by omega,
                fun f g hf hg => h f g hf (hg (m.nlm, node, key) (by simp))⟩
            have unf : ∀ f g, (∀ e ∈ E1, f e.1 e.2.1 e.2.2 = cfg.T.addChild e.1 e.2.1 e.2.2) →
                g m.nlm node key = cfg.L.compare m.nlm node key →
                updLoop (cfg.adding f g) (fuel + 1) m node key =
                  updSteps cfg (k + 1) m node k >>= round cfg f (updLoop (cfg.adding f g) fuel) (key.drop k) := by
              intro f g hf hg
              have hg' : (cfg.adding f g).L.compare m.nlm node key = .ok (none, k) := hg.trans hc
              rw [updLoop_round hk hg' hadv, e2 f g hf, round_adding]
              rfl
            have unf0 := unf cfg.T.addChild cfg.L.compare (fun _ _ => rfl) rfl
            rw [adding_self] at unf0
            cases hs : updSteps cfg (k + 1) m node k with
            | error e =>
              refine stop fun f g hf hg => ?_
              rw [unf f g hf hg, unf0, hs, R.bind_error, R.bind_error]
            | ok x =>
              have hx := e3 x hs
              rcases round_cases cfg (key.drop k) x with hr | ⟨m2, c, rest, hd, hm2, hr⟩
              · refine stop fun f g hf hg => ?_
                rw [unf f g hf hg, unf0, hs, R.bind_ok, R.bind_ok]
                exact hr _ _ _ _
              · have hlen : key.length = k + (rest.length + 1) := by
                  have := congrArg List.length hd
                  rw [List.length_drop, List.length_cons] at this; omega
                obtain ⟨s, hb⟩ := branch_cases cfg m2 x.2.1 x.2.2 c rest
                rcases hb with hb | ⟨m3, n3, hm3, hb⟩
                · refine ⟨E1 ++ [(m2.trie, x.2.1, s)], [(m.nlm, node, key)], E1.length, by simp; omega, by simp, by simp; omega,
                    by simp; omega, fun f g hf hg => ?_⟩
                  show updLoop (cfg.adding f g) (fuel + 1) m node key = updLoop cfg (fuel + 1) m node key
                  rw [unf f g (fun e he => hf e (by simp [he])) (hg (m.nlm, node, key) (by simp)), unf0, hs, R.bind_ok, R.bind_ok, hr, hr]
                  exact hb _ _ _ _ (hf (m2.trie, x.2.1, s) (by simp)) rfl
                · obtain ⟨E2, N2, j, a1, a2, a3, a4, a5⟩ := ih m3 n3 rest (by rw [hm3, hm2, hx, hm])
                  refine ⟨E1 ++ (m2.trie, x.2.1, s) :: E2, (m.nlm, node, key) :: N2, E1.length + j, by simp; omega, by simp; omega,
                    by rw [Nat.add_mul, List.length_cons]; omega, by simp; omega, fun f g hf hg => ?_⟩
                  show updLoop (cfg.adding f g) (fuel + 1) m node key = updLoop cfg (fuel + 1) m node key
                  rw [unf f g (fun e he => hf e (by simp [he])) (hg (m.nlm, node, key) (by simp)), unf0, hs, R.bind_ok, R.bind_ok, hr, hr,
                    hb _ _ (hf (m2.trie, x.2.1, s) (by simp)), hb _ _ rfl]
                  exact a5 f g (fun e he => hf e (by simp [he])) (fun e he => hg e (by simp [he]))

theorem make_adding {f : τ → Nat → Nat → R (τ × Nat × Bool)} {g : ν → Nat → List UInt8 → R (Option Loc × Nat)} (a b : Nat) :
    make (cfg.adding f g) a b = make cfg a b := by
  unfold make; rfl

theorem update_first {key : List UInt8} (hb : ¬ badKey key = true) (hr : cfg.T.size m.trie = 0) :
    update cfg m key = (do
      let m ← if !m.isReady then make cfg 0 32 else pure m
      let m := { m with size := m.size + 1 }
      let trie ← cfg.T.addRoot m.trie
      let m := { m with trie := trie }
      let node ← cfg.T.getRoot m.trie
      putLabel cfg m node key) := by
  unfold update
  rw [if_neg hb, if_pos hr]

theorem update_later {key : List UInt8} (hb : ¬ badKey key = true) (hr : ¬ cfg.T.size m.trie = 0) :
    update cfg m key = cfg.T.getRoot m.trie >>= fun node => updLoop cfg (key.length + 1) m node key := by
  unfold update
  rw [if_neg hb, if_neg hr]

theorem update_reads (cfg : MapCfg τ ν) (m : Map τ ν) (hl : 0 < m.lambda) (key : List UInt8) :
    Adds cfg m.lambda key.length (fun cfg => update cfg m key) := by
  have triv : (∀ f g, update (cfg.adding f g) m key = update cfg m key) → Adds cfg m.lambda key.length (fun cfg => update cfg m key) :=
    fun h => ⟨[], [], 0, by simp, by simp, by simp, by simp, fun f g _ _ => h f g⟩
  by_cases hb : badKey key
  · refine triv fun f g => ?_
    unfold update
    rw [if_pos hb, if_pos hb]
  · by_cases hr : cfg.T.size m.trie = 0
    · refine triv fun f g => ?_
      rw [update_first (cfg := cfg.adding f g) hb hr, update_first hb hr, make_adding]
      simp only [putLabel_adding]
      rfl
    · have unf : ∀ f g, update (cfg.adding f g) m key =
          cfg.T.getRoot m.trie >>= fun node => updLoop (cfg.adding f g) (key.length + 1) m node key :=
        fun f g => update_later (cfg := cfg.adding f g) hb hr
      have unf0 := unf cfg.T.addChild cfg.L.compare
      rw [adding_self] at unf0
      cases hg : cfg.T.getRoot m.trie with
      | error e => exact triv fun f g => by rw [unf f g, unf0, hg, R.bind_error, R.bind_error]
      | ok node =>
        obtain ⟨E, N, j, h1, h2, h3, h4, h5⟩ := updLoop_reads cfg m.lambda hl (key.length + 1) m node key rfl
        refine ⟨E, N, j, h1, h2, h3, h4, fun f g hf hgg => ?_⟩
        show update (cfg.adding f g) m key = update cfg m key
        rw [unf f g, unf0, hg]
        exact h5 f g hf hgg

/-- `lambda_` never changes; a default-constructed map gets 32 by its first `update` -/
def Lam (l : Nat) (m : Map τ ν) : Prop := m.lambda = l ∧ (m.isReady = false → l = 32)

theorem putLabel_lam {l : Nat} {node : Nat} {key : List UInt8} {x : Map τ ν × UpdOut} (hm : Lam l m) (h : putLabel cfg m node key = .ok x) :
    Lam l x.1 := by
  unfold putLabel at h
  split at h <;> (obtain ⟨⟨n, q⟩, _, h⟩ := R.bind_eq_ok h; cases h; exact hm)

theorem expandIfNeeded_lam {l : Nat} {node : Nat} {x : Map τ ν × Nat} (hm : Lam l m) (h : expandIfNeeded cfg m node = .ok x) :
    Lam l x.1 := by
  unfold expandIfNeeded at h
  split at h
  · cases h; exact hm
  · split at h
    · cases h; exact hm
    · obtain ⟨y, _, h⟩ := R.bind_eq_ok h
      obtain ⟨z, _, h⟩ := R.bind_eq_ok h
      obtain ⟨w, _, h⟩ := R.bind_eq_ok h
      cases h; exact hm

theorem updSteps_lam {l : Nat} : ∀ (fuel : Nat) {m : Map τ ν} {v t : Nat} {x : Map τ ν × Nat × Nat}, Lam l m →
    updSteps cfg fuel m v t = .ok x → Lam l x.1 := by
  intro fuel
  induction fuel with
  | zero => intro m v t x _ h; cases h
  | succ fuel ih =>
    intro m v t x hq h
    unfold updSteps at h
    split at h
    · obtain ⟨⟨t1, v1, b⟩, h1, h⟩ := R.bind_eq_ok h
      dsimp only at h
      split at h
      · obtain ⟨⟨m2, v2⟩, he, h⟩ := R.bind_eq_ok h
        dsimp only at h
        have hq2 := expandIfNeeded_lam (m := { m with trie := t1 }) hq he
        split at h
        · obtain ⟨_, _, h⟩ := R.bind_eq_ok h
          obtain ⟨n, hn, h⟩ := R.bind_eq_ok h
          exact ih (m := { m2 with nlm := n, numSteps := m2.numSteps + 1 }) hq2 h
        · exact ih (m := { m2 with numSteps := m2.numSteps + 1 }) hq2 h
      · exact ih (m := { m with trie := t1 }) hq h
    · cases h; exact hq

theorem branch_lam {l : Nat} {K : Map τ ν → Nat → List UInt8 → R (Map τ ν × UpdOut)}
    (hK : ∀ m n r x, Lam l m → K m n r = .ok x → Lam l x.1) {node k : Nat} {c : UInt8} {rest : List UInt8} {x : Map τ ν × UpdOut}
    (hm : Lam l m) (h : branch cfg cfg.T.addChild K m node k c rest = .ok x) : Lam l x.1 := by
  obtain ⟨s, _, h⟩ := R.bind_eq_ok h
  obtain ⟨⟨t, n, b⟩, _, h⟩ := R.bind_eq_ok h
  dsimp only at h
  split at h
  · obtain ⟨⟨m2, n2⟩, h2, h⟩ := R.bind_eq_ok h
    have := expandIfNeeded_lam (m := { m with trie := t }) hm h2
    dsimp only at h
    obtain ⟨_, _, h⟩ := R.bind_eq_ok h
    exact putLabel_lam (m := { m2 with size := m2.size + 1 }) this h
  · exact hK { m with trie := t } _ _ _ hm h

theorem round_lam {l : Nat} {K : Map τ ν → Nat → List UInt8 → R (Map τ ν × UpdOut)}
    (hK : ∀ m n r x, Lam l m → K m n r = .ok x → Lam l x.1) {key : List UInt8} {y : Map τ ν × Nat × Nat} {x : Map τ ν × UpdOut}
    (hm : Lam l y.1) (h : round cfg cfg.T.addChild K key y = .ok x) : Lam l x.1 := by
  cases key with
  | nil => cases h
  | cons c rest =>
    obtain ⟨code, _, h⟩ := R.bind_eq_ok h
    dsimp only at h
    split at h
    · obtain ⟨cs, _, h⟩ := R.bind_eq_ok h
      rw [R.pure_eq, R.bind_ok] at h
      split at h
      · cases h; exact hm
      · exact branch_lam hK (m := { y.1 with codes := cs, numCodes := y.1.numCodes + 1 }) hm h
    · rw [R.pure_eq, R.bind_ok] at h
      split at h
      · cases h; exact hm
      · exact branch_lam hK hm h

theorem updLoop_lam {l : Nat} : ∀ (fuel : Nat) {m : Map τ ν} {v : Nat} {k : List UInt8} {x : Map τ ν × UpdOut}, Lam l m →
    updLoop cfg fuel m v k = .ok x → Lam l x.1 := by
  intro fuel
  induction fuel with
  | zero => intro m v k x _ h; cases h
  | succ fuel ih =>
    intro m v key x hm h
    by_cases hk : key.isEmpty = true
    · rw [updLoop_nil hk] at h
      split at h <;> cases h <;> exact hm
    · by_cases hc : ∃ k, cfg.L.compare m.nlm v key = .ok (none, k) ∧ k ≤ key.length
      · obtain ⟨k, hc, hadv⟩ := hc
        rw [updLoop_round hk hc hadv] at h
        obtain ⟨y, h1, h⟩ := R.bind_eq_ok h
        exact round_lam (fun _ _ _ _ h1 h2 => ih h1 h2) (updSteps_lam _ hm h1) h
      · rw [updLoop_done hk (fun k h1 h2 => hc ⟨k, h1, h2⟩)] at h
        split at h <;> cases h <;> exact hm

theorem make_lam {b l : Nat} {m : Map τ ν} (h : make cfg b l = .ok m) : Lam l m ∧ 0 < l := by
  unfold make at h
  split at h
  · cases h
  · rename_i hp
    obtain ⟨x, _, h⟩ := R.bind_eq_ok h
    obtain ⟨t, ht, h⟩ := R.bind_eq_ok h
    obtain ⟨n, hn, h⟩ := R.bind_eq_ok h
    obtain ⟨cs, _, h⟩ := R.bind_eq_ok h
    cases h
    refine ⟨⟨rfl, by intro h; cases h⟩, ?_⟩
    rcases Nat.eq_zero_or_pos l with rfl | h
    · exact absurd (by rfl) hp
    · exact h

theorem update_lam {l : Nat} {k : List UInt8} {x : Map τ ν × UpdOut} (hm : Lam l m) (h : update cfg m k = .ok x) : Lam l x.1 := by
  by_cases hb : badKey k = true
  · unfold update at h
    rw [if_pos hb] at h
    cases h; exact hm
  · by_cases hr : cfg.T.size m.trie = 0
    · rw [update_first hb hr] at h
      have cont : ∀ m1 : Map τ ν, Lam l m1 → ((do
          let trie ← cfg.T.addRoot m1.trie
          let node ← cfg.T.getRoot trie
          putLabel cfg { m1 with size := m1.size + 1, trie := trie } node k) : R (Map τ ν × UpdOut)) = .ok x → Lam l x.1 := by
        intro m1 hm1 h
        obtain ⟨t, h1, h⟩ := R.bind_eq_ok h
        obtain ⟨v, _, h⟩ := R.bind_eq_ok h
        exact putLabel_lam (m := { m1 with size := m1.size + 1, trie := t }) hm1 h
      split at h
      · rename_i hnr
        obtain ⟨m1, h1, h⟩ := R.bind_eq_ok h
        have e := hm.2 (by simpa using hnr)
        subst e
        exact cont m1 (make_lam h1).1 h
      · rw [R.pure_eq, R.bind_ok] at h
        exact cont m hm h
    · rw [update_later hb hr] at h
      obtain ⟨v, _, h⟩ := R.bind_eq_ok h
      exact updLoop_lam _ hm h

open Spec (Op Out) in
theorem exec_lam {l : Nat} {o : Op} {x : Map τ ν × Out} (hm : Lam l m) (h : exec cfg m o = .ok x) : Lam l x.1 := by
  cases o with
  | find k =>
    simp only [exec] at h
    split at h
    · cases h; exact hm
    · cases h
    · cases h; exact hm
    · obtain ⟨v, _, h⟩ := R.bind_eq_ok h
      cases h; exact hm
  | size => cases h; exact hm
  | update k =>
    obtain ⟨⟨m1, r⟩, h1, h⟩ := R.bind_eq_ok h
    have q := update_lam hm h1
    dsimp only at h
    split at h
    · obtain ⟨v, _, h⟩ := R.bind_eq_ok h
      cases h; exact q
    · cases h; exact q
    · cases h; exact q
  | write k v =>
    obtain ⟨⟨m1, r⟩, h1, h⟩ := R.bind_eq_ok h
    have q := update_lam hm h1
    dsimp only at h
    split at h
    · obtain ⟨m2, h2, h⟩ := R.bind_eq_ok h
      cases h
      obtain ⟨n, h3, h2⟩ := R.bind_eq_ok h2
      cases h2
      exact q
    · cases h; exact q
    · cases h; exact q

open Spec (Op Out) in
theorem run_lam {l : Nat} : ∀ (os : List Op) {m : Map τ ν} {x : Map τ ν × List Out}, Lam l m → run cfg m os = .ok x → Lam l x.1 := by
  intro os
  induction os with
  | nil => intro m x hm h; cases h; exact hm
  | cons o os ih =>
    intro m x hm h
    obtain ⟨⟨m1, y⟩, h1, h⟩ := R.bind_eq_ok h
    obtain ⟨⟨m2, ys⟩, h2, h⟩ := R.bind_eq_ok h
    cases h
    have := ih (m := m1) (exec_lam hm h1) h2
    exact this

end Map

open Spec (Op Out) in
/-- `lambda_` is what the constructor was given -/
theorem Alias.run_lambda {a : Alias} {p : Params} {i : Init} {m m' : Map a.Trie a.Nlm} {os : List Op} {xs : List Out}
    (h0 : a.new p i = .ok m) (h1 : Map.run (a.cfg p) m os = .ok (m', xs)) :
    m'.lambda = (match i with | .default => 32 | .make _ l => l) ∧ 0 < m'.lambda := by
  cases i with
  | default =>
    cases h0
    have := (Map.run_lam os (l := 32) (m := Map.default (a.cfg p)) ⟨rfl, fun _ => rfl⟩ h1).1
    dsimp only at this
    exact ⟨this, by omega⟩
  | make cb l =>
    obtain ⟨q1, q2⟩ := Map.make_lam h0
    have := (Map.run_lam os q1 h1).1
    dsimp only at this
    exact ⟨this, by omega⟩

end Poplar
