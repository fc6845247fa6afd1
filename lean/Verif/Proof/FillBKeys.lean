import Verif.Proof.FillBRun
/-
  The keys are different words.
-/
namespace Poplar.FillB
open Poplar.Spec
open Poplar.Fill (lab33 letter branchKey letter_ne letter_inj h29 rot branchKey_append parentKey leafKey run_inj branchKey_inj Good leafKey_inj nodup_map letter_toNat)

/-- the entries of a path have increasing hash values -/
theorem Path.sorted {lo f r es f' r'} (h : Path lo f r es f' r') :
    (∀ e ∈ es, 1 ≤ e / 1024 ∧ e / 1024 ≤ 200 ∧ 1 ≤ e % 32 ∧ e % 32 ≤ 25 ∧ r ≤ rot (h29 (entryKey e)) ∧ rot (h29 (entryKey e)) < r') ∧
    es.Pairwise (fun a b => rot (h29 (entryKey a)) < rot (h29 (entryKey b))) ∧ r ≤ r' := by
  induction h with
  | nil => exact ⟨by simp, .nil, Nat.le_refl _⟩
  | gap _ _ ih => exact ih
  | up a _ ih =>
    obtain ⟨i1, i2, i3⟩ := ih
    refine ⟨fun e he => ?_, i2, by omega⟩
    obtain ⟨c1, c2, c3, c4, c5, c6⟩ := i1 e he
    exact ⟨c1, c2, c3, c4, by omega, c6⟩
  | put _ b _ ih =>
    obtain ⟨i1, i2, i3⟩ := ih
    have hr := b.r
    refine ⟨?_, List.pairwise_cons.mpr ⟨fun e he => ?_, i2⟩, by omega⟩
    · intro e he
      rcases List.mem_cons.mp he with rfl | he
      · exact ⟨b.p1, b.p2, b.c1, b.c2, hr, by omega⟩
      · obtain ⟨c1, c2, c3, c4, c5, c6⟩ := i1 e he
        exact ⟨c1, c2, c3, c4, by omega, c6⟩
    · have := (i1 e he).2.2.2.2.1
      omega

theorem ents_good : ∀ e ∈ ents0 ++ ents1, Good e := by
  intro e he
  rcases List.mem_append.mp he with he | he
  · obtain ⟨c1, c2, c3, c4, _⟩ := path0.sorted.1 e he; exact ⟨c1, c2, c3, c4⟩
  · obtain ⟨c1, c2, c3, c4, _⟩ := path1.sorted.1 e he; exact ⟨c1, c2, c3, c4⟩

theorem ents_nodup : (ents0 ++ ents1).Nodup := by
  obtain ⟨a1, a2, _⟩ := path0.sorted
  obtain ⟨b1, b2, _⟩ := path1.sorted
  have : (ents0 ++ ents1).Pairwise (fun a b => rot (h29 (entryKey a)) < rot (h29 (entryKey b))) := by
    refine List.pairwise_append.mpr ⟨a2, b2, fun x hx y hy => ?_⟩
    have h1 := (a1 x hx).2.2.2.2.2
    have h2 := (b1 y hy).2.2.2.2.1
    omega
  exact this.imp (fun h e => by subst e; omega)

theorem fillKeys_nodup : fillKeys.Nodup := by
  have hroot : lab33 = List.replicate 33 97 ++ 0 :: [] := rfl
  have hb : ∀ q (rest : List UInt8), q < 200 → lab33 ≠ branchKey q rest := by
    intro q rest hq h
    rw [hroot] at h
    obtain ⟨h1, _⟩ := run_inj (by decide) (letter_ne (by omega) (by omega)).1 h
    omega
  unfold fillKeys
  rw [← List.map_append, List.nodup_cons, List.nodup_append]
  refine ⟨?_, ?_, ?_, ?_⟩
  · intro h
    rcases List.mem_append.mp h with h | h
    · obtain ⟨q, hq, e⟩ := List.mem_map.mp h
      simp only [List.mem_range'_1] at hq
      exact hb q _ (by omega) e.symm
    · obtain ⟨a, ha, e⟩ := List.mem_map.mp h
      obtain ⟨g1, g2, _⟩ := ents_good a ha
      exact hb _ _ (by omega) e.symm
  · refine nodup_map ?_ (List.nodup_range')
    intro a _ b _ h
    exact (branchKey_inj h).1
  · exact nodup_map (fun a ha b hb => leafKey_inj (ents_good a ha) (ents_good b hb)) ents_nodup
  · intro x hx y hy h
    subst h
    obtain ⟨q, hq, e⟩ := List.mem_map.mp hx
    obtain ⟨a, ha, e'⟩ := List.mem_map.mp hy
    rw [← e'] at e
    obtain ⟨g1, g2, g3, g4⟩ := ents_good a ha
    obtain ⟨h1, h2⟩ := branchKey_inj e
    rw [hroot] at h2
    obtain ⟨h3, _⟩ := run_inj (by decide) (letter_ne g3 g4).1 h2
    omega

/-- every key is a word of lower-case letters, followed by NUL -/
theorem fillKeys_words : ∀ k ∈ fillKeys, ∃ s : List UInt8, k = s ++ [0] ∧ s ≠ [] ∧ s.length ≤ 41 ∧ ∀ c ∈ s, 97 ≤ c.toNat ∧ c.toNat ≤ 122 := by
  have ha : ∀ (n : Nat) (c : UInt8), c ∈ List.replicate n 97 → 97 ≤ c.toNat ∧ c.toNat ≤ 122 := by
    intro n c hc
    rw [(List.mem_replicate.mp hc).2]
    decide
  have hbr : ∀ (q : Nat) (s : List UInt8), q < 200 → (∀ c ∈ s, 97 ≤ c.toNat ∧ c.toNat ≤ 122) → ∀ c ∈ branchKey q s, 97 ≤ c.toNat ∧ c.toNat ≤ 122 := by
    intro q s hq hs c hc
    rcases List.mem_append.mp hc with hc | hc
    · exact ha _ c hc
    · rcases List.mem_cons.mp hc with rfl | hc
      · rw [letter_toNat (by omega)]; omega
      · exact hs c hc
  have hlen : ∀ (q : Nat) (s : List UInt8), (branchKey q s).length = q / 25 + 1 + s.length := by
    intro q s
    simp [branchKey]; omega
  intro k hk
  unfold fillKeys at hk
  rw [← List.map_append] at hk
  rcases List.mem_cons.mp hk with rfl | hk
  · exact ⟨List.replicate 33 97, rfl, by simp, by simp, ha _⟩
  · rcases List.mem_append.mp hk with hk | hk
    · obtain ⟨q, hq, rfl⟩ := List.mem_map.mp hk
      simp only [List.mem_range'_1] at hq
      refine ⟨branchKey q (List.replicate 33 97), branchKey_append _ _, by simp [branchKey], ?_, hbr _ _ (by omega) (ha _)⟩
      rw [hlen, List.length_replicate]; omega
    · obtain ⟨e, he, rfl⟩ := List.mem_map.mp hk
      obtain ⟨g1, g2, g3, g4⟩ := ents_good e he
      refine ⟨branchKey (e / 1024 - 1) (List.replicate (e / 32 % 32) 97 ++ [letter (e % 32)]), ?_, by simp [branchKey], ?_, hbr _ _ (by omega) ?_⟩
      · rw [← branchKey_append]; unfold leafKey; simp
      · rw [hlen, List.length_append, List.length_replicate, List.length_singleton]; omega
      · intro c hc
        rcases List.mem_append.mp hc with hc | hc
        · exact ha _ c hc
        · rw [List.mem_singleton.mp hc, letter_toNat (by omega)]; omega

end Poplar.FillB
