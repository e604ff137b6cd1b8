import Verif.Proofs.Lcs

/-! The matching phases: each index is matched at most once, so pairs and leftovers account for everything. -/

namespace Pdfer.Compare

variable {τ : Type}

/-- No index matched twice, all indices in range, every pair satisfies `Q`. -/
structure Good (n m : Nat) (Q : Nat → Nat → τ → Prop) (ps : Pairs τ) : Prop where
  nd1 : (ps.map (·.1)).Nodup
  nd2 : (ps.map (·.2.1)).Nodup
  lt1 : ∀ p ∈ ps, p.1 < n
  lt2 : ∀ p ∈ ps, p.2.1 < m
  ok : ∀ p ∈ ps, Q p.1 p.2.1 p.2.2

theorem good_nil (n m : Nat) (Q : Nat → Nat → τ → Prop) : Good n m Q [] := ⟨by simp, by simp, by simp, by simp, by simp⟩

theorem Good.mono {n m : Nat} {Q R : Nat → Nat → τ → Prop} {ps : Pairs τ} (h : Good n m Q ps)
    (hr : ∀ i j t, i < n → j < m → Q i j t → R i j t) : Good n m R ps :=
  ⟨h.nd1, h.nd2, h.lt1, h.lt2, fun p hp => hr _ _ _ (h.lt1 p hp) (h.lt2 p hp) (h.ok p hp)⟩

theorem used1_iff (ps : Pairs τ) (i : Nat) : used1 ps i = true ↔ i ∈ ps.map (·.1) := by
  simp only [used1, List.any_eq_true, List.mem_map, beq_iff_eq]

theorem used2_iff (ps : Pairs τ) (i : Nat) : used2 ps i = true ↔ i ∈ ps.map (·.2.1) := by
  simp only [used2, List.any_eq_true, List.mem_map, beq_iff_eq]

theorem used1_false (ps : Pairs τ) (i : Nat) : used1 ps i = false ↔ i ∉ ps.map (·.1) := by
  rw [← used1_iff]; simp

theorem used2_false (ps : Pairs τ) (i : Nat) : used2 ps i = false ↔ i ∉ ps.map (·.2.1) := by
  rw [← used2_iff]; simp

theorem Good.append {n m : Nat} {Q : Nat → Nat → τ → Prop} {ps : Pairs τ} (h : Good n m Q ps) {i j : Nat} {t : τ}
    (hi : i < n) (hj : j < m) (h1 : used1 ps i = false) (h2 : used2 ps j = false) (hq : Q i j t) :
    Good n m Q (ps ++ [(i, j, t)]) := by
  rw [used1_false] at h1; rw [used2_false] at h2
  refine ⟨?_, ?_, ?_, ?_, ?_⟩
  · rw [List.map_append, List.nodup_append]
    refine ⟨h.nd1, by simp, ?_⟩
    intro a ha b hb; simp at hb; subst hb; rintro rfl; exact h1 ha
  · rw [List.map_append, List.nodup_append]
    refine ⟨h.nd2, by simp, ?_⟩
    intro a ha b hb; simp at hb; subst hb; rintro rfl; exact h2 ha
  all_goals
    intro p hp
    rw [List.mem_append] at hp
    rcases hp with hp | hp
    · first | exact h.lt1 p hp | exact h.lt2 p hp | exact h.ok p hp
    · simp at hp; subst hp; assumption

theorem phaseStep_cases (m : Nat) (cond : Pairs τ → Nat → Nat → Bool) (tag : Nat → Nat → τ) (ps : Pairs τ) (i : Nat) :
    (phaseStep m cond tag ps i = ps ∧ (used1 ps i = true ∨ ∀ j, j < m → used2 ps j = true ∨ cond ps i j = false)) ∨
    (∃ j, phaseStep m cond tag ps i = ps ++ [(i, j, tag i j)] ∧ used1 ps i = false ∧ used2 ps j = false ∧ j < m ∧
      cond ps i j = true) := by
  unfold phaseStep
  split
  · rename_i h; exact Or.inl ⟨rfl, Or.inl h⟩
  · rename_i hu
    split
    · rename_i hf
      rw [List.find?_eq_none] at hf
      refine Or.inl ⟨rfl, Or.inr fun j hj => ?_⟩
      have := hf j (by simpa using hj)
      simp at this
      cases h2 : used2 ps j
      · exact Or.inr (this h2)
      · exact Or.inl rfl
    · rename_i j hj
      rw [List.find?_range_eq_some] at hj
      obtain ⟨hc, hjm, -⟩ := hj
      simp at hc hjm
      exact Or.inr ⟨j, rfl, by simpa using hu, hc.1, hjm, hc.2⟩

/-- Phases keep what was matched, and new pairs satisfy the condition and were free before. -/
theorem phase_good {n m : Nat} {Q : Nat → Nat → τ → Prop} {cond : Pairs τ → Nat → Nat → Bool} {tag : Nat → Nat → τ}
    {ps0 : Pairs τ}
    (hq : ∀ ps i j, (∀ p ∈ ps0, p ∈ ps) → used1 ps i = false → used2 ps j = false → i < n → j < m →
      cond ps i j = true → Q i j (tag i j)) (h : Good n m Q ps0) :
    Good n m Q (phase n m cond tag ps0) := by
  unfold phase
  have : ∀ (l : List Nat), (∀ i ∈ l, i < n) → ∀ ps, (∀ p ∈ ps0, p ∈ ps) → Good n m Q ps →
      Good n m Q (l.foldl (phaseStep m cond tag) ps) := by
    intro l
    induction l with
    | nil => intro _ ps _ h; exact h
    | cons i l ih =>
      intro hl ps hs h
      have hi : i < n := hl i (by simp)
      simp only [List.foldl_cons]
      refine ih (fun i hi => hl i (by simp [hi])) _ ?_ ?_
      · rcases phaseStep_cases m cond tag ps i with ⟨he, -⟩ | ⟨j, he, -⟩
        · rw [he]; exact hs
        · rw [he]; intro p hp; simp [hs p hp]
      · rcases phaseStep_cases m cond tag ps i with ⟨he, -⟩ | ⟨j, he, h1, h2, hj, hc⟩
        · rw [he]; exact h
        · rw [he]; exact h.append hi hj h1 h2 (hq ps i j hs h1 h2 hi hj hc)
  exact this _ (fun i hi => by simpa using hi) ps0 (fun _ h => h) h

theorem used1_mono {ps qs : Pairs τ} (h : ∀ p ∈ ps, p ∈ qs) {i : Nat} (hu : used1 qs i = false) : used1 ps i = false := by
  rw [used1_false] at *
  intro hc
  apply hu
  simp only [List.mem_map] at *
  obtain ⟨p, hp, he⟩ := hc
  exact ⟨p, h p hp, he⟩

theorem used2_mono {ps qs : Pairs τ} (h : ∀ p ∈ ps, p ∈ qs) {i : Nat} (hu : used2 qs i = false) : used2 ps i = false := by
  rw [used2_false] at *
  intro hc
  apply hu
  simp only [List.mem_map] at *
  obtain ⟨p, hp, he⟩ := hc
  exact ⟨p, h p hp, he⟩

theorem foldl_phaseStep_subset (m : Nat) (cond : Pairs τ → Nat → Nat → Bool) (tag : Nat → Nat → τ) (l : List Nat) :
    ∀ ps : Pairs τ, ∀ p ∈ ps, p ∈ l.foldl (phaseStep m cond tag) ps := by
  induction l with
  | nil => intro ps p hp; exact hp
  | cons i l ih =>
    intro ps p hp
    simp only [List.foldl_cons]
    refine ih _ p ?_
    rcases phaseStep_cases m cond tag ps i with ⟨he, -⟩ | ⟨j, he, -⟩
    · rw [he]; exact hp
    · rw [he]; simp [hp]

/-- After a phase no two free positions satisfy its condition. -/
theorem phase_maximal (n m : Nat) (c : Nat → Nat → Bool) (tag : Nat → Nat → τ) (ps0 : Pairs τ) (i j : Nat) (hi : i < n)
    (hj : j < m) (h1 : used1 (phase n m (fun _ i j => c i j) tag ps0) i = false)
    (h2 : used2 (phase n m (fun _ i j => c i j) tag ps0) j = false) : c i j = false := by
  unfold phase at h1 h2
  have : ∀ (l : List Nat) (ps : Pairs τ), i ∈ l →
      used1 (l.foldl (phaseStep m (fun _ i j => c i j) tag) ps) i = false →
      used2 (l.foldl (phaseStep m (fun _ i j => c i j) tag) ps) j = false → c i j = false := by
    intro l
    induction l with
    | nil => intro ps h; simp at h
    | cons k l ih =>
      intro ps hm h1 h2
      simp only [List.foldl_cons] at h1 h2
      rcases List.mem_cons.mp hm with h | h
      · subst h
        have hs := foldl_phaseStep_subset m (fun _ i j => c i j) tag l (phaseStep m (fun _ i j => c i j) tag ps i)
        rcases phaseStep_cases m (fun _ i j => c i j) tag ps i with ⟨he, hc⟩ | ⟨j', he, hu, -⟩
        · rw [he] at hs
          rcases hc with hc | hc
          · have := used1_mono hs (by rw [he] at h1; exact h1)
            rw [hc] at this; simp at this
          · rcases hc j hj with hc | hc
            · have := used2_mono hs (by rw [he] at h2; exact h2)
              rw [hc] at this; simp at this
            · exact hc
        · have := used1_mono hs h1
          rw [he, used1_false] at this
          simp at this
      · exact ih _ h h1 h2
  exact this _ ps0 (by simpa using hi) h1 h2

theorem nodup_filter_range (n : Nat) (p : Nat → Bool) : ((List.range n).filter p).Nodup :=
  List.Nodup.sublist List.filter_sublist List.nodup_range

/-- A duplicate-free list of numbers below `n` and the numbers outside it make up the range. -/
theorem range_perm (n : Nat) (l : List Nat) (hl : l.Nodup) (hn : ∀ i ∈ l, i < n) (p : Nat → Bool)
    (hp : ∀ i, p i = true ↔ i ∉ l) : (List.range n).Perm (l ++ (List.range n).filter p) := by
  rw [List.perm_ext_iff_of_nodup List.nodup_range]
  · intro a
    simp only [List.mem_range, List.mem_append, List.mem_filter, hp]
    constructor
    · intro h
      by_cases ha : a ∈ l
      · exact Or.inl ha
      · exact Or.inr ⟨h, ha⟩
    · rintro (h | h)
      · exact hn a h
      · exact h.1
  · rw [List.nodup_append]
    refine ⟨hl, nodup_filter_range n p, ?_⟩
    intro a ha b hb
    rw [List.mem_filter, hp] at hb
    rintro rfl; exact hb.2 ha

theorem Good.perm1 {n m : Nat} {Q : Nat → Nat → τ → Prop} {ps : Pairs τ} (h : Good n m Q ps) :
    (List.range n).Perm (ps.map (·.1) ++ free1 n ps) := by
  refine range_perm n _ h.nd1 ?_ _ ?_
  · intro i hi
    simp only [List.mem_map] at hi
    obtain ⟨p, hp, rfl⟩ := hi
    exact h.lt1 p hp
  · intro i; rw [← used1_iff]; simp

theorem Good.perm2 {n m : Nat} {Q : Nat → Nat → τ → Prop} {ps : Pairs τ} (h : Good n m Q ps) :
    (List.range m).Perm (ps.map (·.2.1) ++ free2 m ps) := by
  refine range_perm m _ h.nd2 ?_ _ ?_
  · intro i hi
    simp only [List.mem_map] at hi
    obtain ⟨p, hp, rfl⟩ := hi
    exact h.lt2 p hp
  · intro i; rw [← used2_iff]; simp

/-- Matching free positions among themselves, through their lists. -/
theorem Good.appendFree {n m : Nat} {Q : Nat → Nat → τ → Prop} {ps : Pairs τ} (h : Good n m Q ps) (ms : List (Nat × Nat))
    (hinc : ms.Pairwise fun p q => p.1 < q.1 ∧ p.2 < q.2)
    (hb : ∀ p ∈ ms, p.1 < (free1 n ps).length ∧ p.2 < (free2 m ps).length) (tag : Nat → Nat → τ)
    (hq : ∀ p ∈ ms, Q ((free1 n ps).getD p.1 0) ((free2 m ps).getD p.2 0)
      (tag ((free1 n ps).getD p.1 0) ((free2 m ps).getD p.2 0))) :
    Good n m Q (ps ++ ms.map fun p => ((free1 n ps).getD p.1 0, (free2 m ps).getD p.2 0,
      tag ((free1 n ps).getD p.1 0) ((free2 m ps).getD p.2 0))) := by
  have hmem1 : ∀ p ∈ ms, (free1 n ps).getD p.1 0 ∈ free1 n ps := fun p hp => by
    rw [List.getD_eq_getElem?_getD, List.getElem?_eq_getElem (hb p hp).1]; simp
  have hmem2 : ∀ p ∈ ms, (free2 m ps).getD p.2 0 ∈ free2 m ps := fun p hp => by
    rw [List.getD_eq_getElem?_getD, List.getElem?_eq_getElem (hb p hp).2]; simp
  have hf1 : ∀ i ∈ free1 n ps, i < n ∧ i ∉ ps.map (·.1) := fun i hi => by
    simp only [free1, List.mem_filter, List.mem_range] at hi
    exact ⟨hi.1, (used1_false ps i).mp (by simpa using hi.2)⟩
  have hf2 : ∀ i ∈ free2 m ps, i < m ∧ i ∉ ps.map (·.2.1) := fun i hi => by
    simp only [free2, List.mem_filter, List.mem_range] at hi
    exact ⟨hi.1, (used2_false ps i).mp (by simpa using hi.2)⟩
  refine ⟨?_, ?_, ?_, ?_, ?_⟩
  · rw [List.map_append, List.nodup_append]
    refine ⟨h.nd1, ?_, ?_⟩
    · simp only [List.map_map, Function.comp_def]
      unfold List.Nodup
      rw [List.pairwise_map]
      refine List.Pairwise.imp_of_mem ?_ hinc
      intro p q hp hq hpq
      rw [List.getD_eq_getElem?_getD, List.getElem?_eq_getElem (hb p hp).1, List.getD_eq_getElem?_getD,
        List.getElem?_eq_getElem (hb q hq).1]
      simp only [Option.getD_some]
      intro he
      have := (List.getElem_inj (nodup_filter_range n _)).mp he
      omega
    · intro a ha b hb'
      simp only [List.map_map, Function.comp_def, List.mem_map] at hb'
      obtain ⟨p, hp, rfl⟩ := hb'
      rintro rfl
      exact (hf1 _ (hmem1 p hp)).2 ha
  · rw [List.map_append, List.nodup_append]
    refine ⟨h.nd2, ?_, ?_⟩
    · simp only [List.map_map, Function.comp_def]
      unfold List.Nodup
      rw [List.pairwise_map]
      refine List.Pairwise.imp_of_mem ?_ hinc
      intro p q hp hq hpq
      rw [List.getD_eq_getElem?_getD, List.getElem?_eq_getElem (hb p hp).2, List.getD_eq_getElem?_getD,
        List.getElem?_eq_getElem (hb q hq).2]
      simp only [Option.getD_some]
      intro he
      have := (List.getElem_inj (nodup_filter_range m _)).mp he
      omega
    · intro a ha b hb'
      simp only [List.map_map, Function.comp_def, List.mem_map] at hb'
      obtain ⟨p, hp, rfl⟩ := hb'
      rintro rfl
      exact (hf2 _ (hmem2 p hp)).2 ha
  all_goals
    intro p hp
    rw [List.mem_append] at hp
    rcases hp with hp | hp
    · first | exact h.lt1 p hp | exact h.lt2 p hp | exact h.ok p hp
    · rw [List.mem_map] at hp
      obtain ⟨q, hq', rfl⟩ := hp
      first | exact (hf1 _ (hmem1 q hq')).1 | exact (hf2 _ (hmem2 q hq')).1 | exact hq q hq'

theorem map_getD_range {α : Type} (t : List α) (d : α) : (List.range t.length).map (fun i => t.getD i d) = t := by
  apply List.ext_getElem
  · simp
  · intro i h1 h2; simp [List.getElem?_eq_getElem h2]

/-- Pairs and leftovers, in terms of the elements. -/
theorem Good.elems1 {α : Type} {t : List α} {d : α} {m : Nat} {Q : Nat → Nat → τ → Prop} {ps : Pairs τ}
    (h : Good t.length m Q ps) :
    t.Perm (ps.map (fun p => t.getD p.1 d) ++ (free1 t.length ps).map (fun i => t.getD i d)) := by
  have := h.perm1.map (fun i => t.getD i d)
  rw [map_getD_range] at this
  simpa [List.map_map, Function.comp_def] using this

theorem Good.elems2 {α : Type} {t : List α} {d : α} {n : Nat} {Q : Nat → Nat → τ → Prop} {ps : Pairs τ}
    (h : Good n t.length Q ps) :
    t.Perm (ps.map (fun p => t.getD p.2.1 d) ++ (free2 t.length ps).map (fun i => t.getD i d)) := by
  have := h.perm2.map (fun i => t.getD i d)
  rw [map_getD_range] at this
  simpa [List.map_map, Function.comp_def] using this

/-- A phase from nothing whose condition holds between equal positions pairs every position with itself. -/
theorem phase_diag (n : Nat) (cond : Pairs τ → Nat → Nat → Bool) (tag : Nat → Nat → τ)
    (h : ∀ ps i, i < n → cond ps i i = true) :
    phase n n cond tag [] = (List.range n).map fun i => (i, i, tag i i) := by
  have : ∀ k, k ≤ n → (List.range k).foldl (phaseStep n cond tag) [] = (List.range k).map fun i => (i, i, tag i i) := by
    intro k
    induction k with
    | zero => intro _; simp
    | succ k ih =>
      intro hk
      rw [List.range_succ, List.foldl_append, ih (by omega)]
      simp only [List.foldl_cons, List.foldl_nil, List.map_append, List.map_cons, List.map_nil]
      have hu1 : used1 ((List.range k).map fun i => (i, i, tag i i)) k = false := by
        rw [used1_false]; simp
      have hu2 : ∀ j, used2 ((List.range k).map fun i => (i, i, tag i i)) j = decide (j < k) := by
        intro j
        by_cases hj : j < k
        · simp only [hj, decide_true]; rw [used2_iff]; simpa using hj
        · simp only [hj, decide_false]; rw [used2_false]; simpa using hj
      unfold phaseStep
      rw [if_neg (by simp [hu1])]
      have hf : (List.range n).find? (fun i2 => !used2 ((List.range k).map fun i => (i, i, tag i i)) i2 &&
          cond ((List.range k).map fun i => (i, i, tag i i)) k i2) = some k := by
        rw [List.find?_range_eq_some]
        refine ⟨?_, by simp; omega, ?_⟩
        · simp [hu2, h _ k (by omega)]
        · intro j hj; simp [hu2, hj]
      rw [hf]
  exact this n (Nat.le_refl n)

/-- A phase does nothing when everything is matched. -/
theorem phase_full (n m : Nat) (cond : Pairs τ → Nat → Nat → Bool) (tag : Nat → Nat → τ) (ps : Pairs τ)
    (h : ∀ i, i < n → used1 ps i = true) : phase n m cond tag ps = ps := by
  have : ∀ l : List Nat, (∀ i ∈ l, i < n) → l.foldl (phaseStep m cond tag) ps = ps := by
    intro l
    induction l with
    | nil => intro _; rfl
    | cons i l ih =>
      intro hl
      simp only [List.foldl_cons]
      rw [show phaseStep m cond tag ps i = ps from by unfold phaseStep; rw [if_pos (h i (hl i (by simp)))]]
      exact ih (fun i hi => hl i (by simp [hi]))
  exact this _ (fun i hi => by simpa using hi)

end Pdfer.Compare
