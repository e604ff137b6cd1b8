import Verif.Proofs.CompareDoc

/-! Comparing in the other order: the loops that pair elements up find the same pairs from both sides. -/

namespace Pdfer.Compare

open Pdfer.Go

variable {τ : Type}

/-- Pairs seen from the other side. -/
def turn (ps : Pairs τ) : Pairs τ := ps.map fun p => (p.2.1, p.1, p.2.2)

/-- What a loop with a condition on the positions alone makes of the pairs it starts with. -/
structure Matched (n m : Nat) (c : Nat → Nat → Bool) (tag : Nat → Nat → τ) (base ps : Pairs τ) : Prop where
  kept : ∀ p ∈ base, p ∈ ps
  fresh : ∀ p ∈ ps, p ∈ base ∨ (p.1 < n ∧ p.2.1 < m ∧ c p.1 p.2.1 = true ∧ p.2.2 = tag p.1 p.2.1 ∧ used1 base p.1 = false ∧
    used2 base p.2.1 = false)
  stable : ∀ i j, i < n → j < m → used1 base i = false → used2 base j = false → c i j = true →
    ∃ p ∈ ps, (p.1 = i ∧ p.2.1 ≤ j) ∨ (p.2.1 = j ∧ p.1 ≤ i)

theorem phase_matched (n m : Nat) (c : Nat → Nat → Bool) (tag : Nat → Nat → τ) (base : Pairs τ) :
    Matched n m c tag base (phase n m (fun _ i j => c i j) tag base) := by
  have key : ∀ k, k ≤ n → Matched k m c tag base ((List.range k).foldl (phaseStep m (fun _ i j => c i j) tag) base) := by
    intro k
    induction k with
    | zero => intro _; exact ⟨fun p h => h, fun p h => Or.inl h, fun i j hi => absurd hi (Nat.not_lt_zero _)⟩
    | succ k ih =>
      intro hk
      have h := ih (by omega)
      rw [List.range_succ, List.foldl_append, List.foldl_cons, List.foldl_nil]
      generalize (List.range k).foldl (phaseStep m (fun _ i j => c i j) tag) base = R at h ⊢
      have old : ∀ i j, i < k → j < m → used1 base i = false → used2 base j = false → c i j = true → ∀ S : Pairs τ, (∀ p ∈ R, p ∈ S) →
          ∃ p ∈ S, (p.1 = i ∧ p.2.1 ≤ j) ∨ (p.2.1 = j ∧ p.1 ≤ i) := by
        intro i j hi hj h1 h2 h3 S hS
        obtain ⟨p, hp, hpp⟩ := h.stable i j hi hj h1 h2 h3
        exact ⟨p, hS p hp, hpp⟩
      have wide : ∀ p ∈ R, p ∈ base ∨ (p.1 < k + 1 ∧ p.2.1 < m ∧ c p.1 p.2.1 = true ∧ p.2.2 = tag p.1 p.2.1 ∧ used1 base p.1 = false ∧
          used2 base p.2.1 = false) := fun p hp => (h.fresh p hp).imp_right fun ⟨a, b⟩ => ⟨by omega, b⟩
      have fresh1 : used1 base k = false → used1 R k = false := by
        intro hb
        rw [used1_false] at hb ⊢
        intro hm
        obtain ⟨p, hp, rfl⟩ := List.mem_map.1 hm
        rcases h.fresh p hp with h1 | h1
        · exact hb (List.mem_map.2 ⟨p, h1, rfl⟩)
        · omega
      have taken : ∀ j, used2 base j = false → used2 R j = true → ∃ p ∈ R, p.2.1 = j ∧ p.1 ≤ k := by
        intro j hb hu
        rw [used2_iff] at hu
        obtain ⟨p, hp, rfl⟩ := List.mem_map.1 hu
        rcases h.fresh p hp with h1 | h1
        · rw [used2_false] at hb
          exact absurd (List.mem_map.2 ⟨p, h1, rfl⟩) hb
        · exact ⟨p, hp, rfl, by omega⟩
      unfold phaseStep
      by_cases hu : used1 R k = true
      · rw [if_pos hu]
        refine ⟨h.kept, wide, ?_⟩
        intro i j hi hj h1 h2 h3
        by_cases hik : i = k
        · subst hik
          rw [fresh1 h1] at hu
          cases hu
        · exact old i j (by omega) hj h1 h2 h3 R fun p hp => hp
      · rw [if_neg hu]
        cases hf : (List.range m).find? (fun j => !used2 R j && c k j) with
        | none =>
          refine ⟨h.kept, wide, ?_⟩
          intro i j hi hj h1 h2 h3
          by_cases hik : i = k
          · subst hik
            rw [List.find?_eq_none] at hf
            have := hf j (List.mem_range.2 hj)
            simp [h3] at this
            obtain ⟨p, hp, h4⟩ := taken j h2 this
            exact ⟨p, hp, Or.inr h4⟩
          · exact old i j (by omega) hj h1 h2 h3 R fun p hp => hp
        | some j0 =>
          have hs := List.find?_some hf
          simp only [Bool.and_eq_true, Bool.not_eq_true'] at hs
          have hj0 : j0 < m := List.mem_range.1 (List.mem_of_find?_eq_some hf)
          refine ⟨fun p hp => by simp [h.kept p hp], ?_, ?_⟩
          · intro p hp
            rcases List.mem_append.1 hp with hp | hp
            · exact wide p hp
            · rw [List.mem_singleton] at hp
              subst hp
              exact Or.inr ⟨by simp, hj0, hs.2, rfl, used1_mono h.kept (by simpa using hu), used2_mono h.kept hs.1⟩
          · intro i j hi hj h1 h2 h3
            by_cases hik : i = k
            · subst hik
              by_cases hle : j0 ≤ j
              · exact ⟨(i, j0, tag i j0), by simp, Or.inl ⟨rfl, hle⟩⟩
              · rw [List.find?_range_eq_some] at hf
                have := hf.2.2 j (by omega)
                simp [h3] at this
                obtain ⟨p, hp, h4⟩ := taken j h2 this
                exact ⟨p, by simp [hp], Or.inr h4⟩
            · exact old i j (by omega) hj h1 h2 h3 _ fun p hp => by simp [hp]
  exact key n (Nat.le_refl _)

theorem mem_turn {ps : Pairs τ} {p : Nat × Nat × τ} : p ∈ turn ps ↔ (p.2.1, p.1, p.2.2) ∈ ps := by
  unfold turn
  rw [List.mem_map]
  constructor
  · rintro ⟨q, hq, rfl⟩; exact hq
  · intro h; exact ⟨_, h, rfl⟩

theorem used1_turn (ps : Pairs τ) (i : Nat) : used1 (turn ps) i = used2 ps i := by
  unfold turn used1 used2; rw [List.any_map]; rfl

theorem used2_turn (ps : Pairs τ) (i : Nat) : used2 (turn ps) i = used1 ps i := by
  unfold turn used1 used2; rw [List.any_map]; rfl

theorem used1_perm {ps qs : Pairs τ} (h : ps.Perm qs) (i : Nat) : used1 ps i = used1 qs i := by
  rw [Bool.eq_iff_iff, used1_iff, used1_iff]; exact (h.map _).mem_iff

theorem used2_perm {ps qs : Pairs τ} (h : ps.Perm qs) (i : Nat) : used2 ps i = used2 qs i := by
  rw [Bool.eq_iff_iff, used2_iff, used2_iff]; exact (h.map _).mem_iff

theorem Matched.turned {n m : Nat} {c : Nat → Nat → Bool} {tag : Nat → Nat → τ} {base ps : Pairs τ} (h : Matched n m c tag base ps) :
    Matched m n (fun j i => c i j) (fun j i => tag i j) (turn base) (turn ps) := by
  refine ⟨fun p hp => mem_turn.2 (h.kept _ (mem_turn.1 hp)), fun p hp => ?_, fun i j hi hj h1 h2 h3 => ?_⟩
  · rcases h.fresh _ (mem_turn.1 hp) with h1 | ⟨a, b, c, d, e, f⟩
    · exact Or.inl (mem_turn.2 h1)
    · exact Or.inr ⟨b, a, c, d, by rw [used1_turn]; exact f, by rw [used2_turn]; exact e⟩
  · rw [used1_turn] at h1
    rw [used2_turn] at h2
    obtain ⟨p, hp, h4⟩ := h.stable j i hj hi h2 h1 h3
    refine ⟨(p.2.1, p.1, p.2.2), mem_turn.2 hp, ?_⟩
    rcases h4 with h4 | h4
    · exact Or.inr h4
    · exact Or.inl h4

theorem nodup_map_inj {α β : Type} {f : α → β} : ∀ {l : List α}, (l.map f).Nodup → ∀ p ∈ l, ∀ q ∈ l, f p = f q → p = q
  | [], _, p, hp, _, _, _ => by simp at hp
  | a :: l, h, p, hp, q, hq, hf => by
    rw [List.map_cons, List.nodup_cons] at h
    rcases List.mem_cons.1 hp with hp1 | hp1 <;> rcases List.mem_cons.1 hq with hq1 | hq1
    · rw [hp1, hq1]
    · rw [hp1] at hf
      exact absurd (List.mem_map.2 ⟨q, hq1, hf.symm⟩) h.1
    · rw [hq1] at hf
      exact absurd (List.mem_map.2 ⟨p, hp1, hf⟩) h.1
    · exact nodup_map_inj h.2 p hp1 q hq1 hf

theorem nodup_of_nodup_map {α β : Type} {f : α → β} {l : List α} (h : (l.map f).Nodup) : l.Nodup :=
  List.Pairwise.of_map f (fun _ _ hab he => hab (by rw [he])) h

/-- There is one such set of pairs. -/
theorem Matched.unique {n m : Nat} {c : Nat → Nat → Bool} {tag : Nat → Nat → τ} {base base' R S : Pairs τ} (hb : base.Perm base')
    (hR : Matched n m c tag base R) (hS : Matched n m c tag base' S) (gR1 : (R.map (·.1)).Nodup) (gR2 : (R.map (·.2.1)).Nodup)
    (gS1 : (S.map (·.1)).Nodup) (gS2 : (S.map (·.2.1)).Nodup) : R.Perm S := by
  have inj : ∀ {T : Pairs τ} {f : Nat × Nat × τ → Nat}, (T.map f).Nodup → ∀ p ∈ T, ∀ q ∈ T, f p = f q → p = q := by
    intro T f hT p hp q hq h
    exact nodup_map_inj hT p hp q hq h
  have hu1 := used1_perm hb
  have hu2 := used2_perm hb
  have key : ∀ k (p : Nat × Nat × τ), p.1 + p.2.1 = k → (p ∈ R ↔ p ∈ S) := by
    intro k
    induction k using Nat.strongRecOn with
    | ind k ih =>
      have one : ∀ {A B : Pairs τ} {a b : Pairs τ}, (∀ p, p ∈ a → p ∈ b) → (∀ i, used1 a i = used1 b i) → (∀ i, used2 a i = used2 b i) → Matched n m c tag a A → Matched n m c tag b B →
          (A.map (·.1)).Nodup → (A.map (·.2.1)).Nodup → (∀ p : Nat × Nat × τ, p.1 + p.2.1 < k → (p ∈ B → p ∈ A)) →
          ∀ p : Nat × Nat × τ, p.1 + p.2.1 = k → p ∈ A → p ∈ B := by
        intro A B a b hab h1 h2 hA hB g1 g2 hi p hp hpA
        rcases hA.fresh p hpA with hf | ⟨f1, f2, f3, f4, f5, f6⟩
        · exact hB.kept p (hab p hf)
        · rw [h1] at f5
          rw [h2] at f6
          obtain ⟨q, hq, hqq⟩ := hB.stable p.1 p.2.1 f1 f2 f5 f6 f3
          have same : q.1 = p.1 → q.2.1 = p.2.1 → p ∈ B := by
            intro e1 e2
            rcases hB.fresh q hq with hq' | ⟨_, _, _, e3, _, _⟩
            · rw [used1_false] at f5
              exact absurd (List.mem_map.2 ⟨q, hq', e1⟩) f5
            · have : q = p := by
                obtain ⟨q1, q2, q3⟩ := q
                obtain ⟨p1, p2, p3⟩ := p
                simp only at e1 e2 e3 f4
                rw [e1, e2] at e3
                rw [e1, e2, e3, f4]
              rw [← this]; exact hq
          rcases hqq with ⟨e1, e2⟩ | ⟨e1, e2⟩
          · by_cases he : q.2.1 = p.2.1
            · exact same e1 he
            · have := hi q (by omega) hq
              have := inj g1 q this p hpA e1
              exact absurd (by rw [this]) he
          · by_cases he : q.1 = p.1
            · exact same he e1
            · have := hi q (by omega) hq
              have := inj g2 q this p hpA e1
              exact absurd (by rw [this]) he
      intro p hp
      exact ⟨one (fun p hp => hb.mem_iff.1 hp) hu1 hu2 hR hS gR1 gR2 (fun q hq => (ih _ hq q rfl).2) p hp,
        one (fun p hp => hb.mem_iff.2 hp) (fun i => (hu1 i).symm) (fun i => (hu2 i).symm) hS hR gS1 gS2 (fun q hq => (ih _ hq q rfl).1) p hp⟩
  rw [List.perm_ext_iff_of_nodup (nodup_of_nodup_map gR1) (nodup_of_nodup_map gS1)]
  exact fun p => key _ p rfl

/-- A list of pairs that uses every position once. -/
def Once (ps : Pairs τ) : Prop := (ps.map (·.1)).Nodup ∧ (ps.map (·.2.1)).Nodup

theorem Once.turned {ps : Pairs τ} (h : Once ps) : Once (turn ps) := by
  unfold Once turn
  rw [List.map_map, List.map_map]
  exact ⟨h.2, h.1⟩

theorem phase_once (n m : Nat) (c : Nat → Nat → Bool) (tag : Nat → Nat → τ) {base : Pairs τ} (h : Once base) :
    Once (phase n m (fun _ i j => c i j) tag base) := by
  unfold phase
  generalize List.range n = l
  induction l generalizing base with
  | nil => exact h
  | cons k l ih =>
    rw [List.foldl_cons]
    refine ih ?_
    rcases phaseStep_cases m (fun _ i j => c i j) tag base k with ⟨h1, _⟩ | ⟨j, h1, h2, h3, _, _⟩
    · rw [h1]; exact h
    · rw [h1]
      rw [used1_false] at h2
      rw [used2_false] at h3
      refine ⟨?_, ?_⟩ <;> rw [List.map_append, List.nodup_append] <;> refine ⟨?_, by simp, ?_⟩
      · exact h.1
      · intro a ha b hb; simp at hb; subst hb; rintro rfl; exact h2 ha
      · exact h.2
      · intro a ha b hb; simp at hb; subst hb; rintro rfl; exact h3 ha

/-- The loop from the other side finds the same pairs. -/
theorem phase_turn (n m : Nat) (c : Nat → Nat → Bool) (tag : Nat → Nat → τ) (base base' : Pairs τ) (hb : base'.Perm (turn base)) (ho : Once base) :
    (phase m n (fun _ j i => c i j) (fun j i => tag i j) base').Perm (turn (phase n m (fun _ i j => c i j) tag base)) := by
  have ho' : Once base' := by
    have := ho.turned
    exact ⟨((hb.map _).nodup_iff).2 this.1, ((hb.map _).nodup_iff).2 this.2⟩
  have g1 := phase_once m n (fun j i => c i j) (fun j i => tag i j) ho'
  have g2 := (phase_once n m c tag ho).turned
  exact Matched.unique hb (phase_matched m n (fun j i => c i j) (fun j i => tag i j) base') (phase_matched n m c tag base).turned g1.1 g1.2 g2.1 g2.2

/-! ### Texts -/

theorem abs_sub_comm (x y : Rat) : abs (x - y) = abs (y - x) := by
  unfold abs; split <;> split <;> grind

theorem positionsMatch_comm (x1 y1 x2 y2 tol : Rat) : positionsMatch x1 y1 x2 y2 tol = positionsMatch x2 y2 x1 y1 tol := by
  unfold positionsMatch; rw [abs_sub_comm x1, abs_sub_comm y1]

theorem beq_symm {α : Type} [BEq α] [LawfulBEq α] (x y : α) : (x == y) = (y == x) := by
  rw [Bool.eq_iff_iff, beq_iff_eq, beq_iff_eq]; exact eq_comm

theorem bne_symm {α : Type} [BEq α] [LawfulBEq α] (x y : α) : (x != y) = (y != x) := by
  unfold bne; rw [beq_symm]

theorem textEqual_comm (o : Opts) (a b : Elem) : textEqual o a b = textEqual o b a := by
  unfold textEqual
  rw [beq_symm (normalize o a.text), beq_symm a.font, abs_sub_comm]

theorem free1_turn {ps qs : Pairs τ} (h : qs.Perm (turn ps)) (m : Nat) : free1 m qs = free2 m ps := by
  unfold free1 free2
  congr 1
  funext i
  rw [used1_perm h, used1_turn]

theorem free2_turn {ps qs : Pairs τ} (h : qs.Perm (turn ps)) (n : Nat) : free2 n qs = free1 n ps := by
  unfold free1 free2
  congr 1
  funext i
  rw [used2_perm h, used2_turn]

theorem once_nil : Once ([] : Pairs τ) := ⟨List.nodup_nil, List.nodup_nil⟩

theorem threePhases_once (o : Opts) (a b : List Elem) : Once (threePhases o a b) := by
  unfold threePhases
  simp only []
  split
  · exact phase_once _ _ _ _ (phase_once _ _ _ _ (phase_once _ _ _ _ once_nil))
  · exact phase_once _ _ _ _ (phase_once _ _ _ _ once_nil)

theorem threePhases_turn (o : Opts) (a b : List Elem) : (threePhases o b a).Perm (turn (threePhases o a b)) := by
  unfold threePhases
  simp only []
  have e1 : (fun (_ : Pairs Bool) i j => (el b i).text == (el a j).text && positionsMatch (el b i).x (el b i).y (el a j).x (el a j).y o.textTol &&
      ((el b i).font == (el a j).font && decide (abs ((el b i).size - (el a j).size) < 1 / 10))) =
      (fun (_ : Pairs Bool) j i => (el a i).text == (el b j).text && positionsMatch (el a i).x (el a i).y (el b j).x (el b j).y o.textTol &&
      ((el a i).font == (el b j).font && decide (abs ((el a i).size - (el b j).size) < 1 / 10))) := by
    funext _ j i
    rw [beq_symm (el b j).text, positionsMatch_comm (el b j).x, beq_symm (el b j).font, abs_sub_comm (el b j).size]
  have e2 : (fun (_ : Pairs Bool) i j => positionsMatch (el b i).x (el b i).y (el a j).x (el a j).y o.textTol && (el b i).text != (el a j).text) =
      (fun (_ : Pairs Bool) j i => positionsMatch (el a i).x (el a i).y (el b j).x (el b j).y o.textTol && (el a i).text != (el b j).text) := by
    funext _ j i
    rw [bne_symm (el b j).text, positionsMatch_comm (el b j).x]
  have e3 : (fun (_ : Pairs Bool) i j => textEqual o (el b i) (el a j) && positionsMatch (el b i).x (el b i).y (el a j).x (el a j).y (moveTolerance o)) =
      (fun (_ : Pairs Bool) j i => textEqual o (el a i) (el b j) && positionsMatch (el a i).x (el a i).y (el b j).x (el b j).y (moveTolerance o)) := by
    funext _ j i
    rw [textEqual_comm, positionsMatch_comm (el b j).x]
  rw [e1, e2, e3]
  have p1 := phase_turn a.length b.length (fun i j => (el a i).text == (el b j).text && positionsMatch (el a i).x (el a i).y (el b j).x (el b j).y o.textTol &&
      ((el a i).font == (el b j).font && decide (abs ((el a i).size - (el b j).size) < 1 / 10))) (fun _ _ => false) [] [] (List.Perm.refl _) once_nil
  have o1 := phase_once a.length b.length (fun i j => (el a i).text == (el b j).text && positionsMatch (el a i).x (el a i).y (el b j).x (el b j).y o.textTol &&
      ((el a i).font == (el b j).font && decide (abs ((el a i).size - (el b j).size) < 1 / 10))) (fun _ _ => false) once_nil
  have p2 := phase_turn a.length b.length (fun i j => positionsMatch (el a i).x (el a i).y (el b j).x (el b j).y o.textTol && (el a i).text != (el b j).text)
    (fun _ _ => true) _ _ p1 o1
  have o2 := phase_once a.length b.length (fun i j => positionsMatch (el a i).x (el a i).y (el b j).x (el b j).y o.textTol && (el a i).text != (el b j).text)
    (fun _ _ => true) o1
  split
  · exact phase_turn a.length b.length (fun i j => textEqual o (el a i) (el b j) && positionsMatch (el a i).x (el a i).y (el b j).x (el b j).y (moveTolerance o))
      (fun _ _ => true) _ _ p2 o2
  · exact p2

theorem modified_turn (a b : List Elem) {ps qs : Pairs Bool} (h : qs.Perm (turn ps)) :
    ((qs.filter (·.2.2)).map fun p => (el b p.1, el a p.2.1)).Perm (((ps.filter (·.2.2)).map fun p => (el a p.1, el b p.2.1)).map fun p => (p.2, p.1)) := by
  refine ((h.filter _).map _).trans ?_
  unfold turn
  rw [List.filter_map, List.map_map, List.map_map]
  exact List.Perm.refl _

/-- The diff from the other side, exactly. -/
def Exchanged (d d' : TextDiff) : Prop := d'.added = d.removed ∧ d'.removed = d.added ∧ d'.modified.Perm (d.modified.map fun p => (p.2, p.1))

theorem toDiff_turn (a b : List Elem) {ps qs : Pairs Bool} (h : qs.Perm (turn ps)) : Exchanged (toDiff a b ps) (toDiff b a qs) := by
  refine ⟨?_, ?_, modified_turn a b h⟩
  · unfold toDiff; simp only; rw [free2_turn h]
  · unfold toDiff; simp only; rw [free1_turn h]

theorem coarse_turn (o : Opts) (h : o.gran ≠ .element) (a b : List Elem) : Exchanged (granDiff o a b) (granDiff o b a) := by
  have near : ∀ i j, positionsMatch (el b j).x (el b j).y (el a i).x (el a i).y o.textTol = positionsMatch (el a i).x (el a i).y (el b j).x (el b j).y o.textTol :=
    fun i j => positionsMatch_comm _ _ _ _ _
  unfold granDiff
  cases hg : o.gran with
  | element => exact absurd hg h
  | word =>
    simp only
    unfold wordLevelDiff
    refine toDiff_turn a b ?_
    have := phase_turn a.length b.length (fun i j => positionsMatch (el a i).x (el a i).y (el b j).x (el b j).y o.textTol)
      (fun i j => splitWords (normalize o (el a i).text) != splitWords (normalize o (el b j).text)) [] [] (List.Perm.refl _) once_nil
    have e : (fun i j => splitWords (normalize o (el b i).text) != splitWords (normalize o (el a j).text)) =
        (fun j i => splitWords (normalize o (el a i).text) != splitWords (normalize o (el b j).text)) := by
      funext j i; exact bne_symm (splitWords (normalize o (el b j).text)) _
    rw [e]
    simp only [near] at this ⊢
    exact this
  | char =>
    simp only
    unfold charLevelDiff
    refine toDiff_turn a b ?_
    have := phase_turn a.length b.length (fun i j => positionsMatch (el a i).x (el a i).y (el b j).x (el b j).y o.textTol)
      (fun i j => normalize o (el a i).text != normalize o (el b j).text) [] [] (List.Perm.refl _) once_nil
    have e : (fun i j => normalize o (el b i).text != normalize o (el a j).text) = (fun j i => normalize o (el a i).text != normalize o (el b j).text) := by
      funext j i; exact bne_symm (normalize o (el b j).text) _
    rw [e]
    simp only [near] at this ⊢
    exact this

/-! ### What is left for the diff by elements -/

/-- What the first phases leave: where elements are near each other, text is the same and the font is another. -/
def Apart (o : Opts) (t1 t2 : List Elem) : Prop := ∀ x ∈ t1, ∀ y ∈ t2, Near o.textTol x y → x.text = y.text ∧ ¬ SameFont x y

theorem phase_none (n m : Nat) (cond : Pairs τ → Nat → Nat → Bool) (tag : Nat → Nat → τ) (ps : Pairs τ)
    (h : ∀ i j, i < n → j < m → cond ps i j = false) : phase n m cond tag ps = ps := by
  have : ∀ l : List Nat, (∀ i ∈ l, i < n) → l.foldl (phaseStep m cond tag) ps = ps := by
    intro l
    induction l with
    | nil => intro _; rfl
    | cons i l ih =>
      intro hl
      rw [List.foldl_cons]
      rcases phaseStep_cases m cond tag ps i with ⟨h1, _⟩ | ⟨j, _, _, _, hj, hc⟩
      · rw [h1]; exact ih fun k hk => hl k (by simp [hk])
      · rw [h i j (hl i (by simp)) hj] at hc; cases hc
  exact this _ fun i hi => List.mem_range.1 hi

theorem el_mem {t : List Elem} {i : Nat} (h : i < t.length) : el t i ∈ t := by
  unfold el; rw [List.getD_eq_getElem?_getD, List.getElem?_eq_getElem h]; exact List.getElem_mem h

theorem free1_nil (n : Nat) : free1 n ([] : Pairs τ) = List.range n := by
  unfold free1; rw [List.filter_eq_self]; intro i _; rfl

theorem free2_nil (n : Nat) : free2 n ([] : Pairs τ) = List.range n := by
  unfold free2; rw [List.filter_eq_self]; intro i _; rfl

theorem map_el_range (t : List Elem) : (List.range t.length).map (el t) = t := map_getD_range t default

theorem myers_apart (o : Opts) (t1 t2 : List Elem) (h : Apart o t1 t2) :
    myersDiff o t1 t2 = toDiff t1 t2 ((lcsMatches (textEqual o) t1 t2).map fun p => (p.1, p.2, true)) := by
  have hne : ∀ i j, i < t1.length → j < t2.length → elementsEqual o (el t1 i) (el t2 j) = false := by
    intro i j hi hj
    rw [← Bool.not_eq_true, elementsEqual_iff]
    rintro ⟨_, h1, h2⟩
    exact (h _ (el_mem hi) _ (el_mem hj) h1).2 h2
  unfold myersDiff
  simp only []
  rw [phase_none _ _ (fun _ i j => elementsEqual o (el t1 i) (el t2 j)) _ _ hne, phase_none]
  · rw [free1_nil, free2_nil, map_el_range, map_el_range, List.nil_append]
    congr 1
    refine List.map_congr_left fun p hp => ?_
    obtain ⟨a, b, ha, hb, _⟩ := (lcs_matching (textEqual o) t1 t2).paired p hp
    have h1 := (List.getElem?_eq_some_iff.mp ha).1
    have h2 := (List.getElem?_eq_some_iff.mp hb).1
    have e1 : (List.range t1.length).getD p.1 0 = p.1 := by rw [List.getD_eq_getElem?_getD, List.getElem?_range h1]; rfl
    have e2 : (List.range t2.length).getD p.2 0 = p.2 := by rw [List.getD_eq_getElem?_getD, List.getElem?_range h2]; rfl
    rw [e1, e2, hne _ _ h1 h2]
    rfl
  · intro i j hi hj
    by_cases hn : Near o.textTol (el t1 i) (el t2 j)
    · rw [(h _ (el_mem hi) _ (el_mem hj) hn).1]
      simp
    · rw [← Bool.not_eq_true, Bool.and_eq_true, Bool.and_eq_true, positionsMatch_iff]
      exact fun hc => hn hc.1.1

theorem lcs_comm (o : Opts) (t1 t2 : List Elem) : (lcsMatches (textEqual o) t2 t1).length = (lcsMatches (textEqual o) t1 t2).length := by
  have one : ∀ t1 t2 : List Elem, (lcsMatches (textEqual o) t2 t1).length ≤ (lcsMatches (textEqual o) t1 t2).length := by
    intro t1 t2
    have h := lcs_matching (textEqual o) t2 t1
    have := lcs_longest (textEqual o) t1 t2 ((lcsMatches (textEqual o) t2 t1).map fun p => (p.2, p.1)) ⟨?_, ?_⟩
    · simpa using this
    · rw [List.pairwise_map]
      exact h.increasing.imp fun hpq => ⟨hpq.2, hpq.1⟩
    · intro p hp
      obtain ⟨q, hq, rfl⟩ := List.mem_map.1 hp
      obtain ⟨a, b, ha, hb, hab⟩ := h.paired q hq
      exact ⟨b, a, hb, ha, by rw [textEqual_comm]; exact hab⟩
  exact Nat.le_antisymm (one t1 t2) (one t2 t1)

theorem myers_counts (o : Opts) (t1 t2 : List Elem) (h : Apart o t1 t2) :
    (myersDiff o t1 t2).modified.length = (lcsMatches (textEqual o) t1 t2).length ∧
    t1.length = (lcsMatches (textEqual o) t1 t2).length + (myersDiff o t1 t2).removed.length ∧
    t2.length = (lcsMatches (textEqual o) t1 t2).length + (myersDiff o t1 t2).added.length ∧
    ∀ p ∈ (myersDiff o t1 t2).modified, view o p.1.text = view o p.2.text := by
  have hm : (myersDiff o t1 t2).modified.length = (lcsMatches (textEqual o) t1 t2).length := by
    rw [myers_apart o t1 t2 h]
    unfold toDiff
    simp [List.filter_map]
  obtain ⟨kept, h1, h2, h3, h4⟩ := myersDiff_accounts o t1 t2
  have hk : kept = [] := by
    cases kept with
    | nil => rfl
    | cons p kept =>
      have hp := h1 p (by simp)
      have ha : p.1 ∈ t1 := h3.mem_iff.2 (by simp)
      have hb : p.2 ∈ t2 := h4.mem_iff.2 (by simp)
      exact absurd hp.2.2 (h _ ha _ hb hp.1).2
  subst hk
  refine ⟨hm, ?_, ?_, ?_⟩
  · have := h3.length_eq; simp at this; omega
  · have := h4.length_eq; simp at this; omega
  · rw [myers_apart o t1 t2 h]
    intro p hp
    unfold toDiff at hp
    simp only [List.filter_map, List.map_map, List.mem_map, List.mem_filter] at hp
    obtain ⟨q, ⟨hq, _⟩, rfl⟩ := hp
    obtain ⟨a, b, ha, hb, hab⟩ := (lcs_matching (textEqual o) t1 t2).paired q hq
    rw [textEqual_iff] at hab
    simp only [Function.comp, el, List.getD_eq_getElem?_getD, ha, hb, Option.getD_some]
    exact hab.1

theorem apart_left (o : Opts) (a b : List Elem) :
    Apart o ((free1 a.length (threePhases o a b)).map (el a)) ((free2 b.length (threePhases o a b)).map (el b)) := by
  intro x hx y hy hn
  obtain ⟨i, hi, rfl⟩ := List.mem_map.1 hx
  obtain ⟨j, hj, rfl⟩ := List.mem_map.1 hy
  simp only [free1, free2, List.mem_filter, List.mem_range, Bool.not_eq_true'] at hi hj
  obtain ⟨hi, h1⟩ := hi
  obtain ⟨hj, h2⟩ := hj
  have hpos := (positionsMatch_iff (el a i) (el b j) o.textTol).2 hn
  unfold threePhases at h1 h2
  simp only [] at h1 h2
  generalize hP : phase a.length b.length (fun (_ : Pairs Bool) i j => (el a i).text == (el b j).text && positionsMatch (el a i).x (el a i).y (el b j).x (el b j).y o.textTol &&
      ((el a i).font == (el b j).font && decide (abs ((el a i).size - (el b j).size) < 1 / 10))) (fun _ _ => false) [] = P at h1 h2
  generalize hQ : phase a.length b.length (fun (_ : Pairs Bool) i j => positionsMatch (el a i).x (el a i).y (el b j).x (el b j).y o.textTol && (el a i).text != (el b j).text)
      (fun _ _ => true) P = Q at h1 h2
  have hQ1 : used1 Q i = false ∧ used2 Q j = false := by
    split at h1
    · rename_i hd
      rw [if_pos hd] at h2
      have sub : ∀ p ∈ Q, p ∈ phase a.length b.length (fun (_ : Pairs Bool) i j => textEqual o (el a i) (el b j) &&
          positionsMatch (el a i).x (el a i).y (el b j).x (el b j).y (moveTolerance o)) (fun _ _ => true) Q :=
        foldl_phaseStep_subset _ _ _ _ Q
      exact ⟨used1_mono sub h1, used2_mono sub h2⟩
    · rename_i hd
      rw [if_neg hd] at h2
      exact ⟨h1, h2⟩
  have subP : ∀ p ∈ P, p ∈ Q := by rw [← hQ]; exact foldl_phaseStep_subset _ _ _ _ P
  have hc2 := phase_maximal a.length b.length (fun i j => positionsMatch (el a i).x (el a i).y (el b j).x (el b j).y o.textTol && (el a i).text != (el b j).text)
      (fun _ _ => true) P i j hi hj (by rw [hQ]; exact hQ1.1) (by rw [hQ]; exact hQ1.2)
  have hc1 := phase_maximal a.length b.length (fun i j => (el a i).text == (el b j).text && positionsMatch (el a i).x (el a i).y (el b j).x (el b j).y o.textTol &&
      ((el a i).font == (el b j).font && decide (abs ((el a i).size - (el b j).size) < 1 / 10))) (fun _ _ => false) [] i j hi hj
      (by rw [hP]; exact used1_mono subP hQ1.1) (by rw [hP]; exact used2_mono subP hQ1.2)
  simp only [hpos, Bool.true_and, bne_eq_false_iff_eq] at hc2
  refine ⟨hc2, fun hs => ?_⟩
  unfold SameFont at hs
  rw [← size_iff] at hs
  simp [hpos, hc2, hs.1, hs.2] at hc1

/-! ### The whole diff -/

theorem changeRatio_comm (a b : Bytes) : changeRatio a b = changeRatio b a := by
  have hz : ∀ a b : Bytes, ((a.zip b).filter fun p => p.1 != p.2).length = ((b.zip a).filter fun p => p.1 != p.2).length := by
    intro a
    induction a with
    | nil => intro b; simp
    | cons x a ih =>
      intro b
      cases b with
      | nil => simp
      | cons y b =>
        simp only [List.zip_cons_cons, List.filter_cons, bne_symm x y]
        split <;> simp [ih b]
  unfold changeRatio
  rw [Nat.max_comm b.length, Nat.min_comm b.length, hz a b]
  split <;> split
  · rfl
  · grind
  · grind
  · rfl

/-- A modification that is reported under the sensitivity of the options. -/
def reported (o : Opts) (m : Elem × Elem) : Bool := !(decide (o.sens = .relaxed) && decide (changeRatio (view o m.1.text) (view o m.2.text) ≤ 1 / 10))

theorem reported_comm (o : Opts) (m : Elem × Elem) : reported o (m.2, m.1) = reported o m := by
  unfold reported; rw [changeRatio_comm]

theorem filter_swap (o : Opts) {l l' : List (Elem × Elem)} (h : l'.Perm (l.map fun p => (p.2, p.1))) :
    (l'.filter (reported o)).Perm ((l.filter (reported o)).map fun p => (p.2, p.1)) := by
  refine (h.filter _).trans ?_
  rw [List.filter_map, show (reported o ∘ fun p : Elem × Elem => (p.2, p.1)) = reported o from funext fun m => reported_comm o m]

/-- The diff from the other side, in numbers. -/
def SameNumbers (o : Opts) (d d' : TextDiff) : Prop :=
  d'.added.length = d.removed.length ∧ d'.removed.length = d.added.length ∧
    (d'.modified.filter (reported o)).length = (d.modified.filter (reported o)).length

theorem Exchanged.numbers {d d' : TextDiff} (o : Opts) (h : Exchanged d d') : SameNumbers o d d' :=
  ⟨by rw [h.1], by rw [h.2.1], by have := (filter_swap o h.2.2).length_eq; simpa using this⟩

theorem gran_numbers (o : Opts) (t1 t2 : List Elem) (h : Apart o t1 t2) (h' : Apart o t2 t1) : SameNumbers o (granDiff o t1 t2) (granDiff o t2 t1) := by
  by_cases hg : o.gran = .element
  · unfold granDiff
    rw [hg]
    simp only []
    obtain ⟨a1, a2, a3, a4⟩ := myers_counts o t1 t2 h
    obtain ⟨b1, b2, b3, b4⟩ := myers_counts o t2 t1 h'
    have hl := lcs_comm o t1 t2
    refine ⟨by omega, by omega, ?_⟩
    by_cases hr : o.sens = .relaxed
    · have none : ∀ l : List (Elem × Elem), (∀ p ∈ l, view o p.1.text = view o p.2.text) → l.filter (reported o) = [] := by
        intro l hl
        rw [List.filter_eq_nil_iff]
        intro p hp
        have hz : changeRatio (view o p.2.text) (view o p.2.text) = 0 := by
          unfold changeRatio
          split
          · rfl
          · have : ((view o p.2.text).zip (view o p.2.text)).filter (fun p => p.1 != p.2) = [] := by
              have := (zip_diff_zero (view o p.2.text) (view o p.2.text) rfl).2 rfl
              exact List.eq_nil_of_length_eq_zero this
            rw [this]
            simp
            grind
        unfold reported
        rw [hl p hp, hz]
        simp [hr]
        grind
      rw [none _ a4, none _ b4]
    · have all : ∀ l : List (Elem × Elem), l.filter (reported o) = l := by
        intro l
        rw [List.filter_eq_self]
        intro p _
        unfold reported
        simp [hr]
      rw [all, all]
      omega
  · exact (coarse_turn o hg t1 t2).numbers o

theorem textDiff_parts (o : Opts) (a b : List Elem) :
    let P := threePhases o a b
    let d := granDiff o ((free1 a.length P).map (el a)) ((free2 b.length P).map (el b))
    (textDiff o a b).added = d.added ∧ (textDiff o a b).removed = d.removed ∧
      (textDiff o a b).modified = (((P.filter (·.2.2)).map fun p => (el a p.1, el b p.2.1)) ++ d.modified).filter (reported o) := by
  intro P d
  have hd : (if ((free1 a.length P).map (el a)).length > 0 ∨ ((free2 b.length P).map (el b)).length > 0 then d else ⟨[], [], []⟩) = d := by
    split
    · rfl
    · rename_i hn
      have h1 : (free1 a.length P).map (el a) = [] := List.eq_nil_of_length_eq_zero (by omega)
      have h2 : (free2 b.length P).map (el b) = [] := List.eq_nil_of_length_eq_zero (by omega)
      show _ = granDiff o _ _
      rw [h1, h2]
      unfold granDiff
      cases o.gran <;> rfl
  unfold textDiff
  simp only []
  obtain ⟨h1, h2, h3⟩ := sensitivity_eq o ⟨(if ((free1 a.length P).map (el a)).length > 0 ∨ ((free2 b.length P).map (el b)).length > 0 then d else ⟨[], [], []⟩).added,
    (if ((free1 a.length P).map (el a)).length > 0 ∨ ((free2 b.length P).map (el b)).length > 0 then d else ⟨[], [], []⟩).removed,
    ((P.filter (·.2.2)).map fun p => (el a p.1, el b p.2.1)) ++
      (if ((free1 a.length P).map (el a)).length > 0 ∨ ((free2 b.length P).map (el b)).length > 0 then d else ⟨[], [], []⟩).modified⟩
  rw [hd] at h1 h2 h3
  refine ⟨?_, ?_, ?_⟩
  · refine Eq.trans ?_ h1; rw [← hd]
  · refine Eq.trans ?_ h2; rw [← hd]
  · refine Eq.trans ?_ h3; rw [← hd]

theorem textDiff_numbers (o : Opts) (a b : List Elem) :
    (textDiff o b a).added.length = (textDiff o a b).removed.length ∧ (textDiff o b a).removed.length = (textDiff o a b).added.length ∧
      (textDiff o b a).modified.length = (textDiff o a b).modified.length := by
  have hP := threePhases_turn o a b
  obtain ⟨a1, a2, a3⟩ := textDiff_parts o a b
  obtain ⟨b1, b2, b3⟩ := textDiff_parts o b a
  have ha := apart_left o a b
  have hb := apart_left o b a
  rw [free1_turn hP, free2_turn hP] at b1 b2 b3 hb
  have hm := filter_swap o (modified_turn a b hP)
  have hn := gran_numbers o _ _ ha hb
  rw [a1, a2, a3, b1, b2, b3, List.filter_append, List.filter_append, List.length_append, List.length_append]
  refine ⟨hn.1, hn.2.1, ?_⟩
  have := hm.length_eq
  rw [List.length_map] at this
  rw [this, hn.2.2]

theorem textDiff_exchanged (o : Opts) (h : o.gran ≠ .element) (a b : List Elem) : Exchanged (textDiff o a b) (textDiff o b a) := by
  have hP := threePhases_turn o a b
  obtain ⟨a1, a2, a3⟩ := textDiff_parts o a b
  obtain ⟨b1, b2, b3⟩ := textDiff_parts o b a
  rw [free1_turn hP, free2_turn hP] at b1 b2 b3
  have hc := coarse_turn o h ((free1 a.length (threePhases o a b)).map (el a)) ((free2 b.length (threePhases o a b)).map (el b))
  refine ⟨by rw [a2, b1]; exact hc.1, by rw [a1, b2]; exact hc.2.1, ?_⟩
  rw [a3, b3]
  refine filter_swap o ?_
  rw [List.map_append]
  exact (modified_turn a b hP).append hc.2.2

/-! ### Images -/

/-- The pairs of images that `compareImages` finds. -/
def imagePairs (data1 data2 : Bytes → Option Img) (t1 t2 : List ImgRef) : Pairs ImgTag :=
  phase t1.length t2.length (fun _ i j => imgSame (data1 (t1.getD i default).id) (data2 (t2.getD j default).id)) (fun _ _ => ImgTag.moved)
    (phase t1.length t2.length (fun _ i j => (t1.getD i default).id == (t2.getD j default).id &&
      positionsMatch (t1.getD i default).x (t1.getD i default).y (t2.getD j default).x (t2.getD j default).y 1)
      (fun i j => imgTag (data1 (t1.getD i default).id) (data2 (t2.getD j default).id)) [])

/-- What is reported for such pairs. -/
def imageDiff (t1 t2 : List ImgRef) (ps : Pairs ImgTag) : ImageDiff :=
  ⟨(free2 t2.length ps).map fun i => t2.getD i default, (free1 t1.length ps).map fun i => t1.getD i default,
    (ps.filter (·.2.2 = .modified)).map fun p => (t1.getD p.1 default, t2.getD p.2.1 default),
    (ps.filter (·.2.2 = .moved)).map fun p => (t1.getD p.1 default, t2.getD p.2.1 default)⟩

theorem compareImages_diff (data1 data2 : Bytes → Option Img) (a b : List ImgRef) :
    (compareImages data1 data2 a b).getD ⟨[], [], [], []⟩ = imageDiff a b (imagePairs data1 data2 a b) ∧
    (compareImages data1 data2 a b = none ↔ (imageDiff a b (imagePairs data1 data2 a b)).added = [] ∧
      (imageDiff a b (imagePairs data1 data2 a b)).removed = [] ∧ (imageDiff a b (imagePairs data1 data2 a b)).modified = [] ∧
      (imageDiff a b (imagePairs data1 data2 a b)).moved = []) := by
  have e : compareImages data1 data2 a b = (if (imageDiff a b (imagePairs data1 data2 a b)).added = [] ∧
      (imageDiff a b (imagePairs data1 data2 a b)).removed = [] ∧ (imageDiff a b (imagePairs data1 data2 a b)).modified = [] ∧
      (imageDiff a b (imagePairs data1 data2 a b)).moved = [] then none else some (imageDiff a b (imagePairs data1 data2 a b))) := rfl
  rw [e]
  generalize imageDiff a b (imagePairs data1 data2 a b) = d
  split
  · rename_i h
    refine ⟨?_, by simp [h]⟩
    obtain ⟨h1, h2, h3, h4⟩ := h
    cases d
    simp only at h1 h2 h3 h4
    rw [h1, h2, h3, h4]
    rfl
  · rename_i h
    exact ⟨rfl, by simp [h]⟩

theorem imgEq_comm (x y : Img) : imagesEqual x y = imagesEqual y x := by
  rw [Bool.eq_iff_iff, imagesEqual_iff, imagesEqual_iff]; exact eq_comm

theorem imgTag_comm (x y : Option Img) : imgTag x y = imgTag y x := by
  cases x <;> cases y <;> simp only [imgTag]
  rw [imgEq_comm]

theorem imgSame_comm (x y : Option Img) : imgSame x y = imgSame y x := by
  cases x <;> cases y <;> simp only [imgSame]
  rw [imgEq_comm]
  rw [Bool.and_comm (decide _) (decide _)]

theorem imagePairs_turn (data1 data2 : Bytes → Option Img) (a b : List ImgRef) : (imagePairs data2 data1 b a).Perm (turn (imagePairs data1 data2 a b)) := by
  unfold imagePairs
  have e1 : (fun (_ : Pairs ImgTag) i j => (b.getD i default).id == (a.getD j default).id &&
      positionsMatch (b.getD i default).x (b.getD i default).y (a.getD j default).x (a.getD j default).y 1) =
      (fun (_ : Pairs ImgTag) j i => (a.getD i default).id == (b.getD j default).id &&
      positionsMatch (a.getD i default).x (a.getD i default).y (b.getD j default).x (b.getD j default).y 1) := by
    funext _ j i
    rw [beq_symm (b.getD j default).id, positionsMatch_comm (b.getD j default).x]
  have e2 : (fun i j => imgTag (data2 (b.getD i default).id) (data1 (a.getD j default).id)) =
      (fun j i => imgTag (data1 (a.getD i default).id) (data2 (b.getD j default).id)) := by
    funext j i; exact imgTag_comm _ _
  have e3 : (fun (_ : Pairs ImgTag) i j => imgSame (data2 (b.getD i default).id) (data1 (a.getD j default).id)) =
      (fun (_ : Pairs ImgTag) j i => imgSame (data1 (a.getD i default).id) (data2 (b.getD j default).id)) := by
    funext _ j i; exact imgSame_comm _ _
  rw [e1, e2, e3]
  exact phase_turn a.length b.length _ (fun _ _ => ImgTag.moved) _ _ (phase_turn a.length b.length
    (fun i j => (a.getD i default).id == (b.getD j default).id &&
      positionsMatch (a.getD i default).x (a.getD i default).y (b.getD j default).x (b.getD j default).y 1)
    (fun i j => imgTag (data1 (a.getD i default).id) (data2 (b.getD j default).id)) _ _ (List.Perm.refl _) once_nil)
    (phase_once a.length b.length (fun i j => (a.getD i default).id == (b.getD j default).id &&
      positionsMatch (a.getD i default).x (a.getD i default).y (b.getD j default).x (b.getD j default).y 1)
      (fun i j => imgTag (data1 (a.getD i default).id) (data2 (b.getD j default).id)) once_nil)

/-- Image differences from the other side. -/
def ImagesExchanged (d d' : ImageDiff) : Prop := d'.added = d.removed ∧ d'.removed = d.added ∧
  d'.modified.Perm (d.modified.map fun p => (p.2, p.1)) ∧ d'.moved.Perm (d.moved.map fun p => (p.2, p.1))

theorem imageDiff_turn (a b : List ImgRef) {ps qs : Pairs ImgTag} (h : qs.Perm (turn ps)) : ImagesExchanged (imageDiff a b ps) (imageDiff b a qs) := by
  have tags : ∀ t : ImgTag, ((qs.filter (·.2.2 = t)).map fun p => (b.getD p.1 default, a.getD p.2.1 default)).Perm
      (((ps.filter (·.2.2 = t)).map fun p => (a.getD p.1 default, b.getD p.2.1 default)).map fun p => (p.2, p.1)) := by
    intro t
    refine ((h.filter _).map _).trans ?_
    unfold turn
    rw [List.filter_map, List.map_map, List.map_map]
    exact List.Perm.refl _
  refine ⟨?_, ?_, tags _, tags _⟩
  · unfold imageDiff; simp only; rw [free2_turn h]
  · unfold imageDiff; simp only; rw [free1_turn h]

end Pdfer.Compare
