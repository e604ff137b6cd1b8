import Verif.Spec.Compare

/-! The dynamic-programming table computes the length of a longest common subsequence, and the way back finds one. -/

namespace Pdfer.Compare

variable {α : Type} (eq : α → α → Bool)

/-- The recurrence, on reversed prefixes. -/
def dpL : List α → List α → Nat
  | [], _ => 0
  | _, [] => 0
  | a :: as, b :: bs => if eq a b then dpL as bs + 1 else max (dpL as (b :: bs)) (dpL (a :: as) bs)
termination_by as bs => as.length + bs.length

/-- A row of the table from a position on. -/
def rowFrom (as : List α) : List α → List α → List Nat
  | rb, [] => [dpL eq as rb]
  | rb, b :: bs => dpL eq as rb :: rowFrom as (b :: rb) bs

theorem dpL_nil_right (as : List α) : dpL eq as [] = 0 := by cases as <;> simp [dpL]

theorem lcsRow_spec (a : α) (as : List α) (bs : List α) : ∀ rb : List α,
    dpL eq (a :: as) rb :: lcsRow eq a (rowFrom eq as rb bs) (dpL eq (a :: as) rb) bs = rowFrom eq (a :: as) rb bs := by
  induction bs with
  | nil => intro rb; simp [rowFrom, lcsRow]
  | cons b bs ih =>
    intro rb
    have hc : (if eq a b = true then dpL eq as rb + 1
        else if dpL eq as (b :: rb) > dpL eq (a :: as) rb then dpL eq as (b :: rb) else dpL eq (a :: as) rb)
        = dpL eq (a :: as) (b :: rb) := by
      rw [dpL]
      split
      · rfl
      · split <;> omega
    have hup : ∃ r, rowFrom eq as (b :: rb) bs = dpL eq as (b :: rb) :: r := by
      cases bs <;> simp [rowFrom]
    obtain ⟨r, hr⟩ := hup
    simp only [rowFrom, hr, lcsRow, hc]
    rw [← hr, ih]

theorem rowFrom_zero (t2 : List α) : ∀ rb, rowFrom eq ([] : List α) rb t2 = List.replicate (t2.length + 1) 0 := by
  induction t2 with
  | nil => intro rb; simp [rowFrom, dpL]
  | cons b bs ih => intro rb; simp [rowFrom, dpL, ih, List.replicate_succ]

theorem rowFrom_get (as bs : List α) : ∀ (rb : List α) (j : Nat), j ≤ bs.length →
    (rowFrom eq as rb bs).getD j 0 = dpL eq as ((bs.take j).reverse ++ rb) := by
  induction bs with
  | nil => intro rb j hj; simp at hj; subst hj; simp [rowFrom]
  | cons b bs ih =>
    intro rb j hj
    cases j with
    | zero => simp [rowFrom]
    | succ j => simp only [rowFrom, List.getD_cons_succ]; rw [ih]; simp; simpa using hj

theorem lcsTable_fold (t1 t2 : List α) : ∀ (rows : List (List Nat)) (as : List α), rows ≠ [] →
    rows.getLastD [] = rowFrom eq as [] t2 →
    let r := t1.foldl (fun rows a => rows ++ [0 :: lcsRow eq a (rows.getLastD []) 0 t2]) rows
    (∀ i, i < rows.length → r.getD i [] = rows.getD i []) ∧
    (∀ i, i ≤ t1.length → r.getD (rows.length - 1 + i) [] = rowFrom eq ((t1.take i).reverse ++ as) [] t2) := by
  induction t1 with
  | nil =>
    intro rows as hne hl
    refine ⟨fun _ _ => rfl, fun i hi => ?_⟩
    simp at hi; subst hi
    simp only [List.foldl_nil, Nat.add_zero, List.take_nil, List.reverse_nil, List.nil_append]
    rw [← hl]
    rcases List.eq_nil_or_concat rows with h | ⟨l, b, h⟩
    · exact absurd h hne
    · subst h; simp
  | cons a t1 ih =>
    intro rows as hne hl
    have hlen : 0 < rows.length := List.length_pos_iff.mpr hne
    have hrow : 0 :: lcsRow eq a (rows.getLastD []) 0 t2 = rowFrom eq (a :: as) [] t2 := by
      have := lcsRow_spec eq a as t2 []
      rw [dpL_nil_right] at this
      rw [hl, this]
    obtain ⟨h1, h2⟩ := ih (rows ++ [0 :: lcsRow eq a (rows.getLastD []) 0 t2]) (a :: as) (by simp)
      (by rw [List.getLastD_concat]; exact hrow)
    refine ⟨fun i hi => ?_, fun i hi => ?_⟩
    · simp only [List.foldl_cons]
      rw [h1 i (by simp; omega)]
      simp [List.getD_eq_getElem?_getD, List.getElem?_append_left hi]
    · simp only [List.foldl_cons]
      cases i with
      | zero =>
        simp only [Nat.add_zero, List.take_zero, List.reverse_nil, List.nil_append]
        rw [h1 _ (by simp; omega), ← hl]
        rcases List.eq_nil_or_concat rows with h | ⟨l, b, h⟩
        · exact absurd h hne
        · subst h; simp
      | succ i =>
        have := h2 i (by simpa using hi)
        simp only [List.length_append, List.length_cons, List.length_nil] at this
        rw [show rows.length - 1 + (i + 1) = rows.length + (0 + 1) - 1 + i by omega, this]
        simp

theorem cell_spec (t1 t2 : List α) (i j : Nat) (hi : i ≤ t1.length) (hj : j ≤ t2.length) :
    cell (lcsTable eq t1 t2) i j = dpL eq (t1.take i).reverse (t2.take j).reverse := by
  have h := (lcsTable_fold eq t1 t2 [List.replicate (t2.length + 1) 0] [] (by simp) (by simp [rowFrom_zero])).2 i hi
  simp only [List.length_cons, List.length_nil] at h
  rw [show 0 + 1 - 1 + i = i by omega] at h
  unfold cell lcsTable
  rw [h]
  have := rowFrom_get eq (t1.take i).reverse t2 [] j hj
  simpa using this

theorem dpL_step (t1 t2 : List α) (i j : Nat) (a b : α) (ha : t1[i]? = some a) (hb : t2[j]? = some b) :
    dpL eq (t1.take (i + 1)).reverse (t2.take (j + 1)).reverse =
      if eq a b then dpL eq (t1.take i).reverse (t2.take j).reverse + 1
      else max (dpL eq (t1.take i).reverse (t2.take (j + 1)).reverse)
        (dpL eq (t1.take (i + 1)).reverse (t2.take j).reverse) := by
  rw [List.take_add_one, List.take_add_one, ha, hb]
  simp [dpL]

/-- The way back finds a common subsequence of the first `i` and first `j` elements, as long as the table says. -/
theorem lcsBack_spec (t1 t2 : List α) (f : Nat) : ∀ i j, i ≤ t1.length → j ≤ t2.length → i + j ≤ f →
    let ms := lcsBack eq t1 t2 (lcsTable eq t1 t2) f i j
    IsCommonSubsequence eq t1 t2 ms ∧ (∀ p ∈ ms, p.1 < i ∧ p.2 < j) ∧
      ms.length = dpL eq (t1.take i).reverse (t2.take j).reverse := by
  have hz : ∀ i j : Nat, i = 0 ∨ j = 0 → dpL eq (t1.take i).reverse (t2.take j).reverse = 0 := by
    intro i j h
    rcases h with h | h <;> subst h <;> simp [dpL, dpL_nil_right]
  have hnil : ∀ i j : Nat, i = 0 ∨ j = 0 → IsCommonSubsequence eq t1 t2 ([] : List (Nat × Nat)) ∧
      (∀ p ∈ ([] : List (Nat × Nat)), p.1 < i ∧ p.2 < j) ∧
      ([] : List (Nat × Nat)).length = dpL eq (t1.take i).reverse (t2.take j).reverse := by
    intro i j h
    refine ⟨⟨List.Pairwise.nil, by simp⟩, by simp, ?_⟩
    rw [hz i j h]; rfl
  induction f with
  | zero =>
    intro i j _ _ hf
    have : lcsBack eq t1 t2 (lcsTable eq t1 t2) 0 i j = [] := by cases i <;> rfl
    simp only [this]
    exact hnil i j (by omega)
  | succ f ih =>
    intro i j hi hj hf
    cases i with
    | zero =>
      have : lcsBack eq t1 t2 (lcsTable eq t1 t2) (f + 1) 0 j = [] := rfl
      simp only [this]; exact hnil 0 j (Or.inl rfl)
    | succ i =>
      cases j with
      | zero =>
        have : lcsBack eq t1 t2 (lcsTable eq t1 t2) (f + 1) (i + 1) 0 = [] := rfl
        simp only [this]; exact hnil (i + 1) 0 (Or.inr rfl)
      | succ j =>
        have ha : t1[i]? = some (t1[i]'(by omega)) := List.getElem?_eq_getElem (by omega)
        have hb : t2[j]? = some (t2[j]'(by omega)) := List.getElem?_eq_getElem (by omega)
        have hd := dpL_step eq t1 t2 i j _ _ ha hb
        simp only [lcsBack, ha, hb]
        rw [hd, cell_spec eq t1 t2 i (j + 1) (by omega) hj, cell_spec eq t1 t2 (i + 1) j hi (by omega)]
        by_cases he : eq (t1[i]'(by omega)) (t2[j]'(by omega)) = true
        · simp only [if_pos he]
          obtain ⟨h1, h2, h3⟩ := ih i j (by omega) (by omega) (by omega)
          refine ⟨⟨?_, ?_⟩, ?_, ?_⟩
          · rw [List.pairwise_append]
            refine ⟨h1.increasing, by simp, ?_⟩
            intro p hp q hq
            simp at hq; subst hq
            exact h2 p hp
          · intro p hp
            rw [List.mem_append] at hp
            rcases hp with hp | hp
            · exact h1.paired p hp
            · simp at hp; subst hp; exact ⟨_, _, ha, hb, he⟩
          · intro p hp
            rw [List.mem_append] at hp
            rcases hp with hp | hp
            · have := h2 p hp; omega
            · simp at hp; subst hp; simp
          · simp [h3]
        · simp only [if_neg he]
          by_cases hc : dpL eq (t1.take i).reverse (t2.take (j + 1)).reverse >
              dpL eq (t1.take (i + 1)).reverse (t2.take j).reverse
          · rw [if_pos hc]
            obtain ⟨h1, h2, h3⟩ := ih i (j + 1) (by omega) hj (by omega)
            exact ⟨h1, fun p hp => by have := h2 p hp; omega, by rw [h3]; omega⟩
          · rw [if_neg hc]
            obtain ⟨h1, h2, h3⟩ := ih (i + 1) j hi (by omega) (by omega)
            exact ⟨h1, fun p hp => by have := h2 p hp; omega, by rw [h3]; omega⟩

/-- No common subsequence is longer than the table says. -/
theorem dpL_upper (t1 t2 : List α) (k : Nat) : ∀ i j, i + j ≤ k → i ≤ t1.length → j ≤ t2.length →
    ∀ ms, IsCommonSubsequence eq t1 t2 ms → (∀ p ∈ ms, p.1 < i ∧ p.2 < j) →
    ms.length ≤ dpL eq (t1.take i).reverse (t2.take j).reverse := by
  induction k with
  | zero =>
    intro i j hk _ _ ms _ hb
    cases ms with
    | nil => simp
    | cons p ms => have := hb p (by simp); omega
  | succ k ih =>
    intro i j hk hi hj ms hm hb
    rcases List.eq_nil_or_concat ms with h | ⟨l, last, h⟩
    · subst h; simp
    · subst h
      have hlast := hb last (by simp)
      cases i with
      | zero => omega
      | succ i =>
        cases j with
        | zero => omega
        | succ j =>
          have ha : t1[i]? = some (t1[i]'(by omega)) := List.getElem?_eq_getElem (by omega)
          have hb' : t2[j]? = some (t2[j]'(by omega)) := List.getElem?_eq_getElem (by omega)
          rw [dpL_step eq t1 t2 i j _ _ ha hb']
          have hinc := hm.increasing
          rw [List.concat_eq_append, List.pairwise_append] at hinc
          have hlt : ∀ p ∈ l, p.1 < last.1 ∧ p.2 < last.2 := fun p hp => hinc.2.2 p hp last (by simp)
          by_cases he : eq (t1[i]'(by omega)) (t2[j]'(by omega)) = true
          · rw [if_pos he]
            have := ih i j (by omega) (by omega) (by omega) l
              ⟨hinc.1, fun p hp => hm.paired p (by simp [hp])⟩ (fun p hp => by have := hlt p hp; omega)
            simp; omega
          · rw [if_neg he]
            have hne : last.1 < i ∨ last.2 < j := by
              apply Classical.byContradiction
              intro hcon
              have h1 : last.1 = i := by omega
              have h2 : last.2 = j := by omega
              obtain ⟨a, b, hA, hB, hab⟩ := hm.paired last (by simp)
              rw [h1, ha] at hA; rw [h2, hb'] at hB
              simp at hA hB; subst hA; subst hB
              exact he hab
            rcases hne with h | h
            · have := ih i (j + 1) (by omega) (by omega) hj _ hm (fun p hp => by
                have hp' := hb p hp
                simp at hp
                rcases hp with hp | hp
                · have := hlt p hp; omega
                · subst hp; omega)
              omega
            · have := ih (i + 1) j (by omega) hi (by omega) _ hm (fun p hp => by
                have hp' := hb p hp
                simp at hp
                rcases hp with hp | hp
                · have := hlt p hp; omega
                · subst hp; omega)
              omega

theorem lcs_matching (t1 t2 : List α) : IsCommonSubsequence eq t1 t2 (lcsMatches eq t1 t2) :=
  (lcsBack_spec eq t1 t2 _ t1.length t2.length (Nat.le_refl _) (Nat.le_refl _) (Nat.le_refl _)).1

theorem lcs_longest (t1 t2 : List α) (ms : List (Nat × Nat)) (h : IsCommonSubsequence eq t1 t2 ms) :
    ms.length ≤ (lcsMatches eq t1 t2).length := by
  have h1 := (lcsBack_spec eq t1 t2 _ t1.length t2.length (Nat.le_refl _) (Nat.le_refl _) (Nat.le_refl _)).2.2
  have h2 := dpL_upper eq t1 t2 _ t1.length t2.length (Nat.le_refl _) (Nat.le_refl _) (Nat.le_refl _) ms h (by
    intro p hp
    obtain ⟨a, b, ha, hb, _⟩ := h.paired p hp
    exact ⟨(List.getElem?_eq_some_iff.mp ha).1, (List.getElem?_eq_some_iff.mp hb).1⟩)
  unfold lcsMatches
  omega

end Pdfer.Compare
