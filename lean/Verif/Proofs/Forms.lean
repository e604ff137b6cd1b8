import Verif.Spec.Forms

/-! Field lookup and validation. -/

namespace Pdfer.Forms

open Pdfer.Go Pdfer.Spec.Forms

theorem joinName_eq (p t : Bytes) : joinName p t = if p = [] then t else p ++ b!"." ++ t := by
  unfold joinName; by_cases h : p = [] <;> simp [h]

theorem findField_some (fs : List Field) (name : Bytes) (f : Field) (full : Bytes) (h : findField fs name = some (f, full)) :
    FieldAt2 fs full f ∧ (full = name ∨ f.attrs.t = name) := by
  induction fs with
  | nil => simp [findField] at h
  | cons g fs ih =>
    unfold findField at h
    split at h
    · rename_i hg
      simp only [Option.some.injEq, Prod.mk.injEq] at h
      obtain ⟨rfl, rfl⟩ := h
      exact ⟨.top (by simp), Or.inl hg⟩
    · split at h
      · rename_i k hk
        simp only [Option.some.injEq, Prod.mk.injEq] at h
        obtain ⟨rfl, rfl⟩ := h
        have hm := List.mem_of_find?_eq_some hk
        have hp := List.find?_some hk
        simp only [decide_eq_true_eq] at hp
        refine ⟨?_, hp⟩
        rw [joinName_eq]
        exact .kid (by simp) hm
      · obtain ⟨h1, h2⟩ := ih h
        refine ⟨?_, h2⟩
        cases h1 with
        | top hm => exact .top (List.mem_cons_of_mem _ hm)
        | kid hp hk => exact .kid (List.mem_cons_of_mem _ hp) hk

theorem findField_none (fs : List Field) (name : Bytes) :
    findField fs name = none ↔ ∀ full f, FieldAt2 fs full f → full ≠ name ∧ f.attrs.t ≠ name := by
  constructor
  · intro h full f hf
    induction fs with
    | nil =>
      cases hf with
      | top hm => simp at hm
      | kid hp _ => simp at hp
    | cons g fs ih =>
      unfold findField at h
      split at h
      · simp at h
      · rename_i hg
        split at h
        · simp at h
        · rename_i hk
          rw [List.find?_eq_none] at hk
          cases hf with
          | top hm =>
            rcases List.mem_cons.1 hm with rfl | hm
            · exact ⟨hg, hg⟩
            · exact ih h (.top hm)
          | kid hp hkm =>
            rename_i p
            rcases List.mem_cons.1 hp with rfl | hp
            · have := hk _ hkm
              simp only [decide_eq_true_eq, not_or] at this
              rw [joinName_eq] at this
              exact this
            · exact ih h (.kid hp hkm)
  · intro h
    cases hf : findField fs name with
    | none => rfl
    | some r =>
      obtain ⟨h1, h2⟩ := findField_some fs name r.1 r.2 hf
      have := h _ _ h1
      rcases h2 with h2 | h2
      · exact absurd h2 this.1
      · exact absurd h2 this.2

theorem and_pow (n k : Nat) : n &&& 2 ^ k ≠ 0 ↔ n / 2 ^ k % 2 = 1 := by
  have hb : n.testBit k = decide (n / 2 ^ k % 2 = 1) := Nat.testBit_eq_decide_div_mod_eq
  constructor
  · intro hne
    apply Classical.byContradiction
    intro h
    apply hne
    apply Nat.eq_of_testBit_eq
    intro i
    rw [Nat.testBit_and, Nat.testBit_two_pow]
    by_cases hi : k = i
    · subst hi; rw [hb]; simp [h]
    · simp [hi]
  · intro h hz
    have : (n &&& 2 ^ k).testBit k = true := by
      rw [Nat.testBit_and, Nat.testBit_two_pow, hb]; simp [h]
    rw [hz] at this
    simp at this

theorem and_flag (n pos m : Nat) (hm : m = 2 ^ (pos - 1)) : n &&& m ≠ 0 ↔ Flag n pos := by
  rw [hm, and_pow]; rfl

theorem isEmpty_iff (v : Val) : isEmpty v = true ↔ Blank v := by
  unfold Blank
  cases v with
  | str s => cases s <;> simp [isEmpty]
  | _ => simp [isEmpty]

theorem validateField_none (a : Attrs) (name : Bytes) (v : Val) : validateField a name v = none ↔ Accepts a v := by
  have f2 := and_flag a.ff 2 2 (by decide)
  have f16 := and_flag a.ff 16 0x8000 (by decide)
  have f17 := and_flag a.ff 17 0x10000 (by decide)
  unfold validateField
  by_cases hr : a.ff &&& 2 ≠ 0 ∧ isEmpty v = true
  · rw [if_pos hr]
    simp only [reduceCtorEq, false_iff]
    intro h
    exact h.required (f2.1 hr.1) ((isEmpty_iff v).1 hr.2)
  · rw [if_neg hr]
    have hreq : Flag a.ff 2 → ¬ Blank v := fun h1 h2 => hr ⟨f2.2 h1, (isEmpty_iff v).2 h2⟩
    by_cases h1 : a.ft = b!"Tx"
    · rw [if_pos h1]
      unfold validateText
      constructor
      · intro h
        refine ⟨hreq, fun _ hm => ?_, fun h2 => ?_, fun h2 => ?_⟩
        · split at h
          · simp at h
          · rename_i hn; omega
        · rw [h1] at h2; simp at h2
        · rw [h1] at h2; simp at h2
      · intro h
        rw [if_neg]
        rintro ⟨h3, h4⟩
        have := h.text h1 (by omega)
        omega
    · rw [if_neg h1]
      by_cases h2 : a.ft = b!"Btn"
      · rw [if_pos h2]
        unfold validateButton
        constructor
        · intro h
          refine ⟨hreq, fun h3 => absurd h3 h1, fun h3 => ?_, fun _ h17 ho himp => ?_⟩
          · rw [h2] at h3; simp at h3
          · split at h
            · rename_i hc
              have := himp (f16.1 hc.1)
              simp only [List.mem_cons, List.not_mem_nil, or_false] at this
              rcases this with e | e | e | e
              · exact absurd e hc.2.1
              · exact absurd e hc.2.2.1
              · exact absurd e hc.2.2.2.1
              · exact absurd e hc.2.2.2.2
            · split at h
              · simp at h
              · rename_i hc
                apply Classical.byContradiction
                intro hn
                exact hc ⟨f17.2 h17, ho, hn⟩
        · intro h
          split
          · rfl
          · rename_i hc
            rw [if_neg]
            rintro ⟨h3, h4, h5⟩
            apply h5
            apply h.button h2 (f17.1 h3) h4
            intro h16
            apply Classical.byContradiction
            intro hn
            simp only [List.mem_cons, List.not_mem_nil, or_false, not_or] at hn
            exact hc ⟨f16.2 h16, hn.1, hn.2.1, hn.2.2.1, hn.2.2.2⟩
      · rw [if_neg h2]
        by_cases h3 : a.ft = b!"Ch"
        · rw [if_pos h3]
          unfold validateChoice
          constructor
          · intro h
            refine ⟨hreq, fun h4 => absurd h4 h1, fun _ ho => ?_, fun h4 => absurd h4 h2⟩
            rw [if_neg ho] at h
            split at h
            · assumption
            · simp at h
          · intro h
            split
            · rfl
            · rename_i ho
              rw [if_pos (h.choice h3 ho)]
        · rw [if_neg h3]
          have hA : Accepts a v := ⟨hreq, fun h4 => absurd h4 h1, fun h4 => absurd h4 h3, fun h4 => absurd h4 h2⟩
          split
          · unfold validateSignature
            rw [if_neg]
            · simp [hA]
            · rintro ⟨h4, h5⟩; exact hr ⟨h5, h4⟩
          · simp [hA]

theorem missing_nil (fs : List Field) (data : List (Bytes × Val)) :
    missingFields fs data = [] ↔ ∀ full f, FieldAt2 fs full f → Flag f.attrs.ff 2 → full ∈ data.map (·.1) := by
  unfold missingFields
  rw [List.flatMap_eq_nil_iff]
  constructor
  · intro h full f hf hr
    have hr' := (and_flag f.attrs.ff 2 2 (by decide)).2 hr
    cases hf with
    | top hm =>
      have := (List.append_eq_nil_iff.1 (h _ hm)).1
      apply Classical.byContradiction
      intro hn
      rw [if_pos ⟨hr', hn⟩] at this
      simp at this
    | kid hp hk =>
      rename_i p
      have := (List.append_eq_nil_iff.1 (h _ hp)).2
      rw [List.flatMap_eq_nil_iff] at this
      have := this _ hk
      apply Classical.byContradiction
      intro hn
      rw [← joinName_eq] at hn
      rw [if_pos ⟨hr', hn⟩] at this
      simp at this
  · intro h f hf
    rw [List.append_eq_nil_iff]
    constructor
    · rw [if_neg]
      rintro ⟨h1, h2⟩
      exact h2 (h _ _ (.top hf) ((and_flag _ 2 2 (by decide)).1 h1))
    · rw [List.flatMap_eq_nil_iff]
      intro k hk
      rw [if_neg]
      rintro ⟨h1, h2⟩
      rw [joinName_eq] at h2
      exact h2 (h _ _ (.kid hf hk) ((and_flag _ 2 2 (by decide)).1 h1))

theorem validate_nil (fs : List Field) (data : List (Bytes × Val)) :
    validateData fs data = [] ↔ ∀ d ∈ data, ∃ f full, findField fs d.1 = some (f, full) ∧ Accepts f.attrs d.2 := by
  unfold validateData
  rw [List.flatMap_eq_nil_iff]
  refine forall_congr' fun d => forall_congr' fun hd => ?_
  cases hf : findField fs d.1 with
  | none => simp
  | some r =>
    obtain ⟨f, full⟩ := r
    simp only [Option.toList_eq_nil_iff, validateField_none, Option.some.injEq, Prod.mk.injEq]
    constructor
    · intro h; exact ⟨f, full, ⟨rfl, rfl⟩, h⟩
    · rintro ⟨f', full', ⟨rfl, rfl⟩, h⟩; exact h

end Pdfer.Forms
