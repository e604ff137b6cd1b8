import Verif.Spec.Warnings

/-! The slice discipline of the warning collector. -/

namespace Pdfer.Warnings

open Pdfer.Go Pdfer.Spec.Warnings

/-- The collector holds exactly the list `l`. -/
def Good (c : Collector) (l : List Warning) : Prop :=
  ∃ a, c.arrays[c.warnings.arr]? = some a ∧ c.warnings.len ≤ a.length ∧ c.warnings.len = l.length ∧ a.take l.length = l.map some

theorem good_read {c : Collector} {l : List Warning} (h : Good c l) : read c (warnings c) = l.map some := by
  obtain ⟨a, h1, h2, h3, h4⟩ := h
  simp [read, warnings, h1, h3, h4]

theorem take_succ_set {α : Type} (a : List α) (n : Nat) (x : α) (h : n < a.length) :
    (a.set n x).take (n + 1) = a.take n ++ [x] := by
  rw [List.take_add_one]
  simp [h, List.take_set_of_le]

theorem good_append (grow : Nat → Nat) {c : Collector} {l : List Warning} (w : Warning) (h : Good c l) :
    Good (append grow c w) (l ++ [w]) ∧ (append grow c w).enabled = c.enabled := by
  obtain ⟨a, h1, h2, h3, h4⟩ := h
  have hlt : c.warnings.arr < c.arrays.length := by
    rcases Nat.lt_or_ge c.warnings.arr c.arrays.length with h | h
    · exact h
    · rw [List.getElem?_eq_none h] at h1; simp at h1
  unfold append
  simp only [h1, Option.getD_some]
  split
  · rename_i hl
    refine ⟨⟨a.set c.warnings.len (some w), ?_, ?_, ?_, ?_⟩, rfl⟩
    · simp [List.getElem?_set, hlt]
    · simp; omega
    · simp [h3]
    · rw [h3] at hl ⊢
      simp only [List.length_append, List.length_singleton, List.map_append, List.map_cons, List.map_nil]
      rw [take_succ_set _ _ _ hl, h4]
  · rename_i hl
    refine ⟨⟨a.take c.warnings.len ++ some w :: List.replicate (grow c.warnings.len) none, by simp, ?_, ?_, ?_⟩, rfl⟩
    · simp; omega
    · simp [h3]
    · rw [h3, h4]
      rw [List.take_append]
      simp [List.take_of_length_le]

theorem good_clear {c : Collector} {l : List Warning} (h : Good c l) : Good (clear c) [] := by
  obtain ⟨a, h1, _⟩ := h
  exact ⟨a, h1, by simp [clear], by simp [clear], by simp⟩

/-- The same list, computed from left to right. -/
def keep (on : Bool) (l : List Warning) : List Op → List Warning
  | [] => l
  | .add (some w) :: ops => keep on (if on then l ++ [w] else l) ops
  | .add none :: ops => keep on l ops
  | .clear :: ops => keep on [] ops
  | .enable :: ops => keep true l ops
  | .disable :: ops => keep false l ops

theorem good_run (grow : Nat → Nat) (ops : List Op) (c : Collector) (l : List Warning) (h : Good c l) :
    Good (run grow c ops) (keep c.enabled l ops) ∧ (run grow c ops).enabled = enabledAfter c.enabled ops := by
  induction ops generalizing c l with
  | nil => exact ⟨h, rfl⟩
  | cons op ops ih =>
    simp only [run, List.foldl_cons] at ih ⊢
    cases op with
    | add w =>
      cases w with
      | none => exact ih c l h
      | some w =>
        simp only [step, add, keep, enabledAfter]
        by_cases he : c.enabled
        · have hg := good_append grow w h
          have := ih (append grow c w) (l ++ [w]) hg.1
          rw [hg.2] at this
          rw [if_pos he, if_pos he]
          exact this
        · rw [if_neg he, if_neg he]
          exact ih c l h
    | clear => exact ih (clear c) [] (good_clear h)
    | enable =>
      obtain ⟨a, h1⟩ := h
      exact ih (enable c) l ⟨a, h1⟩
    | disable =>
      obtain ⟨a, h1⟩ := h
      exact ih (disable c) l ⟨a, h1⟩

theorem keep_noclear (ops : List Op) (on : Bool) (l : List Warning) (h : Op.clear ∉ ops) :
    keep on l ops = l ++ added on ops := by
  induction ops generalizing on l with
  | nil => simp [keep, added]
  | cons op ops ih =>
    have hops : Op.clear ∉ ops := fun hm => h (List.mem_cons_of_mem _ hm)
    cases op with
    | add w =>
      cases w with
      | none => simp [keep, added, ih _ _ hops, enabledAfter]
      | some w =>
        cases on <;> simp [keep, added, ih _ _ hops]
    | clear => simp at h
    | enable => simp [keep, added, ih _ _ hops, enabledAfter]
    | disable => simp [keep, added, ih _ _ hops, enabledAfter]

theorem keep_clear (ops : List Op) (on : Bool) (l l' : List Warning) (h : Op.clear ∈ ops) :
    keep on l ops = keep on l' ops := by
  induction ops generalizing on l l' with
  | nil => simp at h
  | cons op ops ih =>
    cases op with
    | clear => rfl
    | add w =>
      have : Op.clear ∈ ops := by simpa using h
      cases w <;> simp only [keep] <;> exact ih _ _ _ this
    | enable => exact ih _ _ _ (by simpa using h)
    | disable => exact ih _ _ _ (by simpa using h)

theorem keep_expected (ops : List Op) (on : Bool) : keep on [] ops = expected on ops := by
  induction ops generalizing on with
  | nil => rfl
  | cons op ops ih =>
    unfold expected sinceClear
    by_cases hc : Op.clear ∈ ops
    · simp only [if_pos hc]
      have := ih (enabledAfter on [op])
      rw [expected] at this
      rw [← this]
      cases op with
      | add w =>
        cases w with
        | none => rfl
        | some w => simp only [keep, enabledAfter]; exact keep_clear _ _ _ _ hc
      | clear => rfl
      | enable => rfl
      | disable => rfl
    · simp only [if_neg hc]
      by_cases ho : op = .clear
      · subst ho
        simp only [if_pos rfl, keep]
        rw [keep_noclear _ _ _ hc]; rfl
      · simp only [if_neg ho]
        have hn : Op.clear ∉ op :: ops := by
          intro hm
          rcases List.mem_cons.1 hm with h | h
          · exact ho h.symm
          · exact hc h
        rw [keep_noclear _ _ _ hn]; rfl

theorem good_new (on : Bool) : Good (new on) [] := ⟨[], rfl, by simp [new], by simp [new], rfl⟩

theorem good_history (grow : Nat → Nat) (on : Bool) (ops : List Op) :
    Good (run grow (new on) ops) (expected on ops) := by
  have h := (good_run grow ops (new on) [] (good_new on)).1
  rw [show (new on).enabled = on from rfl, keep_expected] at h
  exact h

theorem collect_filter (p : Warning → Bool) (l acc : List Warning) :
    collect p (l.map some) acc = .ok (acc ++ l.filter p) := by
  induction l generalizing acc with
  | nil => simp [collect]
  | cons w l ih =>
    rw [List.map_cons, collect, ih]
    by_cases hp : p w <;> simp [hp]

theorem append_read (grow : Nat → Nat) (c : Collector) (w : Warning) (s : Slice) (hs : s.arr < c.arrays.length)
    (hle : s.arr = c.warnings.arr → s.len ≤ c.warnings.len) :
    read (append grow c w) s = read c s ∧ s.arr < (append grow c w).arrays.length ∧
      (s.arr = (append grow c w).warnings.arr → s.len ≤ (append grow c w).warnings.len) := by
  unfold append
  simp only
  split
  · rename_i hl
    refine ⟨?_, by simpa using hs, fun h => by have := hle h; simp only at this ⊢; omega⟩
    unfold read
    simp only [List.getElem?_set]
    split
    · rename_i he
      have hle := hle he.symm
      rw [← he] at hs
      simp only [if_pos hs, Option.getD_some, ← he]
      rw [List.take_set_of_le hle]
    · rfl
  · refine ⟨?_, by simp; omega, fun h => by simp only at h; omega⟩
    unfold read
    simp only [List.getElem?_append_left hs]

theorem read_stable (grow : Nat → Nat) (ops : List Op) (c : Collector) (s : Slice) (h : Op.clear ∉ ops)
    (hs : s.arr < c.arrays.length) (hle : s.arr = c.warnings.arr → s.len ≤ c.warnings.len) :
    read (run grow c ops) s = read c s := by
  induction ops generalizing c with
  | nil => rfl
  | cons op ops ih =>
    have hops : Op.clear ∉ ops := fun hm => h (List.mem_cons_of_mem _ hm)
    simp only [run, List.foldl_cons] at ih ⊢
    cases op with
    | add w =>
      cases w with
      | none => exact ih c hops hs hle
      | some w =>
        simp only [step, add]
        by_cases he : c.enabled
        · rw [if_pos he]
          have ha := append_read grow c w s hs hle
          rw [ih _ hops ha.2.1 ha.2.2, ha.1]
        · rw [if_neg he]; exact ih c hops hs hle
    | clear => simp at h
    | enable => exact ih (enable c) hops hs hle
    | disable => exact ih (disable c) hops hs hle

end Pdfer.Warnings
