import Verif.Proofs.Warnings


/-! C47: the warning collector. -/

namespace Pdfer.Props

open Pdfer.Go Pdfer.Warnings Pdfer.Spec.Warnings

/-- C47: after any history of calls, and whatever capacities the Go runtime chooses, Warnings() shows exactly the
warnings added since the last Clear while collecting was on, in the order of the calls. -/
theorem C47_history (grow : Nat → Nat) (on : Bool) (ops : List Op) :
    Pdfer.Warnings.read (run grow (new on) ops) (warnings (run grow (new on) ops)) = (expected on ops).map some :=
  good_read (good_history grow on ops)

/-- C47: Count, HasWarnings and IsEnabled agree with it. -/
theorem C47_count (grow : Nat → Nat) (on : Bool) (ops : List Op) :
    count (run grow (new on) ops) = (expected on ops).length ∧
    (hasWarnings (run grow (new on) ops) = true ↔ expected on ops ≠ []) ∧
    (run grow (new on) ops).enabled = enabledAfter on ops := by
  obtain ⟨a, h1, h2, h3, h4⟩ := good_history grow on ops
  refine ⟨h3, ?_, (good_run grow ops (new on) [] (good_new on)).2⟩
  rw [hasWarnings, h3]
  simp [List.length_pos_iff]

/-- C47: FilterByLevel and GetByCode return exactly the matching warnings, in order, and never panic. -/
theorem C47_filters (grow : Nat → Nat) (on : Bool) (ops : List Op) (level code : Bytes) :
    filterByLevel (run grow (new on) ops) level = .ok ((expected on ops).filter (fun w => w.level = level)) ∧
    getByCode (run grow (new on) ops) code = .ok ((expected on ops).filter (fun w => w.code = code)) := by
  have h := C47_history grow on ops
  unfold warnings at h
  constructor
  · unfold filterByLevel
    rw [h, collect_filter]
    simp only [List.nil_append]
    congr 2
    funext w
    exact Bool.beq_eq_decide_eq _ _
  · unfold getByCode
    rw [h, collect_filter]
    simp only [List.nil_append]
    congr 2
    funext w
    exact Bool.beq_eq_decide_eq _ _

/-- C47: a list returned by Warnings() keeps its content through any later calls. Partial: as long as none of them is
Clear. -/
theorem C47_returned_list_partial (grow : Nat → Nat) (on : Bool) (before later : List Op) (h : Op.clear ∉ later) :
    Pdfer.Warnings.read (run grow (new on) (before ++ later)) (warnings (run grow (new on) before)) =
      (expected on before).map some := by
  have hr : run grow (new on) (before ++ later) = run grow (run grow (new on) before) later := by simp [run]
  obtain ⟨a, h1, _⟩ := good_history grow on before
  have hlt : (run grow (new on) before).warnings.arr < (run grow (new on) before).arrays.length := by
    rcases Nat.lt_or_ge (run grow (new on) before).warnings.arr (run grow (new on) before).arrays.length with h | h
    · exact h
    · rw [List.getElem?_eq_none h] at h1; simp at h1
  rw [hr, warnings, read_stable grow later _ _ h hlt (fun _ => Nat.le_refl _)]
  exact C47_history grow on before

/-- C47 is violated by Clear: it keeps the array, so the next warning added overwrites the first element of every list
returned before – for every history that collected something, whatever capacities the runtime chooses. -/
theorem C47_clear_overwrites_violated (grow : Nat → Nat) (on : Bool) (before : List Op) (w v : Warning)
    (rest : List Warning) (he : enabledAfter on before = true) (hb : expected on before = v :: rest) :
    Pdfer.Warnings.read (run grow (new on) (before ++ [.clear, .add (some w)])) (warnings (run grow (new on) before)) =
      (w :: rest).map some := by
  have hr : run grow (new on) (before ++ [.clear, .add (some w)]) =
      step grow (step grow (run grow (new on) before) .clear) (.add (some w)) := by simp [run]
  rw [hr]
  have hen := (C47_count grow on before).2.2
  obtain ⟨a, h1, h2, h3, h4⟩ := good_history grow on before
  generalize run grow (new on) before = c at *
  rw [hb] at h3 h4
  have hlt : c.warnings.arr < c.arrays.length := by
    rcases Nat.lt_or_ge c.warnings.arr c.arrays.length with h | h
    · exact h
    · rw [List.getElem?_eq_none h] at h1; simp at h1
  have hpos : 0 < a.length := by simp at h3; omega
  simp only [step, add, clear, hen, he, if_true, append, h1, Option.getD_some, hpos]
  simp only [Pdfer.Warnings.read, warnings, List.getElem?_set, if_true, hlt, Option.getD_some, h3]
  cases a with
  | nil => simp at hpos
  | cons x xs =>
    simp only [List.set_cons_zero, List.length_cons, List.take_succ_cons, List.map_cons, List.cons.injEq] at h4 ⊢
    exact ⟨trivial, h4.2⟩

/-! A history that collects, clears, is switched off and on again. -/

private def wA : Warning := ⟨1, b!"warning", b!"", b!"first"⟩
private def wB : Warning := ⟨2, b!"error", b!"E1", b!"second"⟩
private def wC : Warning := ⟨3, b!"warning", b!"E1", b!"third"⟩

example : expected true [.add (some wA), .add (some wB), .clear, .disable, .add (some wA), .enable, .add none,
    .add (some wB), .add (some wC)] = [wB, wC] := by decide +kernel

example : filterByLevel (run (fun n => n) (new true) [.add (some wA), .add (some wB), .add (some wC)]) b!"warning" =
    .ok [wA, wC] := by decide +kernel

example : Pdfer.Warnings.read (run (fun n => n) (new true) ([.add (some wA), .add (some wB)] ++ [.clear, .add (some wC)]))
    (warnings (run (fun n => n) (new true) [.add (some wA), .add (some wB)])) = [wC, wB].map some :=
  C47_clear_overwrites_violated _ _ _ wC wA [wB] (by decide +kernel) (by decide +kernel)

end Pdfer.Props
