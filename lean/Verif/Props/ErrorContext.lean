import Verif.Model.ErrorContext
import Verif.Proofs.GoLib

/-! C159: the context of an error is its own. -/

namespace Pdfer.Props

open Pdfer.Go Pdfer.ErrorContext

/-- The value last given to `key` of error `e` in a history. -/
def lastContext (e : Nat) (key : Bytes) (ops : List ErrorContext.Op) : Option Bytes :=
  (ops.reverse.findSome? fun op => match op with
    | .withContext a k v => if a = e ∧ k = key then some v else none
    | _ => none)

theorem step_length (h : List Cell) (op : ErrorContext.Op) : h.length ≤ (ErrorContext.step h op).1.length := by
  cases op with
  | new c m => simp [ErrorContext.step]
  | wrap c m x => simp [ErrorContext.step]
  | withContext a k v => simp only [ErrorContext.step, addContext]; split <;> simp

theorem run_snoc (ops : List ErrorContext.Op) (op : ErrorContext.Op) : ErrorContext.run (ops ++ [op]) = (ErrorContext.step (ErrorContext.run ops) op).1 := by
  simp [ErrorContext.run]

/-- What a call leaves of an error that exists. -/
theorem step_kept (h : List Cell) (op : ErrorContext.Op) (e : Nat) (c : Cell) (he : h[e]? = some c) :
    (ErrorContext.step h op).1[e]? = some (match op with
      | .withContext a k v => if a = e then { c with context := c.context.set k v } else c
      | _ => c) := by
  have hl : e < h.length := (List.getElem?_eq_some_iff.1 he).1
  cases op with
  | new c m => simp only [ErrorContext.step]; rw [List.getElem?_append_left hl, he]
  | wrap c m x => simp only [ErrorContext.step]; rw [List.getElem?_append_left hl, he]
  | withContext a k v =>
    simp only [ErrorContext.step, addContext]
    by_cases hae : a = e
    · subst hae
      rw [he]
      simp [hl]
    · rw [if_neg hae]
      split
      · rw [List.getElem?_set_ne hae, he]
      · exact he

/-- The program adds context only to errors that exist at that time. -/
def HoldsErrors (ops : List ErrorContext.Op) : Prop :=
  ∀ a k v pre, pre ++ [ErrorContext.Op.withContext a k v] <+: ops → a < (ErrorContext.run pre).length

/-- C159: whatever calls a program makes, in any order: every error that a program can hold was returned by a creating call (or exists from the
start), and its context at every key is the value last given to `WithContext` on this very error, nothing if there was none. -/
theorem C159_own (ops : List ErrorContext.Op) (hvalid : HoldsErrors ops) (e : Nat) (c : Cell) (he : (ErrorContext.run ops)[e]? = some c) (key : Bytes) :
    c.context.get key = lastContext e key ops := by
  induction ops using Pdfer.snoc_induction generalizing e c with
  | nil =>
    have hm := List.mem_of_getElem? he
    have : ∀ c ∈ start, c.context = [] := by decide
    rw [this c hm]
    rfl
  | snoc ops op ih =>
    have ih := ih (fun a k v pre hp => hvalid a k v pre (hp.trans (List.prefix_append _ _)))
    rw [run_snoc] at he
    have hlast : lastContext e key (ops ++ [op]) = (match op with
        | .withContext a k v => if a = e ∧ k = key then some v else none
        | _ => none).or (lastContext e key ops) := by
      unfold lastContext
      rw [List.reverse_append, List.findSome?_append]
      congr 1
      cases op <;> simp
    rw [hlast]
    by_cases hl : e < (ErrorContext.run ops).length
    · obtain ⟨c0, h0⟩ : ∃ c0, (ErrorContext.run ops)[e]? = some c0 := ⟨_, List.getElem?_eq_getElem hl⟩
      have hk := step_kept _ op e c0 h0
      rw [hk] at he
      simp only [Option.some.injEq] at he
      have i0 := ih e c0 h0
      cases op with
      | new _ _ => subst he; simpa using i0
      | wrap _ _ _ => subst he; simpa using i0
      | withContext a k v =>
        simp only at he ⊢
        by_cases hae : a = e
        · rw [if_pos hae] at he
          subst he
          simp only [hae, true_and]
          rw [Map.get_set]
          by_cases hkk : key = k
          · rw [if_pos hkk, if_pos hkk.symm]; rfl
          · rw [if_neg hkk, if_neg (Ne.symm hkk), i0]; rfl
        · rw [if_neg hae] at he
          subst he
          rw [if_neg (by simp [hae])]
          simpa using i0
    · -- a new error
      have hnone : lastContext e key ops = none := by
        unfold lastContext
        rw [List.findSome?_eq_none_iff]
        intro x hx
        cases x with
        | new _ _ => rfl
        | wrap _ _ _ => rfl
        | withContext a k v =>
          simp only
          rw [if_neg]
          rintro ⟨rfl, _⟩
          have hx := List.mem_reverse.1 hx
          obtain ⟨pre, post, hpp⟩ := List.append_of_mem hx
          have := hvalid a k v pre ⟨post ++ [op], by rw [hpp]; simp⟩
          have hmono : ∀ (qs ps : List ErrorContext.Op), (ErrorContext.run ps).length ≤ (ErrorContext.run (ps ++ qs)).length := by
            intro qs
            induction qs with
            | nil => intro ps; simp
            | cons q qs ihq =>
              intro ps
              have h1 := ihq (ps ++ [q])
              have h2 := step_length (ErrorContext.run ps) q
              rw [run_snoc] at h1
              rw [List.append_assoc] at h1
              exact Nat.le_trans h2 h1
          have h3 := hmono (ErrorContext.Op.withContext a k v :: post) pre
          rw [← hpp] at h3
          exact hl (by omega)
      rw [hnone]
      have hc : c.context = [] ∧ ∀ a k v, op ≠ .withContext a k v := by
        cases op with
        | new cd m =>
          simp only [ErrorContext.step] at he
          rw [List.getElem?_append_right (by omega)] at he
          have hm := List.mem_of_getElem? he
          simp at hm
          subst hm
          exact ⟨rfl, by simp⟩
        | wrap cd m x =>
          simp only [ErrorContext.step] at he
          rw [List.getElem?_append_right (by omega)] at he
          have hm := List.mem_of_getElem? he
          simp at hm
          subst hm
          exact ⟨rfl, by simp⟩
        | withContext a k v =>
          exfalso
          have h1 : (ErrorContext.step (ErrorContext.run ops) (.withContext a k v)).1.length = (ErrorContext.run ops).length := by
            simp only [ErrorContext.step, addContext]; split <;> simp
          have h2 := (List.getElem?_eq_some_iff.1 he).1
          omega
      rw [hc.1]
      cases op with
      | new _ _ => rfl
      | wrap _ _ _ => rfl
      | withContext a k v => exact absurd rfl (hc.2 a k v)

/-- C159: a creating call returns an error that no earlier call has returned, with the code, message and cause that were given and without
context, and no later call changes code, message or cause: `errors.Is` and the text of an error stay what they were. -/
theorem C159_kept (ops later : List ErrorContext.Op) (op : ErrorContext.Op) (code msg : Bytes) (cause : Option Nat)
    (hop : op = .wrap code msg cause ∨ (op = .new code msg ∧ cause = none)) :
    (ErrorContext.step (ErrorContext.run ops) op).2 = (ErrorContext.run ops).length ∧
    (ErrorContext.run (ops ++ [op]))[(ErrorContext.run ops).length]? = some ⟨code, msg, cause, []⟩ ∧
    ∃ ctx, (ErrorContext.run (ops ++ [op] ++ later))[(ErrorContext.run ops).length]? = some ⟨code, msg, cause, ctx⟩ := by
  have h1 : (ErrorContext.run (ops ++ [op]))[(ErrorContext.run ops).length]? = some ⟨code, msg, cause, []⟩ := by
    rw [run_snoc]
    rcases hop with rfl | ⟨rfl, rfl⟩ <;> simp [ErrorContext.step]
  refine ⟨by rcases hop with rfl | ⟨rfl, rfl⟩ <;> rfl, h1, ?_⟩
  induction later using Pdfer.snoc_induction with
  | nil => exact ⟨[], by simpa using h1⟩
  | snoc later x ih =>
    obtain ⟨ctx, hctx⟩ := ih
    have := step_kept _ x _ _ hctx
    rw [← List.append_assoc, run_snoc, this]
    cases x with
    | new _ _ => exact ⟨ctx, rfl⟩
    | wrap _ _ _ => exact ⟨ctx, rfl⟩
    | withContext a k v =>
      simp only
      split
      · exact ⟨_, rfl⟩
      · exact ⟨ctx, rfl⟩

/-- C159 (violated for the errors that exist from the start): `ErrObjectNotFound.WithContext(…)` does not make an error of its own.  Whoever uses
the same error afterwards, in whatever history, sees the context. -/
theorem C159_shared_violated (s : Nat) (hs : s < sentinels.length) (key value : Bytes) :
    (ErrorContext.step start (.withContext s key value)).2 = s ∧
    ∀ later : List ErrorContext.Op, (∀ a v, ErrorContext.Op.withContext a key v ∉ later) → HoldsErrors (.withContext s key value :: later) →
      ∃ c, (ErrorContext.run (.withContext s key value :: later))[s]? = some c ∧ c.context.get key = some value := by
  refine ⟨rfl, ?_⟩
  intro later hno hvalid
  have hlen : ∀ (qs ps : List ErrorContext.Op), (ErrorContext.run ps).length ≤ (ErrorContext.run (ps ++ qs)).length := by
    intro qs
    induction qs with
    | nil => intro ps; simp
    | cons q qs ihq =>
      intro ps
      have h1 := ihq (ps ++ [q])
      have h2 := step_length (ErrorContext.run ps) q
      rw [run_snoc, List.append_assoc] at h1
      exact Nat.le_trans h2 h1
  have h0 := hlen (.withContext s key value :: later) []
  have hs' : s < (ErrorContext.run ([] ++ .withContext s key value :: later)).length := by
    have : (ErrorContext.run []).length = sentinels.length := by simp [ErrorContext.run, start]
    omega
  obtain ⟨c, hc⟩ : ∃ c, (ErrorContext.run (.withContext s key value :: later))[s]? = some c := ⟨_, List.getElem?_eq_getElem hs'⟩
  refine ⟨c, hc, ?_⟩
  rw [C159_own _ hvalid s c hc key]
  unfold lastContext
  rw [List.reverse_cons, List.findSome?_append]
  have hn : later.reverse.findSome? (fun op => match op with
      | .withContext a k v => if a = s ∧ k = key then some v else none
      | _ => none) = none := by
    rw [List.findSome?_eq_none_iff]
    intro x hx
    cases x with
    | new _ _ => rfl
    | wrap _ _ _ => rfl
    | withContext a k v =>
      simp only
      rw [if_neg]
      rintro ⟨_, rfl⟩
      exact hno a v (List.mem_reverse.1 hx)
  rw [hn]
  simp

/-- Two errors, one wrapping the other, with a context entry each, one of them changed later. -/
def exErrors : List ErrorContext.Op :=
  [.new b!"OBJECT_NOT_FOUND" b!"object 5 not found", .withContext 23 b!"object_number" b!"5", .wrap b!"INVALID_FORM" b!"no form" (some 23),
   .withContext 24 b!"object_number" b!"7", .withContext 23 b!"object_number" b!"6"]

theorem exErrors_hold : HoldsErrors exErrors := by
  intro a k v pre hp
  have hmem : ErrorContext.Op.withContext a k v ∈ exErrors := hp.subset (by simp)
  have hlen := hp.length_le
  have hpre : pre = exErrors.take pre.length := List.prefix_iff_eq_take.1 ((List.prefix_append _ _).trans hp)
  have hget : exErrors[pre.length]? = some (.withContext a k v) := by
    obtain ⟨r, hr⟩ := hp
    rw [← hr]
    simp
  have h5 : pre.length < 5 := by simp [exErrors] at hlen ⊢; omega
  rw [hpre]
  generalize pre.length = n at *
  match n, h5 with
  | 0, _ => simp [exErrors] at hget
  | 1, _ => simp [exErrors] at hget; rw [← hget.1]; decide
  | 2, _ => simp [exErrors] at hget
  | 3, _ => simp [exErrors] at hget; rw [← hget.1]; decide
  | 4, _ => simp [exErrors] at hget; rw [← hget.1]; decide

-- Each has its own object number.
example : ((ErrorContext.run exErrors)[23]?).map (·.context.get b!"object_number") = some (some b!"6") ∧ lastContext 23 b!"object_number" exErrors = some b!"6" ∧
    ((ErrorContext.run exErrors)[24]?).map (·.context.get b!"object_number") = some (some b!"7") ∧ lastContext 24 b!"object_number" exErrors = some b!"7" := by
  decide

-- The context of `ErrObjectNotFound` (the fourth of the errors that exist from the start), with an unrelated error made afterwards.
example : ∃ c, (ErrorContext.run [.withContext 3 b!"object_number" b!"5", .new b!"IO_ERROR" b!""])[3]? = some c ∧
    c.context.get b!"object_number" = some b!"5" := by
  refine (C159_shared_violated 3 (by decide) b!"object_number" b!"5").2 [.new b!"IO_ERROR" b!""] (by simp) ?_
  intro a k v pre hp
  have hlen := hp.length_le
  have hget : [ErrorContext.Op.withContext 3 b!"object_number" b!"5", .new b!"IO_ERROR" b!""][pre.length]? = some (.withContext a k v) := by
    obtain ⟨r, hr⟩ := hp
    rw [← hr]
    simp
  have hpre := List.prefix_iff_eq_take.1 ((List.prefix_append pre _).trans hp)
  have h2 : pre.length < 2 := by simp at hlen ⊢; omega
  rw [hpre]
  generalize pre.length = n at *
  match n, h2 with
  | 0, _ => simp at hget; rw [← hget.1]; decide
  | 1, _ => simp at hget

end Pdfer.Props
