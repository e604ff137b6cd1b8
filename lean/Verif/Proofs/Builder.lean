import Verif.Spec.Builder
import Verif.Proofs.Writer

/-! What a builder stores. -/

namespace Pdfer.Builder

open Pdfer.Go Pdfer.Writer Pdfer.Spec.Builder

/-- Calls that never overwrite. -/
theorem frame_step (env : Writer.Env) (w : Writer) (op : Op) (h : Adds (.writer op)) (k : Int) (hk : k < w.nextObjNum) :
    (step env w op).1.objects.get k = w.objects.get k := by
  cases op with
  | addObject c => simp only [step, addObject]; rw [Map.get_set, if_neg (by omega)]
  | addStream d data compress => simp only [step, addStreamObject]; rw [Map.get_set, if_neg (by omega)]
  | setObject n c => exact absurd h (by simp [Adds])
  | setStream n d data compress => exact absurd h (by simp [Adds])
  | write =>
    simp only [step]
    have hc : (createObjectStreams env w).1.objects.get k = w.objects.get k := by
      rcases create_cases env w with ⟨h1, _⟩ | ⟨_, o, h1, h2⟩
      · rw [h1]
      · rw [h1, Map.get_set, if_neg (by omega)]
    have : (write env w).2.objects = (createObjectStreams env w).1.objects := by
      unfold write
      simp only
      split <;> rfl
    rw [this, hc]
  | _ => rfl

structure BInv (env : Env) (b : Builder) (log : List Page) : Prop where
  inv : Inv b.w
  num : (b.pagesNum = 0 ∧ b.pages = []) ∨ (0 < b.pagesNum ∧ b.pagesNum < b.w.nextObjNum)
  stored : InOrder (StoredPage env b.w b.pagesNum) b.pages log
  range : ∀ n ∈ b.pages, b.pagesNum + 1 < n ∧ n < b.w.nextObjNum
  inc : b.pages.Pairwise (· < ·)

theorem stored_congr {env : Env} {w w' : Writer} {parent : Int} {pages : List Int} {log : List Page}
    (h : InOrder (StoredPage env w parent) pages log)
    (hf : ∀ n ∈ pages, w'.objects.get n = w.objects.get n ∧ w'.objects.get (n - 1) = w.objects.get (n - 1)) :
    InOrder (StoredPage env w' parent) pages log := by
  induction h with
  | nil => exact .nil
  | @cons n p ns ps h _ ih =>
    refine .cons ?_ (ih fun m hm => hf m (by simp [hm]))
    obtain ⟨c, rfl, ht, o, ho, hs⟩ := h
    obtain ⟨h1, h2⟩ := hf (c + 1) (by simp)
    rw [show c + 1 - 1 = c by omega] at h2
    exact ⟨c, rfl, by unfold HoldsText; rw [h1]; exact ht, o, by rw [h2]; exact ho, hs⟩

/-- The writer changes, but not below its counter. -/
theorem binv_writer {env : Env} {b : Builder} {log : List Page} (h : BInv env b log) (w' : Writer) (ds : List Page) (hi : Inv w')
    (hn : b.w.nextObjNum ≤ w'.nextObjNum) (hf : ∀ k, k ≠ b.pagesNum → k < b.w.nextObjNum → w'.objects.get k = b.w.objects.get k) :
    BInv env { b with w := w', drafts := ds } log := by
  refine ⟨hi, ?_, stored_congr h.stored ?_, ?_, h.inc⟩
  · rcases h.num with h1 | h1
    · exact .inl h1
    · exact .inr ⟨h1.1, by have := h1.2; show b.pagesNum < w'.nextObjNum; omega⟩
  · intro n hn
    have := h.range n hn
    exact ⟨hf n (by omega) (by omega), hf (n - 1) (by omega) (by omega)⟩
  · intro n hn
    have := h.range n hn
    exact ⟨this.1, by show n < w'.nextObjNum; omega⟩

theorem binv_reserve {env : Env} {b : Builder} {log : List Page} (h : BInv env b log) :
    BInv env (reservePages b) log ∧ (reservePages b).pagesNum ≠ 0 := by
  unfold reservePages
  split
  · rename_i h0
    rcases h.num with ⟨_, h2⟩ | h2
    · have hl : log = [] := by have := h.stored; rw [h2] at this; cases this; rfl
      have hp := h.inv.next_pos
      refine ⟨⟨inv_same h.inv rfl (by show b.w.nextObjNum ≤ b.w.nextObjNum + 1; omega), .inr ⟨?_, ?_⟩, ?_, ?_, ?_⟩, ?_⟩
      · show 0 < b.w.nextObjNum; omega
      · show b.w.nextObjNum < b.w.nextObjNum + 1; omega
      · simp only [h2, hl]; exact .nil
      · simp only [h2]; simp
      · simp only [h2]; exact .nil
      · show b.w.nextObjNum ≠ 0; omega
    · omega
  · rename_i h0; exact ⟨h, h0⟩

theorem inOrder_append {α β : Type} {R : α → β → Prop} {as : List α} {bs : List β} (h : InOrder R as bs) {a : α} {b : β}
    (hab : R a b) : InOrder R (as ++ [a]) (bs ++ [b]) := by
  induction h with
  | nil => exact .cons hab .nil
  | cons h _ ih => exact .cons h ih

theorem build_spec (env : Env) (w : Writer) (p : Page) (parent : Int) (hi : Inv w) :
    let r := build env w p parent
    Inv r.1 ∧ r.1.nextObjNum = w.nextObjNum + 2 ∧ r.2.2 = w.nextObjNum + 1 ∧ StoredPage env r.1 parent r.2.2 p ∧
      ∀ k, k < w.nextObjNum → r.1.objects.get k = w.objects.get k := by
  intro r
  have h1 : Inv (addStreamObject env.wenv w (.fresh []) (if p.content = [] then none else some p.content) true).1 :=
    inv_step env.wenv w (.addStream (.fresh []) (if p.content = [] then none else some p.content) true) hi
  have h2 : Inv r.1 := inv_step env.wenv _ (.addObject _) h1
  refine ⟨h2, ?_, rfl, ?_, ?_⟩
  · show w.nextObjNum + 1 + 1 = _; omega
  · refine ⟨w.nextObjNum, rfl, ?_, ?_⟩
    · show Map.get (Map.set _ (w.nextObjNum + 1) _) (w.nextObjNum + 1) = _
      rw [Map.get_set, if_pos rfl]
      rfl
    · have : r.1.objects.get w.nextObjNum =
          (addStreamObject env.wenv w (.fresh []) (if p.content = [] then none else some p.content) true).1.objects.get w.nextObjNum := by
        show Map.get (Map.set _ (w.nextObjNum + 1) _) w.nextObjNum = _
        rw [Map.get_set, if_neg (by omega)]
      rw [this]
      simp only [addStreamObject]
      rw [Map.get_set, if_pos rfl]
      refine ⟨_, rfl, rfl, ?_⟩
      simp only [prepareStream]
      by_cases hc : p.content = []
      · simp [hc]
      · have : 0 < p.content.length := List.length_pos_iff.2 hc
        simp [hc, this]
  · intro k hk
    show Map.get (Map.set _ (w.nextObjNum + 1) _) k = _
    rw [Map.get_set, if_neg (by omega)]
    simp only [addStreamObject]
    rw [Map.get_set, if_neg (by omega)]

theorem binv_finalize {env : Env} {b : Builder} {log : List Page} (h : BInv env b log) (p : Page) :
    BInv env (finalizePage env b p) (log ++ [p]) := by
  obtain ⟨h1, h0⟩ := binv_reserve h
  unfold finalizePage
  generalize reservePages b = c at *
  obtain ⟨hi, hn, hp, hs, hf⟩ := build_spec env c.w p c.pagesNum h1.inv
  simp only
  have hnum : 0 < c.pagesNum ∧ c.pagesNum < c.w.nextObjNum := by
    rcases h1.num with h2 | h2
    · exact absurd h2.1 h0
    · exact h2
  refine ⟨hi, .inr ⟨hnum.1, ?_⟩, ?_, ?_, ?_⟩
  · simp only; rw [hn]; omega
  · refine inOrder_append (stored_congr h1.stored ?_) hs
    intro n hn
    have := h1.range n hn
    exact ⟨hf n (by omega), hf (n - 1) (by omega)⟩
  · intro n hm
    simp only [List.mem_append, List.mem_singleton] at hm
    simp only
    rw [hn]
    rcases hm with hm | rfl
    · have := h1.range n hm; omega
    · rw [hp]; omega
  · rw [List.pairwise_append]
    refine ⟨h1.inc, by simp, ?_⟩
    intro x hx y hy
    simp only [List.mem_singleton] at hy
    subst hy
    have := h1.range x hx
    rw [hp]; omega

/-- What `Bytes` stores before it writes. -/
theorem binv_finish {env : Env} {b : Builder} {log : List Page} (h : BInv env b log) :
    BInv env (finish b) log ∧ (finish b).w.rootRef = ref b.w.nextObjNum ∧ (finish b).w.nextObjNum = b.w.nextObjNum + 1 ∧
      HoldsText (finish b).w b.w.nextObjNum (catalogText b.pagesNum) ∧
      HoldsText (finish b).w b.pagesNum (pagesText b.pages) ∧ b.pagesNum < b.w.nextObjNum := by
  have hp := h.inv.next_pos
  have hlt : b.pagesNum < b.w.nextObjNum := by
    rcases h.num with h1 | h1 <;> omega
  have hn1 : (setObject b.w b.pagesNum (some (pagesText b.pages))).nextObjNum = b.w.nextObjNum := by
    simp only [setObject]; rw [if_neg (by omega)]
  have hi1 : Inv (setObject b.w b.pagesNum (some (pagesText b.pages))) := inv_step env.wenv b.w (.setObject b.pagesNum (some (pagesText b.pages))) h.inv
  have hi2 := inv_step env.wenv _ (.addObject (some (catalogText b.pagesNum))) hi1
  refine ⟨?_, ?_, ?_, ?_, ?_, hlt⟩
  · refine binv_writer h _ b.drafts ?_ ?_ ?_
    · exact inv_same hi2 rfl (Int.le_refl _)
    · show b.w.nextObjNum ≤ (setObject b.w b.pagesNum (some (pagesText b.pages))).nextObjNum + 1
      omega
    · intro k hk hkn
      show Map.get (Map.set _ (setObject b.w b.pagesNum (some (pagesText b.pages))).nextObjNum _) k = _
      rw [Map.get_set, if_neg (by rw [hn1]; omega)]
      simp only [setObject]
      rw [Map.get_set, if_neg (by omega)]
  · show ref (setObject b.w b.pagesNum (some (pagesText b.pages))).nextObjNum = _
    rw [hn1]
  · show (setObject b.w b.pagesNum (some (pagesText b.pages))).nextObjNum + 1 = _
    rw [hn1]
  · unfold HoldsText
    show Map.get (Map.set _ (setObject b.w b.pagesNum (some (pagesText b.pages))).nextObjNum _) _ = _
    rw [hn1, Map.get_set, if_pos rfl]
  · unfold HoldsText
    show Map.get (Map.set _ (setObject b.w b.pagesNum (some (pagesText b.pages))).nextObjNum _) _ = _
    rw [Map.get_set, if_neg (by rw [hn1]; omega)]
    simp only [setObject]
    rw [Map.get_set, if_pos rfl]

theorem binv_draft {env : Env} {b : Builder} {log : List Page} (h : BInv env b log) (i : Nat) (f : Page → Page) :
    BInv env (onDraft b i f) log := by
  unfold onDraft
  split
  · exact h
  · exact binv_writer h b.w _ h.inv (Int.le_refl _) (fun _ _ _ => rfl)

/-- The part of the log a call adds. -/
def logged (b : Builder) : BOp → List Page
  | .finalize i => b.drafts[i]?.toList
  | _ => []

theorem binv_step {env : Env} {b : Builder} {log : List Page} (h : BInv env b log) (op : BOp) (ha : Adds op) :
    BInv env (bstep env b op) (log ++ logged b op) := by
  cases op with
  | addPage x y => rw [show logged b (BOp.addPage x y) = [] from rfl, List.append_nil]; exact binv_writer h b.w _ h.inv (Int.le_refl _) (fun _ _ _ => rfl)
  | font i name =>
    rw [show logged b (BOp.font i name) = [] from rfl, List.append_nil, bstep]
    split
    · exact h
    · rename_i p _
      unfold addStandardFont
      split
      · exact binv_writer h b.w _ h.inv (Int.le_refl _) (fun _ _ _ => rfl)
      · exact binv_writer h _ _ (inv_step env.wenv b.w (.addObject (some (fontText name))) h.inv)
          (next_mono env.wenv b.w (.addObject (some (fontText name))))
          (fun k _ hk => frame_step env.wenv b.w (.addObject (some (fontText name))) trivial k hk)
  | image i name num => rw [show logged b (BOp.image i name num) = [] from rfl, List.append_nil]; exact binv_draft h i _
  | embedFont i num => rw [show logged b (BOp.embedFont i num) = [] from rfl, List.append_nil]; exact binv_draft h i _
  | draw i text => rw [show logged b (BOp.draw i text) = [] from rfl, List.append_nil]; exact binv_draft h i _
  | writer op =>
    rw [show logged b (BOp.writer op) = [] from rfl, List.append_nil]
    exact binv_writer h _ _ (inv_step env.wenv b.w op h.inv) (next_mono env.wenv b.w op) (fun k _ hk => frame_step env.wenv b.w op ha k hk)
  | finalize i =>
    rw [logged, bstep]
    cases hd : b.drafts[i]? with
    | none => simpa using h
    | some p => exact binv_finalize h p
  | bytes =>
    rw [show logged b (BOp.bytes) = [] from rfl, List.append_nil]
    have hf := (binv_finish h).1
    exact binv_writer hf _ _ (inv_step env.wenv _ .write hf.inv) (next_mono env.wenv _ .write)
      (fun k _ hk => frame_step env.wenv _ .write trivial k hk)

theorem binv_new (env : Env) : BInv env newBuilder [] :=
  ⟨inv_new, .inl ⟨rfl, rfl⟩, .nil, by simp [newBuilder], .nil⟩

theorem finalisedFrom_cons (env : Env) (b : Builder) (op : BOp) (ops : List BOp) :
    finalisedFrom env b (op :: ops) = logged b op ++ finalisedFrom env (bstep env b op) ops := by
  cases op <;> rfl

theorem binv_foldl (env : Env) (ops : List BOp) (ha : ∀ op ∈ ops, Adds op) (b : Builder) (log : List Page) (h : BInv env b log) :
    BInv env (ops.foldl (bstep env) b) (log ++ finalisedFrom env b ops) := by
  induction ops generalizing b log with
  | nil => simpa [finalisedFrom] using h
  | cons op ops ih =>
    rw [finalisedFrom_cons, ← List.append_assoc]
    exact ih (fun o ho => ha o (by simp [ho])) _ _ (binv_step h op (ha op (by simp)))

theorem binv_run (env : Env) (ops : List BOp) (ha : ∀ op ∈ ops, Adds op) : BInv env (brun env ops) (finalised env ops) := by
  have := binv_foldl env ops ha newBuilder [] (binv_new env)
  rw [List.nil_append] at this
  exact this

end Pdfer.Builder
