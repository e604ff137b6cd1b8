import Verif.Proofs.ExtractStream

/-! What a builder stores: fonts and stream dictionaries. -/

namespace Pdfer.Extract

open Pdfer.Go Pdfer.Spec.Extract Pdfer.Builder Pdfer.Writer Pdfer.Spec.Builder

/-! ### Dictionaries handed to the writer stay as they are -/

theorem writeObjs_heap (env : Writer.Env) (hc : env.crypt = none) (skip : Int → Bool) : ∀ (l : List (Int × Obj)) (pos : Nat) (heap : List Dict),
    (writeObjs env skip pos heap l).2.2 = heap := by
  intro l
  induction l with
  | nil => intro pos heap; rfl
  | cons e l ih =>
    intro pos heap
    obtain ⟨n, o⟩ := e
    rw [writeObjs]
    split
    · exact ih pos heap
    · have : (objText env heap n o).2 = heap := by
        unfold objText
        rw [hc]
        split <;> rfl
      simp only [ih, this]

theorem heap_step (env : Writer.Env) (hc : env.crypt = none) (w : Writer) (op : Op) (h : Fresh (.writer op)) :
    ∃ t, (step env w op).1.heap = w.heap ++ t := by
  cases op with
  | addStream d data compress =>
    cases d with
    | fresh d => exact ⟨_, rfl⟩
    | shared a => exact absurd h (by simp [Fresh])
  | setObject n c => exact absurd h (by simp [Fresh])
  | setStream n d data compress => exact absurd h (by simp [Fresh])
  | write =>
    have h1 : ∃ t, (createObjectStreams env w).1.heap = w.heap ++ t := by
      unfold createObjectStreams
      split
      · exact ⟨[], by simp⟩
      · simp only
        split
        · exact ⟨[], by simp⟩
        · exact ⟨_, rfl⟩
    obtain ⟨t, ht⟩ := h1
    refine ⟨t, ?_⟩
    show (write env w).2.heap = _
    unfold write
    simp only
    split <;> simp only [writeObjs_heap env hc, ht]
  | _ => exact ⟨[], by simp [step, addObject]⟩

theorem fresh_adds {op : BOp} (h : Fresh op) : Adds op := by
  cases op with
  | writer op => cases op <;> simp_all [Fresh, Adds]
  | _ => trivial

/-! ### Fonts and data -/

/-- Object `n` is a standard font. -/
def GoodFont (b : Builder.Builder) (n : Int) : Prop :=
  0 < n ∧ n < b.w.nextObjNum ∧ n ≠ b.pagesNum ∧ ∃ name, FontName name ∧ HoldsText b.w n (fontText name)

/-- The object before page `n` holds the compressed content of `p`. -/
def StoredData (env : Builder.Env) (w : Writer) (n : Int) (p : Builder.Page) : Prop :=
  p.content ≠ [] → ∃ a, a < w.heap.length ∧ w.heap.getD a [] = streamDict (env.wenv.z p.content).length ∧
    w.objects.get (n - 1) = some { content := none, stream := some (env.wenv.z p.content), dict := some a }

structure XInv (env : Builder.Env) (b : Builder.Builder) (log : List Builder.Page) : Prop where
  fonts : ∀ p, p ∈ b.drafts ∨ p ∈ log → ∀ e ∈ p.fonts, GoodFont b e.2
  data : InOrder (StoredData env b.w) b.pages log

theorem inOrder_imp {α β : Type} {R S : α → β → Prop} {as : List α} {bs : List β} (h : InOrder R as bs) (hi : ∀ a ∈ as, ∀ b, R a b → S a b) : InOrder S as bs := by
  induction h with
  | nil => exact .nil
  | cons h _ ih => exact .cons (hi _ (by simp) _ h) (ih fun a ha => hi a (by simp [ha]))

theorem data_mono {env : Builder.Env} {w w' : Writer} {n : Int} {p : Builder.Page} (h : StoredData env w n p)
    (ho : w'.objects.get (n - 1) = w.objects.get (n - 1)) (hh : ∃ t, w'.heap = w.heap ++ t) : StoredData env w' n p := by
  intro hp
  obtain ⟨a, h1, h2, h3⟩ := h hp
  obtain ⟨t, ht⟩ := hh
  refine ⟨a, by rw [ht, List.length_append]; omega, ?_, by rw [ho]; exact h3⟩
  rw [ht, List.getD_eq_getElem?_getD, List.getElem?_append_left h1, ← List.getD_eq_getElem?_getD]
  exact h2

/-- The writer grows. -/
theorem xinv_writer {env : Builder.Env} {b : Builder.Builder} {log : List Builder.Page} (hb : BInv env b log) (h : XInv env b log) (w' : Writer)
    (ds : List Builder.Page) (hn : b.w.nextObjNum ≤ w'.nextObjNum)
    (hf : ∀ k, k ≠ b.pagesNum → k < b.w.nextObjNum → w'.objects.get k = b.w.objects.get k) (hh : ∃ t, w'.heap = b.w.heap ++ t)
    (hd : ∀ p ∈ ds, ∀ e ∈ p.fonts, GoodFont b e.2 ∨ GoodFont { b with w := w', drafts := ds } e.2) :
    XInv env { b with w := w', drafts := ds } log := by
  have hg : ∀ n, GoodFont b n → GoodFont { b with w := w', drafts := ds } n := by
    intro n ⟨h1, h2, h3, name, h4, h5⟩
    refine ⟨h1, by show n < w'.nextObjNum; omega, h3, name, h4, ?_⟩
    unfold HoldsText
    show w'.objects.get n = _
    rw [hf n h3 h2]
    exact h5
  refine ⟨?_, inOrder_imp h.data ?_⟩
  · intro p hp e he
    rcases hp with hp | hp
    · rcases hd p hp e he with h1 | h1
      · exact hg _ h1
      · exact h1
    · exact hg _ (h.fonts p (.inr hp) e he)
  · intro n hn p hp
    have := hb.range n hn
    exact data_mono hp (hf (n - 1) (by omega) (by omega)) hh

theorem mem_set {α : Type} {l : List α} {i : Nat} {x y : α} (h : y ∈ l.set i x) : y = x ∨ y ∈ l := by
  rcases List.mem_or_eq_of_mem_set h with h | h
  · exact .inr h
  · exact .inl h

theorem mem_mapSet {m : Map Bytes Int} {k : Bytes} {v : Int} {e : Bytes × Int} (h : e ∈ m.set k v) : e = (k, v) ∨ e ∈ m := by
  unfold Map.set at h
  rcases List.mem_cons.1 h with h | h
  · exact .inl h
  · exact .inr (List.mem_of_mem_filter h)

theorem xinv_draft {env : Builder.Env} {b : Builder.Builder} {log : List Builder.Page} (hb : BInv env b log) (h : XInv env b log) (i : Nat)
    (f : Builder.Page → Builder.Page) (hf : ∀ p, (f p).fonts = p.fonts) : XInv env (onDraft b i f) log := by
  unfold onDraft
  split
  · exact h
  · rename_i p hp
    refine xinv_writer hb h b.w _ (Int.le_refl _) (fun _ _ _ => rfl) ⟨[], by simp⟩ ?_
    intro q hq e he
    rcases mem_set hq with rfl | hq
    · rw [hf] at he
      exact .inl (h.fonts p (.inl (List.mem_of_getElem? hp)) e he)
    · exact .inl (h.fonts q (.inl hq) e he)

theorem xinv_reserve {env : Builder.Env} {b : Builder.Builder} {log : List Builder.Page} (hb : BInv env b log) (h : XInv env b log) :
    XInv env (reservePages b) log := by
  unfold reservePages
  split
  · refine ⟨?_, h.data⟩
    intro p hp e he
    obtain ⟨h1, h2, h3, name, h4, h5⟩ := h.fonts p hp e he
    refine ⟨h1, ?_, ?_, name, h4, h5⟩
    · show e.2 < b.w.nextObjNum + 1; omega
    · show e.2 ≠ b.w.nextObjNum; omega
  · exact h

theorem xinv_finalize {env : Builder.Env} {b : Builder.Builder} {log : List Builder.Page} (hb : BInv env b log) (h : XInv env b log)
    {p : Builder.Page} (hp : p ∈ b.drafts) : XInv env (finalizePage env b p) (log ++ [p]) := by
  obtain ⟨h1, h0⟩ := binv_reserve hb
  have h2 := xinv_reserve hb h
  have hp2 : p ∈ (reservePages b).drafts := by unfold reservePages; split <;> exact hp
  unfold finalizePage
  generalize reservePages b = c at *
  obtain ⟨hi, hn, hpn, hs, hf⟩ := build_spec env c.w p c.pagesNum h1.inv
  simp only
  have hheap : ∃ t, (build env c.w p c.pagesNum).1.heap = c.w.heap ++ t := ⟨_, rfl⟩
  refine ⟨?_, ?_⟩
  · intro q hq e he
    have : q ∈ c.drafts ∨ q ∈ log := by
      rcases hq with hq | hq
      · exact .inl hq
      · rw [List.mem_append, List.mem_singleton] at hq
        rcases hq with hq | rfl
        · exact .inr hq
        · exact .inl hp2
    obtain ⟨g1, g2, g3, name, g4, g5⟩ := h2.fonts q this e he
    refine ⟨g1, by show e.2 < (build env c.w p c.pagesNum).1.nextObjNum; omega, g3, name, g4, ?_⟩
    unfold HoldsText
    show (build env c.w p c.pagesNum).1.objects.get e.2 = _
    rw [hf _ g2]
    exact g5
  · refine inOrder_append (inOrder_imp h2.data ?_) ?_
    · intro n hn q hq
      have := h1.range n hn
      exact data_mono hq (hf (n - 1) (by omega)) hheap
    · intro hc
      have hlen : 0 < p.content.length := List.length_pos_iff.2 hc
      refine ⟨c.w.heap.length, ?_, ?_, ?_⟩
      · show c.w.heap.length < (build env c.w p c.pagesNum).1.heap.length
        simp [build, addObject, addStreamObject, prepareStream]
      · simp [build, addObject, addStreamObject, prepareStream, hc, hlen, streamDict]
      · rw [hpn, show c.w.nextObjNum + 1 - 1 = c.w.nextObjNum by omega]
        show Map.get (Map.set _ (c.w.nextObjNum + 1) _) c.w.nextObjNum = _
        rw [Map.get_set, if_neg (by omega)]
        simp only [addStreamObject]
        rw [Map.get_set, if_pos rfl]
        simp [prepareStream, hc, hlen]

theorem xinv_finish {env : Builder.Env} {b : Builder.Builder} {log : List Builder.Page} (hb : BInv env b log) (h : XInv env b log) :
    XInv env (finish b) log := by
  have hlt := (binv_finish hb).2.2.2.2.2
  have hn1 : (setObject b.w b.pagesNum (some (pagesText b.pages))).nextObjNum = b.w.nextObjNum := by
    simp only [setObject]; rw [if_neg (by omega)]
  refine xinv_writer hb h _ b.drafts ?_ ?_ ⟨[], by simp [setObject, addObject]⟩ (fun p hp e he => .inl (h.fonts p (.inl hp) e he))
  · show b.w.nextObjNum ≤ (setObject b.w b.pagesNum (some (pagesText b.pages))).nextObjNum + 1
    omega
  · intro k hk hkn
    show Map.get (Map.set _ (setObject b.w b.pagesNum (some (pagesText b.pages))).nextObjNum _) k = _
    rw [Map.get_set, if_neg (by rw [hn1]; omega)]
    simp only [setObject]
    rw [Map.get_set, if_neg (by omega)]

theorem xinv_step {env : Builder.Env} (hcr : env.wenv.crypt = none) {b : Builder.Builder} {log : List Builder.Page} (hb : BInv env b log)
    (h : XInv env b log) (op : BOp) (ha : Fresh op) : XInv env (bstep env b op) (log ++ logged b op) := by
  cases op with
  | addPage x y =>
    rw [show logged b (BOp.addPage x y) = [] from rfl, List.append_nil]
    refine xinv_writer hb h b.w _ (Int.le_refl _) (fun _ _ _ => rfl) ⟨[], by simp⟩ ?_
    intro p hp e he
    rw [List.mem_append, List.mem_singleton] at hp
    rcases hp with hp | rfl
    · exact .inl (h.fonts p (.inl hp) e he)
    · simp [newPage] at he
  | font i name =>
    rw [show logged b (BOp.font i name) = [] from rfl, List.append_nil, bstep]
    split
    · exact h
    · rename_i p hp
      have hpm := List.mem_of_getElem? hp
      unfold addStandardFont
      split
      · refine xinv_writer hb h b.w _ (Int.le_refl _) (fun _ _ _ => rfl) ⟨[], by simp⟩ ?_
        intro q hq e he
        rcases mem_set hq with rfl | hq
        · exact .inl (h.fonts _ (.inl hpm) e he)
        · exact .inl (h.fonts q (.inl hq) e he)
      · refine xinv_writer hb h _ _ (next_mono env.wenv b.w (.addObject (some (fontText name))))
          (fun k _ hk => frame_step env.wenv b.w (.addObject (some (fontText name))) trivial k hk) ⟨[], by simp [addObject]⟩ ?_
        intro q hq e he
        rcases mem_set hq with rfl | hq
        · rcases mem_mapSet he with rfl | he
          · right
            have h0 := hb.inv.next_pos
            have hlt : b.pagesNum < b.w.nextObjNum := (binv_finish hb).2.2.2.2.2
            refine ⟨?_, ?_, ?_, name, ha, ?_⟩
            · show 0 < b.w.nextObjNum; omega
            · show b.w.nextObjNum < b.w.nextObjNum + 1; omega
            · show b.w.nextObjNum ≠ b.pagesNum; omega
            · show Map.get (Map.set _ b.w.nextObjNum _) b.w.nextObjNum = _
              rw [Map.get_set, if_pos rfl]
          · exact .inl (h.fonts _ (.inl hpm) e he)
        · exact .inl (h.fonts q (.inl hq) e he)
  | image i name num =>
    rw [show logged b (BOp.image i name num) = [] from rfl, List.append_nil]
    exact xinv_draft hb h i _ (fun p => rfl)
  | embedFont i num => exact absurd ha (by simp [Fresh])
  | draw i text =>
    rw [show logged b (BOp.draw i text) = [] from rfl, List.append_nil]
    exact xinv_draft hb h i _ (fun p => rfl)
  | writer op =>
    rw [show logged b (BOp.writer op) = [] from rfl, List.append_nil]
    exact xinv_writer hb h _ _ (next_mono env.wenv b.w op) (fun k _ hk => frame_step env.wenv b.w op (fresh_adds ha) k hk)
      (heap_step env.wenv hcr b.w op ha) (fun p hp e he => .inl (h.fonts p (.inl hp) e he))
  | finalize i =>
    rw [logged, bstep]
    cases hd : b.drafts[i]? with
    | none => simpa using h
    | some p => exact xinv_finalize hb h (List.mem_of_getElem? hd)
  | bytes =>
    rw [show logged b (BOp.bytes) = [] from rfl, List.append_nil]
    have hf := (binv_finish hb).1
    have hx := xinv_finish hb h
    exact xinv_writer hf hx _ _ (next_mono env.wenv _ .write) (fun k _ hk => frame_step env.wenv _ .write trivial k hk)
      (heap_step env.wenv hcr _ .write trivial) (fun p hp e he => .inl (hx.fonts p (.inl hp) e he))

theorem xinv_foldl (env : Builder.Env) (hcr : env.wenv.crypt = none) (ops : List BOp) (ha : ∀ op ∈ ops, Fresh op) (b : Builder.Builder)
    (log : List Builder.Page) (hb : BInv env b log) (h : XInv env b log) :
    XInv env (ops.foldl (bstep env) b) (log ++ finalisedFrom env b ops) := by
  induction ops generalizing b log with
  | nil => simpa [finalisedFrom] using h
  | cons op ops ih =>
    rw [finalisedFrom_cons, ← List.append_assoc]
    exact ih (fun o ho => ha o (by simp [ho])) _ _ (binv_step hb op (fresh_adds (ha op (by simp)))) (xinv_step hcr hb h op (ha op (by simp)))

theorem xinv_run (env : Builder.Env) (hcr : env.wenv.crypt = none) (ops : List BOp) (ha : ∀ op ∈ ops, Fresh op) :
    XInv env (brun env ops) (finalised env ops) := by
  have := xinv_foldl env hcr ops ha newBuilder [] (binv_new env) ⟨by simp [newBuilder], .nil⟩
  simpa [brun, finalised] using this

end Pdfer.Extract
