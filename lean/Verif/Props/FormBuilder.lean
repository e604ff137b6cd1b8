import Verif.Model.FormBuilder
import Verif.Props.Builder

/-! C114: a form built with a document. -/

namespace Pdfer.Props

open Pdfer.Go Pdfer.Writer Pdfer.Builder Pdfer.Forms Pdfer.FormBuilder Pdfer.Spec.Builder Pdfer.Manipulate
open Pdfer.Crypto (avoid_noOcc avoid_append avoid_clash)

/-- The calls are those of C84: none stores an object under a number chosen by the caller. -/
def FAdds : FOp → Prop
  | .doc op => Adds op
  | .form _ => True

theorem foldl_adds (env : Builder.Env) (texts : List Bytes) (b : Builder) :
    (texts.map fun t => BOp.writer (.addObject (some t))).foldl (bstep env) b =
      { b with w := texts.foldl (fun w t => (addObject w (some t)).1) b.w } := by
  induction texts generalizing b with
  | nil => rfl
  | cons t ts ih => simp only [List.map_cons, List.foldl_cons]; rw [ih]; rfl

/-- `BuildForm` is a sequence of calls of the writer. -/
theorem buildForm_ops (env : Builder.Env) (fs : List FieldDef) (b : Builder) :
    ∃ ops : List BOp, (∀ op ∈ ops, Adds op ∧ op ≠ .bytes) ∧ fstep env b (.form fs) = ops.foldl (bstep env) b := by
  cases ht : buildTexts fs b.w.nextObjNum with
  | none => exact ⟨[], by simp, by simp [fstep, buildForm, ht]⟩
  | some texts =>
    refine ⟨(texts.map fun t => BOp.writer (.addObject (some t))) ++
      [.writer (.addObject (some (formCatalog b.pagesNum ((texts.foldl (fun w t => (addObject w (some t)).1) b.w).nextObjNum - 1)))),
       .writer (.setRoot (texts.foldl (fun w t => (addObject w (some t)).1) b.w).nextObjNum)], ?_, ?_⟩
    · intro op hop
      simp only [List.mem_append, List.mem_map, List.mem_cons, List.not_mem_nil, or_false] at hop
      rcases hop with ⟨t, _, rfl⟩ | rfl | rfl <;> exact ⟨trivial, by simp⟩
    · rw [List.foldl_append, foldl_adds]
      simp only [fstep, buildForm, ht, Option.map_some]
      rfl

theorem frun_ops (env : Builder.Env) (ops : List FOp) (h : ∀ op ∈ ops, FAdds op) :
    ∃ bops : List BOp, (∀ op ∈ bops, Adds op) ∧ ((∀ op ∈ ops, op ≠ .doc .bytes) → ∀ op ∈ bops, op ≠ .bytes) ∧ frun env ops = brun env bops := by
  have key : ∀ (ops : List FOp) (b : Builder), (∀ op ∈ ops, FAdds op) →
      ∃ bops : List BOp, (∀ op ∈ bops, Adds op) ∧ ((∀ op ∈ ops, op ≠ .doc .bytes) → ∀ op ∈ bops, op ≠ .bytes) ∧
        ops.foldl (fstep env) b = bops.foldl (bstep env) b := by
    intro ops
    induction ops with
    | nil => exact fun b _ => ⟨[], by simp, by simp, rfl⟩
    | cons op ops ih =>
      intro b h
      have h1 := h op (by simp)
      obtain ⟨l2, a2, n2, e2⟩ := ih (fstep env b op) (fun o ho => h o (by simp [ho]))
      cases op with
      | doc op =>
        refine ⟨op :: l2, ?_, ?_, by simp only [List.foldl_cons]; rw [e2]; rfl⟩
        · intro o ho
          rcases List.mem_cons.1 ho with rfl | ho
          · exact h1
          · exact a2 o ho
        · intro hb o ho
          rcases List.mem_cons.1 ho with rfl | ho
          · intro hc; exact hb _ (List.mem_cons_self ..) (by rw [hc])
          · exact n2 (fun o ho => hb o (List.mem_cons_of_mem _ ho)) o ho
      | form fs =>
        obtain ⟨l1, a1, e1⟩ := buildForm_ops env fs b
        refine ⟨l1 ++ l2, ?_, ?_, by simp only [List.foldl_cons, List.foldl_append]; rw [e2, e1]⟩
        · intro o ho
          rcases List.mem_append.1 ho with ho | ho
          · exact (a1 o ho).1
          · exact a2 o ho
        · intro hb o ho
          rcases List.mem_append.1 ho with ho | ho
          · exact (a1 o ho).2
          · exact n2 (fun o ho => hb o (List.mem_cons_of_mem _ ho)) o ho
  exact key ops newBuilder h

theorem catalog_no_form (n : Int) : ¬ b!"/AcroForm" <:+: catalogText n := by
  rw [← noOcc_iff_infix]
  refine avoid_noOcc ?_ (by decide)
  unfold catalogText
  exact avoid_append (avoid_append (avoid_clash (by decide)) (avoid_ref (by decide) (by decide) (by decide) (by decide) n)) (avoid_clash (by decide))

/-- C114: the form is lost in every document that the builder writes: whatever pages, fields and forms were added and in whatever order, when
`Bytes` writes the document its root is a catalog without a form. -/
theorem C114_lost_violated (env : Builder.Env) (ops : List FOp) (h : ∀ op ∈ ops, FAdds op) :
    let w := (finish (frun env ops)).w
    ∃ root text, w.rootRef = ref root ∧ HoldsText w root text ∧ ¬ b!"/AcroForm" <:+: text := by
  obtain ⟨bops, ha, _, he⟩ := frun_ops env ops h
  intro w
  obtain ⟨root, hr, hc, _⟩ := C84_built_document env bops ha
  exact ⟨root, _, by rw [← he] at hr; exact hr, by rw [← he] at hc; exact hc, catalog_no_form _⟩

/-- The number of the page tree has no object yet. -/
structure NoTree (b : Builder) : Prop where
  inv : Inv b.w
  none : b.w.objects.get b.pagesNum = none
  lt : b.pagesNum < b.w.nextObjNum
  zero : ∀ n ∈ b.w.objects.keys, 0 < n

theorem get_fresh {w : Writer} (h : Inv w) : w.objects.get w.nextObjNum = none := by
  rw [Map.get_none_iff]
  intro hm
  exact absurd (h.lt_next _ hm) (by omega)

theorem pos_step (env : Writer.Env) (w : Writer) (op : Op) (ha : Adds (.writer op)) (hi : Inv w) (h : ∀ n ∈ w.objects.keys, 0 < n) :
    ∀ n ∈ (step env w op).1.objects.keys, 0 < n := by
  intro n hn
  have hp := hi.next_pos
  by_cases hlt : n < w.nextObjNum
  · have := frame_step env w op ha n hlt
    apply h
    rw [← Map.get_isSome_iff] at hn ⊢
    rw [this] at hn
    exact hn
  · omega

theorem noTree_writer {b : Builder} (h : NoTree b) (env : Writer.Env) (op : Op) (ha : Adds (.writer op)) (ds : List Page) (ps : List Int) :
    NoTree { b with w := (step env b.w op).1, drafts := ds, pages := ps } where
  inv := inv_step env b.w op h.inv
  none := by
    show (step env b.w op).1.objects.get b.pagesNum = _
    rw [frame_step env b.w op ha _ h.lt]; exact h.none
  lt := by have := next_mono env b.w op; have := h.lt; show b.pagesNum < (step env b.w op).1.nextObjNum; omega
  zero := pos_step env b.w op ha h.inv h.zero

theorem noTree_step (env : Builder.Env) {b : Builder} (h : NoTree b) (op : BOp) (ha : Adds op) (hb : op ≠ .bytes) : NoTree (bstep env b op) := by
  have same : ∀ ds ps, NoTree { b with drafts := ds, pages := ps } := fun ds ps => ⟨h.inv, h.none, h.lt, h.zero⟩
  have draft : ∀ i f, NoTree (onDraft b i f) := by
    intro i f
    unfold onDraft
    split
    · exact h
    · exact same _ b.pages
  cases op with
  | addPage x y => exact same _ b.pages
  | font i name =>
    rw [bstep]
    split
    · exact h
    · unfold addStandardFont
      split
      · exact same _ b.pages
      · exact noTree_writer h env.wenv (.addObject (some (fontText name))) trivial _ b.pages
  | image i name num => exact draft i _
  | embedFont i num => exact draft i _
  | draw i text => exact draft i _
  | writer op => exact noTree_writer h env.wenv op ha b.drafts b.pages
  | finalize i =>
    rw [bstep]
    split
    · exact h
    · rename_i p _
      have hr : NoTree (reservePages b) := by
        unfold reservePages
        split
        · refine ⟨inv_same h.inv rfl (by show b.w.nextObjNum ≤ b.w.nextObjNum + 1; omega), get_fresh h.inv, by show b.w.nextObjNum < b.w.nextObjNum + 1; omega, h.zero⟩
        · exact h
      unfold finalizePage build
      have h1 := noTree_writer hr env.wenv (.addStream (.fresh []) (if p.content = [] then none else some p.content) true) trivial (reservePages b).drafts (reservePages b).pages
      exact noTree_writer h1 env.wenv (.addObject (some _)) trivial _ _
  | bytes => exact absurd rfl hb

/-- C114: nor does it help to write with the builder's writer after `BuildForm`: in every history without `Bytes`, the page tree that the
catalog of `BuildForm` names is not an object of the file; and before the first page is finalised the number named is 0. -/
theorem C114_tree_violated (env : Builder.Env) (ops : List FOp) (h : ∀ op ∈ ops, FAdds op) (hb : ∀ op ∈ ops, op ≠ .doc .bytes) (fs : List FieldDef)
    (b : Builder) (form : Int) (he : buildForm fs (frun env ops) = some (b, form)) :
    ∃ root, b.w.rootRef = ref root ∧ HoldsText b.w root (b!"<</Type/Catalog/Pages " ++ ref b.pagesNum ++ b!"/AcroForm " ++ ref form ++ b!">>") ∧
      b.w.objects.get b.pagesNum = none := by
  obtain ⟨bops, ha, hn, e⟩ := frun_ops env (ops ++ [.form fs]) (by
    intro op hop
    rcases List.mem_append.1 hop with hop | hop
    · exact h op hop
    · simp at hop; subst hop; trivial)
  have hnb := hn (by
    intro op hop
    rcases List.mem_append.1 hop with hop | hop
    · exact hb op hop
    · simp at hop; subst hop; simp)
  have e2 : frun env (ops ++ [.form fs]) = b := by
    unfold frun
    rw [List.foldl_append]
    show fstep env (frun env ops) (.form fs) = b
    simp only [fstep, he]
  have hno : NoTree (brun env bops) := by
    have : ∀ (l : List BOp) (c : Builder), NoTree c → (∀ op ∈ l, Adds op) → (∀ op ∈ l, op ≠ .bytes) → NoTree (l.foldl (bstep env) c) := by
      intro l
      induction l with
      | nil => exact fun c hc _ _ => hc
      | cons op l ih =>
        intro c hc h1 h2
        exact ih _ (noTree_step env hc op (h1 op (by simp)) (h2 op (by simp))) (fun o ho => h1 o (by simp [ho])) (fun o ho => h2 o (by simp [ho]))
    exact this bops newBuilder ⟨inv_new, rfl, by decide, by simp [newBuilder, newWriter, Map.keys]⟩ ha hnb
  rw [← e, e2] at hno
  unfold buildForm at he
  cases ht : buildTexts fs (frun env ops).w.nextObjNum with
  | none => rw [ht] at he; simp at he
  | some texts =>
    rw [ht] at he
    simp only [Option.map_some, Option.some.injEq, Prod.mk.injEq] at he
    obtain ⟨rfl, rfl⟩ := he
    refine ⟨_, rfl, ?_, hno.none⟩
    unfold HoldsText
    simp only [addObject]
    rw [Map.get_set, if_pos rfl]
    rfl

theorem adds_all (texts : List Bytes) (w : Writer) (hw : Inv w) :
    let w' := texts.foldl (fun w t => (addObject w (some t)).1) w
    Inv w' ∧ w'.nextObjNum = w.nextObjNum + texts.length ∧ (∀ k, k < w.nextObjNum → w'.objects.get k = w.objects.get k) ∧
      ∀ (i : Nat) (t : Bytes), texts[i]? = some t → HoldsText w' (w.nextObjNum + i) t := by
  induction texts generalizing w with
  | nil => exact ⟨hw, by simp, fun _ _ => rfl, by simp⟩
  | cons t ts ih =>
    have hi : Inv (addObject w (some t)).1 := inv_objects_set hw w.nextObjNum (w.nextObjNum + 1) _ (by omega) (by omega) _ rfl rfl
    have hn : (addObject w (some t)).1.nextObjNum = w.nextObjNum + 1 := rfl
    obtain ⟨h1, h2, h3, h4⟩ := ih (addObject w (some t)).1 hi
    refine ⟨h1, by simp only [List.foldl_cons, List.length_cons] at h2 ⊢; rw [h2, hn]; omega, ?_, ?_⟩
    · intro k hk
      simp only [List.foldl_cons]
      rw [h3 k (by rw [hn]; omega)]
      simp only [addObject]
      rw [Map.get_set, if_neg (by omega)]
    · intro i t' hi'
      simp only [List.foldl_cons]
      cases i with
      | zero =>
        simp only [List.getElem?_cons_zero, Option.some.injEq] at hi'
        subst hi'
        unfold HoldsText
        rw [h3 _ (by rw [hn]; omega)]
        simp only [addObject]
        rw [Map.get_set, if_pos (by omega)]
      | succ i =>
        have := h4 i t' (by simpa using hi')
        rw [hn] at this
        rw [show w.nextObjNum + ((i + 1 : Nat) : Int) = w.nextObjNum + 1 + (i : Int) by omega]
        exact this

/-- C114 (partial: the form is built after a first `Bytes`, whose result is thrown away, and the document is then written with the writer): the
root is a catalog that names the page tree and the form; the page tree lists the finalised pages; the form lists the fields in the order they
were added, and every field is stored with what was set for it. -/
theorem C114_second_write_partial (env : Builder.Env) (ops : List FOp) (h : ∀ op ∈ ops, FAdds op) (fs : List FieldDef) (b : Builder) (form : Int)
    (he : buildForm fs (frun env (ops ++ [.doc .bytes])) = some (b, form)) :
    ∃ root nums, b.w.rootRef = ref root ∧ HoldsText b.w root (b!"<</Type/Catalog/Pages " ++ ref b.pagesNum ++ b!"/AcroForm " ++ ref form ++ b!">>") ∧
      HoldsText b.w b.pagesNum (pagesText (frun env ops).pages) ∧
      HoldsText b.w form (formText nums) ∧ InOrder (fun n f => HoldsText b.w n (fieldText f)) nums fs := by
  obtain ⟨bops, ha, _, e⟩ := frun_ops env ops h
  have e2 : frun env (ops ++ [.doc .bytes]) = (bytes env (frun env ops)).2 := by
    unfold frun; rw [List.foldl_append]; rfl
  have hb := binv_run env bops ha
  rw [← e] at hb
  obtain ⟨hf, _, hn, _, hp, hlt⟩ := binv_finish hb
  rw [e2] at he
  generalize hB : (bytes env (frun env ops)).2 = B at he
  have hBw : B.w = (step env.wenv (finish (frun env ops)).w .write).1 := by rw [← hB]; rfl
  have hBp : B.pagesNum = (frun env ops).pagesNum := by rw [← hB]; rfl
  have hBi : Inv B.w := by rw [hBw]; exact inv_step env.wenv _ .write hf.inv
  have hBn : (finish (frun env ops)).w.nextObjNum ≤ B.w.nextObjNum := by rw [hBw]; exact next_mono env.wenv _ .write
  have hBtree : HoldsText B.w B.pagesNum (pagesText (frun env ops).pages) := by
    unfold HoldsText
    rw [hBw, hBp, frame_step env.wenv _ .write trivial _ (by rw [hn]; omega)]
    exact hp
  have hBlt : B.pagesNum < B.w.nextObjNum := by rw [hBp]; omega
  clear hBw hBp hB
  unfold buildForm at he
  by_cases hfs : fs = []
  · simp [buildTexts, hfs] at he
  · simp only [buildTexts, if_neg hfs, Option.map_some, Option.some.injEq, Prod.mk.injEq] at he
    obtain ⟨h1, h2, h3, h4⟩ := adds_all (fs.map fieldText ++ [formText ((List.range fs.length).map fun (i : Nat) => B.w.nextObjNum + (i : Int))]) B.w hBi
    generalize List.foldl (fun w t => (addObject w (some t)).1) B.w
      (fs.map fieldText ++ [formText ((List.range fs.length).map fun (i : Nat) => B.w.nextObjNum + (i : Int))]) = W at *
    obtain ⟨rfl, rfl⟩ := he
    have keep : ∀ k t, k < W.nextObjNum → HoldsText W k t →
        HoldsText { (addObject W (some (formCatalog B.pagesNum (W.nextObjNum - 1)))).1 with rootRef := ref (addObject W (some (formCatalog B.pagesNum (W.nextObjNum - 1)))).2 } k t := by
      intro k t hk ht
      unfold HoldsText at *
      simp only [addObject]
      rw [Map.get_set, if_neg (by omega)]
      exact ht
    simp only [List.length_append, List.length_map, List.length_cons, List.length_nil] at h2
    refine ⟨W.nextObjNum, (List.range fs.length).map fun (i : Nat) => B.w.nextObjNum + (i : Int), rfl, ?_, ?_, ?_, ?_⟩
    · unfold HoldsText
      simp only [addObject]
      rw [Map.get_set, if_pos rfl]
      rfl
    · refine keep B.pagesNum _ (by omega) ?_
      unfold HoldsText at *
      rw [h3 _ hBlt]
      exact hBtree
    · refine keep _ _ (by omega) ?_
      have := h4 fs.length (formText ((List.range fs.length).map fun (i : Nat) => B.w.nextObjNum + (i : Int)))
        (by rw [List.getElem?_append_right (by simp)]; simp)
      rw [show W.nextObjNum - 1 = B.w.nextObjNum + (fs.length : Int) by omega]
      exact this
    · have key : ∀ (l : List FieldDef) (k : Nat), (∀ i f, l[i]? = some f → HoldsText { (addObject W (some (formCatalog B.pagesNum (W.nextObjNum - 1)))).1 with rootRef := ref (addObject W (some (formCatalog B.pagesNum (W.nextObjNum - 1)))).2 } (B.w.nextObjNum + ((k + i : Nat) : Int)) (fieldText f)) →
          InOrder (fun n f => HoldsText { (addObject W (some (formCatalog B.pagesNum (W.nextObjNum - 1)))).1 with rootRef := ref (addObject W (some (formCatalog B.pagesNum (W.nextObjNum - 1)))).2 } n (fieldText f))
            ((List.range' k l.length).map fun (i : Nat) => B.w.nextObjNum + (i : Int)) l := by
        intro l
        induction l with
        | nil => intro k _; exact .nil
        | cons f l ih =>
          intro k hk
          simp only [List.length_cons, List.range'_succ, List.map_cons]
          refine .cons (by simpa using hk 0 f rfl) (ih (k + 1) fun i g hg => ?_)
          have := hk (i + 1) g (by simpa using hg)
          rw [show k + 1 + i = k + (i + 1) by omega]
          exact this
      have := key fs 0 (by
        intro i f hi
        have hl : i < fs.length := by
          rcases Nat.lt_or_ge i fs.length with h | h
          · exact h
          · rw [List.getElem?_eq_none h] at hi; cases hi
        have := h4 i (fieldText f) (by
          rw [List.getElem?_append_left (by simpa using hl), List.getElem?_map, hi]; rfl)
        refine keep _ _ (by omega) ?_
        simpa using this)
      rw [← List.range_eq_range'] at this
      exact this

/-- C114: the fields are on no page: no page that the builder writes lists annotations, whatever is on it (plain resource names that do not begin
with `Annots`). -/
theorem C114_widgets_violated (ord : List (Bytes × Int) → List (Bytes × Int)) (hord : ∀ l, (ord l).Perm l) (parent contents : Int) (p : Page)
    (hp : PlainPage p) (ha : ∀ e ∈ p.fonts ++ p.images, ¬ b!"Annots" <+: e.1) : ¬ b!"/Annots" <:+: pageText ord parent contents p := by
  rw [← noOcc_iff_infix, pageText_eq]
  refine avoid_noOcc (avoid_append (avoid_clash (by decide)) ?_) (by decide)
  apply avoid_pageRest (by decide) (by decide) (by decide) (by decide) ord hord parent contents p hp ?_ (by decide) (by decide)
    (by decide) (by decide) (by decide) (by decide) (by decide)
  intro e he
  exact avoid_entry_key (by decide) (hp.2 e he).1 (ha e he)

/-- A field on the example document of C84. -/
def fbOps : List FOp := exBOps.map .doc ++ [.form [textField b!"a" []]]

theorem fbOps_adds : ∀ op ∈ fbOps, FAdds op := by
  intro op hop
  rcases List.mem_append.1 hop with h | h
  · obtain ⟨o, ho, rfl⟩ := List.mem_map.1 h
    exact exBOps_adds o ho
  · simp at h; subst h; trivial

/-- The hypotheses of the theorems hold for it: a document of two pages. -/
example : (frun exBEnv fbOps).pages.length = 2 ∧ (buildForm [textField b!"b" []] (frun exBEnv (fbOps ++ [.doc .bytes]))).isSome ∧
    (buildForm [textField b!"b" []] (frun exBEnv fbOps)).isSome ∧ ∀ op ∈ fbOps, op ≠ .doc .bytes := by
  refine ⟨by decide +kernel, by decide +kernel, by decide +kernel, ?_⟩
  intro op hop
  rcases List.mem_append.1 hop with h | h
  · obtain ⟨o, ho, rfl⟩ := List.mem_map.1 h
    intro hc
    cases hc
    revert ho
    simp [exBOps]
  · simp at h; subst h; simp

end Pdfer.Props
