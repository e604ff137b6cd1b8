import Verif.Spec.Standalone
import Verif.Proofs.Standalone
import Verif.Props.Forms
import Verif.Props.Embed

/-! C29, C67: the stand-alone reader and the form parser on written files; C48: the values of a form. -/

namespace Pdfer.Props

open Pdfer.Go Pdfer.Forms Pdfer.Spec Pdfer.Spec.Forms

/-! ### C29: the stand-alone reader on written files -/

/-- C29 (partial: table mode, `startxref` once in the file, the end of the file within the reader's window, bodies that can be delimited by
keywords): after every history of calls, the stand-alone reader returns every object of the written file, whole. -/
theorem C29_written_partial (unz : Bytes → Option Bytes) (env : Writer.Env) (ops : List Writer.Op) (hfit : FitsAlone env (Writer.run env ops))
    (n : Int) (o : Writer.Obj) (h1 : 1 ≤ n) (ho : (Writer.run env ops).objects.get n = some o) :
    ∃ c, BodyOf env n o c ∧
      (Delimitable c → Document.getObject unz none (Writer.write env (Writer.run env ops)).1 n = .ok (itoa n ++ b!" 0 obj\n" ++ c ++ b!"\nendobj")) := by
  obtain ⟨c, k1, _, k3⟩ := Incremental.standalone_writer unz env _ (Writer.inv_run env ops) (Incremental.refOrNil_run env ops)
    (XRefTable.refs_run env ops) hfit.toFileFits hfit.single hfit.ending n o h1 ho
  exact ⟨c, k1, k3⟩

/-! ### C67: a built form in a written document -/

/-- The calls that `Build` makes. -/
def addAll (texts : List Bytes) : List Writer.Op := texts.map fun t => .addObject (some t)

theorem run_addAll (env : Writer.Env) (ops : List Writer.Op) : ∀ texts : List Bytes,
    (Writer.run env (ops ++ addAll texts)).nextObjNum = (Writer.run env ops).nextObjNum + texts.length ∧
    ∀ (i : Nat) (t : Bytes), texts[i]? = some t →
      (Writer.run env (ops ++ addAll texts)).objects.get ((Writer.run env ops).nextObjNum + i) = some { content := some t, stream := none, dict := none } := by
  intro texts
  induction texts using snoc_induction with
  | nil => simp [addAll]
  | snoc ts t ih =>
    have e : ops ++ addAll (ts ++ [t]) = (ops ++ addAll ts) ++ [.addObject (some t)] := by simp [addAll]
    rw [e, Writer.run_append]
    show (Writer.addObject (Writer.run env (ops ++ addAll ts)) (some t)).1.nextObjNum = _ ∧
      ∀ (i : Nat) (u : Bytes), (ts ++ [t])[i]? = some u → (Writer.addObject (Writer.run env (ops ++ addAll ts)) (some t)).1.objects.get _ = _
    unfold Writer.addObject
    simp only
    refine ⟨by rw [ih.1]; simp; omega, ?_⟩
    intro i u hu
    rw [Map.get_set]
    rw [ih.1]
    by_cases hi : i < ts.length
    · rw [if_neg (by omega)]
      rw [List.getElem?_append_left hi] at hu
      exact ih.2 i u hu
    · have hlt : i < (ts ++ [t]).length := by
        apply Classical.byContradiction; intro hn
        rw [List.getElem?_eq_none (by omega)] at hu; simp at hu
      have : i = ts.length := by simp at hlt; omega
      subst this
      rw [if_pos rfl]
      simp at hu
      subst hu; rfl

/-- parse.GetObject on a file, as the form parser uses it: the bytes or a failure. -/
def fileGet (unz : Bytes → Option Bytes) (file : Bytes) (n : Int) : Option Bytes :=
  match Document.getObject unz none file n with
  | .ok b => some b
  | _ => none

theorem form_delimitable (nums : List Int) : Delimitable (formText nums) := by
  have hj : ∀ c : UInt8, isDigit c = false → c ≠ 45 → c ∉ b!"<< /Fields [ 0 R] /NeedAppearances true >>" → c ∉ formText nums := by
    intro c h1 h2 h3
    unfold formText
    have hs : ∀ x ∈ b!"<< /Fields [", x ∈ b!"<< /Fields [ 0 R] /NeedAppearances true >>" := by decide
    have he : ∀ x ∈ b!"] /NeedAppearances true >>", x ∈ b!"<< /Fields [ 0 R] /NeedAppearances true >>" := by decide
    have hr : ∀ x ∈ b!" 0 R", x ∈ b!"<< /Fields [ 0 R] /NeedAppearances true >>" := by decide
    have hn : ∀ n, c ∉ Writer.ref n := by
      intro n
      unfold Writer.ref
      rw [List.mem_append, not_or]
      exact ⟨Incremental.not_mem_itoa n h1 h2, fun h => h3 (hr _ h)⟩
    have hjn : ∀ l : List Int, c ∉ Writer.joinSp (l.map Writer.ref) := by
      intro l
      induction l with
      | nil => simp [Writer.joinSp]
      | cons x l ih =>
        cases l with
        | nil => simpa [Writer.joinSp] using hn x
        | cons y l =>
          simp only [List.map_cons, Writer.joinSp] at ih ⊢
          simp only [List.mem_append, not_or, List.mem_cons]
          refine ⟨⟨hn x, ?_⟩, ?_⟩
          · refine ⟨fun h => h3 (hr _ (by simp [h])), by simp⟩
          · exact ih
    rw [List.mem_append, List.mem_append, not_or, not_or]
    exact ⟨⟨fun h => h3 (hs _ h), hjn nums⟩, fun h => h3 (he _ h)⟩
  refine ⟨?_, ?_, .inl ?_⟩
  · rw [Incremental.absent_iff (by decide)]
    exact Incremental.noOcc_of_mem (c := 106) (by decide) (hj 106 (by decide) (by decide) (by decide))
  · intro b hb
    have : b = 60 := by simp [formText] at hb; exact hb.symm
    subst this; decide
  · rw [Incremental.absent_iff (by decide)]
    exact Incremental.noOcc_of_mem (c := 109) (by decide) (hj 109 (by decide) (by decide) (by decide))

/-- C67 (partial: plain texts as in `C67_field_partial`; no `endobj` or `stream` inside the texts; table mode and the reader's windows as in
C29): after any history of calls on a writer, build a form, write the file and read it: the number that `Build` returned (the last
number given out) is the form's, and the form has exactly the fields given to the builder, in order, each with its name, type, flags,
value, default, limit and options. -/
theorem C67_document_partial (unz : Bytes → Option Bytes) (env : Writer.Env) (ops : List Writer.Op) (fs : List FieldDef) (texts : List Bytes)
    (hb : buildTexts fs (Writer.run env ops).nextObjNum = some texts) (hf : ∀ f ∈ fs, PlainField f) (hdel : ∀ f ∈ fs, Delimitable (fieldText f))
    (hfit : FitsAlone env (Writer.run env (ops ++ addAll texts))) (fuel : Nat) :
    let file := (Writer.write env (Writer.run env (ops ++ addAll texts))).1
    ∃ (form : Bytes) (fields : List Pdfer.Forms.Field),
      fileGet unz file ((Writer.run env (ops ++ addAll texts)).nextObjNum - 1) = some form ∧
      parseForm (fileGet unz file) (fuel + 1) form = some (some fields) ∧ fields.length = fs.length ∧
      ∀ (i : Nat) (f : FieldDef), fs[i]? = some f → ∃ g : Pdfer.Forms.Field, fields[i]? = some g ∧ g.kids = [] ∧ g.attrs =
        { num := (Writer.run env ops).nextObjNum + i, gen := 0, ft := f.type, t := f.name, tu := [], ff := f.flags,
          v := if f.value = .nil then .none else .str (formatFieldValue f.value f.type),
          dv := if f.dflt = .nil then none else some (formatFieldValue f.dflt f.type),
          maxLen := f.maxLen, opt := f.options } := by
  intro file
  have hpos := (Writer.inv_run env ops).next_pos
  obtain ⟨hnext, hobj⟩ := run_addAll env ops texts
  have hle := hfit.next
  rw [hnext] at hle
  have ht : texts = fs.map fieldText ++ [formText ((List.range fs.length).map fun (i : Nat) => (Writer.run env ops).nextObjNum + (i : Int))] := by
    unfold buildTexts at hb
    split at hb
    · simp at hb
    · exact (Option.some.inj hb).symm
  have hread : ∀ (i : Nat) (t : Bytes), texts[i]? = some t → Delimitable t →
      fileGet unz file ((Writer.run env ops).nextObjNum + i) = some (itoa ((Writer.run env ops).nextObjNum + i) ++ b!" 0 obj\n" ++ t ++ b!"\nendobj") := by
    intro i t hi hd
    obtain ⟨c, k1, k2⟩ := C29_written_partial unz env (ops ++ addAll texts) hfit ((Writer.run env ops).nextObjNum + i) _ (by omega) (hobj i t hi)
    have hc : c = t := k1
    subst hc
    unfold fileGet
    rw [k2 hd]
  have hlen : texts.length = fs.length + 1 := by rw [ht]; simp
  have hform := hread fs.length (formText ((List.range fs.length).map fun (i : Nat) => (Writer.run env ops).nextObjNum + (i : Int))) (by rw [ht]; simp) (form_delimitable _)
  obtain ⟨N, hN⟩ := Int.eq_ofNat_of_zero_le (show 0 ≤ (Writer.run env ops).nextObjNum by omega)
  have hget : ∀ i, (fs.zipIdx.map fun e => (N + e.2, e.1))[i]? = fs[i]?.map fun f => (N + i, f) := by
    intro i
    rw [List.getElem?_map, List.getElem?_zipIdx]
    cases fs[i]? <;> simp
  have hmap : (fs.zipIdx.map fun e => (N + e.2, e.1)).map (fun e => (e.1 : Int)) = (List.range fs.length).map fun (i : Nat) => (Writer.run env ops).nextObjNum + (i : Int) := by
    apply List.ext_getElem?
    intro i
    rw [List.getElem?_map, hget, List.getElem?_map, hN]
    by_cases hi : i < fs.length
    · rw [List.getElem?_eq_getElem hi, List.getElem?_range hi]; simp
    · rw [List.getElem?_eq_none (by omega), List.getElem?_eq_none (by simp; omega)]; rfl
  obtain ⟨fields, g1, g2, g3⟩ := C67_form_partial (fileGet unz file) fuel (fs.zipIdx.map fun e => (N + e.2, e.1))
    (fun n => itoa n ++ b!" 0 obj\n") (fun _ => b!"\nendobj") (itoa ((Writer.run env ops).nextObjNum + fs.length) ++ b!" 0 obj\n") b!"\nendobj"
    (fun n => by rw [List.mem_append, not_or]; exact ⟨Incremental.not_mem_itoa _ (by decide) (by decide), by decide⟩)
    (fun _ => by decide)
    (by rw [List.mem_append, not_or]; exact ⟨Incremental.not_mem_itoa _ (by decide) (by decide), by decide⟩)
    (by
      intro e he
      obtain ⟨i, hi⟩ := List.mem_iff_getElem?.1 he
      rw [hget] at hi
      cases hfi : fs[i]? with
      | none => rw [hfi] at hi; simp at hi
      | some f =>
        rw [hfi] at hi
        simp at hi
        subst hi
        have hm := List.mem_of_getElem? hfi
        have hil : i < fs.length := (List.getElem?_eq_some_iff.1 hfi).1
        refine ⟨by simp only; omega, hf f hm, ?_⟩
        have := hread i (fieldText f) (by
          rw [ht, List.getElem?_append_left (by simpa using hil), List.getElem?_map, hfi]; rfl) (hdel f hm)
        rw [hN] at this
        simpa using this)
  rw [hmap] at g1
  refine ⟨_, fields, ?_, g1, by rw [g2]; simp, ?_⟩
  · rw [hnext, hlen, show (Writer.run env ops).nextObjNum + ((fs.length + 1 : Nat) : Int) - 1 = (Writer.run env ops).nextObjNum + fs.length by omega]
    exact hform
  · intro i f hi
    obtain ⟨g, k1, k2, k3⟩ := g3 i (N + i) f (by rw [hget, hi]; rfl)
    refine ⟨g, k1, k2, ?_⟩
    rw [k3, hN]
    simp

/-- A history before the form: a catalog that refers to the form. -/
def formOps0 : List Writer.Op := [.addObject (some b!"<</Type/Catalog/AcroForm 4 0 R>>"), .setRoot 1]

/-- The fields of the example. -/
def formDefs : List FieldDef := [exDef, { textField b!"n" [] with value := .str b!"a b" }]

/-- The texts of the example. -/
def formTexts : List Bytes := (buildTexts formDefs (Writer.run plainEnv formOps0).nextObjNum).getD []

theorem formTexts_fits : FitsAlone plainEnv (Writer.run plainEnv (formOps0 ++ addAll formTexts)) := by
  have key : ∀ i, i < (Writer.write plainEnv (Writer.run plainEnv (formOps0 ++ addAll formTexts))).1.length →
      (b!"startxref").isPrefixOf ((Writer.write plainEnv (Writer.run plainEnv (formOps0 ++ addAll formTexts))).1.drop i) = true →
      i + 20 = (Writer.write plainEnv (Writer.run plainEnv (formOps0 ++ addAll formTexts))).1.length := by decide +kernel
  have single : ∀ i j, OccursAt b!"startxref" (Writer.write plainEnv (Writer.run plainEnv (formOps0 ++ addAll formTexts))).1 i →
      OccursAt b!"startxref" (Writer.write plainEnv (Writer.run plainEnv (formOps0 ++ addAll formTexts))).1 j → i = j := by
    generalize (Writer.write plainEnv (Writer.run plainEnv (formOps0 ++ addAll formTexts))).1 = F at key
    intro i j hi hj
    have lt : ∀ i, Spec.OccursAt b!"startxref" F i → i < F.length := by
      intro i hi
      rw [Incremental.occursAt_iff (by decide)] at hi
      apply Classical.byContradiction; intro hn
      rw [List.drop_of_length_le (by omega)] at hi
      simp at hi
    have h1 := key i (lt i hi) (by rw [Incremental.occursAt_iff (by decide)] at hi; exact List.isPrefixOf_iff_prefix.2 hi)
    have h2 := key j (lt j hj) (by rw [Incremental.occursAt_iff (by decide)] at hj; exact List.isPrefixOf_iff_prefix.2 hj)
    omega
  exact { fair := plainEnv_fair, table := by decide +kernel, plain := by decide +kernel, size := by decide +kernel, next := by decide +kernel,
          once := fun i j _ _ => single i j, window := by decide +kernel, single := single, ending := by decide +kernel }

example : buildTexts formDefs (Writer.run plainEnv formOps0).nextObjNum = some formTexts ∧ (∀ f ∈ formDefs, PlainField f) ∧
    (∀ f ∈ formDefs, Delimitable (fieldText f)) ∧ (Writer.run plainEnv (formOps0 ++ addAll formTexts)).nextObjNum = 5 ∧
    (parseForm (fileGet some (Writer.write plainEnv (Writer.run plainEnv (formOps0 ++ addAll formTexts))).1) 2
      ((fileGet some (Writer.write plainEnv (Writer.run plainEnv (formOps0 ++ addAll formTexts))).1 4).getD [])).map
        (Option.map (List.map fun f => (f.attrs.num, f.attrs.t))) = some (some [(2, b!"Full name"), (3, b!"n")]) := by
  refine ⟨by decide +kernel, ?_, ?_, by decide +kernel, by decide +kernel⟩
  · intro f hf
    simp only [formDefs, List.mem_cons, List.not_mem_nil, or_false] at hf
    rcases hf with rfl | rfl
    · exact ⟨by decide, by decide +kernel, by decide +kernel, by decide +kernel, by decide +kernel, by decide +kernel, by decide, by decide⟩
    · exact ⟨by decide, by decide +kernel, by decide +kernel, by decide +kernel, by decide +kernel, by decide +kernel, by decide, by decide⟩
  · intro f hf
    simp only [formDefs, List.mem_cons, List.not_mem_nil, or_false] at hf
    rcases hf with rfl | rfl <;>
    · refine ⟨?_, by decide +kernel, .inl ?_⟩ <;> (rw [Incremental.absent_iff (by decide), noOcc_iff_index]; decide +kernel)

/-! ### C48: the values of a form -/

/-- The named values of the first two levels of a form, in reading order: each field, then its kids with the full name. -/
def formValues (fs : List Pdfer.Forms.Field) : List (Bytes × FVal) :=
  (fs.flatMap fun f => (f.attrs.t, f.attrs.v) ::
    f.kids.map fun k => (if f.attrs.t = [] then k.attrs.t else f.attrs.t ++ b!"." ++ k.attrs.t, k.attrs.v)).filter
      fun e => e.1 ≠ [] ∧ e.2 ≠ .none

theorem get_foldl_set (l : List (Bytes × FVal)) (m : Map Bytes FVal) (name : Bytes) :
    (l.foldl (fun m e => m.set e.1 e.2) m).get name =
      ((l.filter fun e => e.1 = name).getLast?.map (·.2)).or (m.get name) := by
  induction l generalizing m with
  | nil => simp
  | cons e l ih =>
    rw [List.foldl_cons, ih, Map.get_set, List.filter_cons]
    by_cases h : e.1 = name
    · rw [if_pos h.symm, if_pos (by simpa using h)]
      cases hl : l.filter (fun e => decide (e.1 = name)) with
      | nil => simp
      | cons x xs => rw [List.getLast?_cons_cons]; cases h2 : (x :: xs).getLast? with
        | none => simp at h2
        | some y => rfl
    · rw [if_neg (fun h' => h h'.symm), if_neg (by simpa using h)]

/-- C48: GetFieldValues has, for every name, the value of the last field of the first two levels with that full name and a value; and no
value for other names. -/
theorem C48_values (fs : List Pdfer.Forms.Field) (name : Bytes) :
    (fieldValues fs).get name = ((formValues fs).filter fun e => e.1 = name).getLast?.map (·.2) := by
  have hkid : ∀ (parent : Bytes) (ks : List Pdfer.Forms.Field) (m : Map Bytes FVal), kidValues parent m ks =
      ((ks.map fun k => (if parent = [] then k.attrs.t else parent ++ b!"." ++ k.attrs.t, k.attrs.v)).filter
        fun e => e.1 ≠ [] ∧ e.2 ≠ .none).foldl (fun m e => m.set e.1 e.2) m := by
    intro parent ks
    induction ks with
    | nil => intro m; rfl
    | cons k ks ih =>
      intro m
      have hj : joinName parent k.attrs.t = if parent = [] then k.attrs.t else parent ++ b!"." ++ k.attrs.t := by
        unfold joinName; by_cases h : parent = [] <;> simp [h]
      rw [List.map_cons, List.filter_cons]
      show kidValues parent (if joinName parent k.attrs.t ≠ [] ∧ k.attrs.v ≠ .none then m.set (joinName parent k.attrs.t) k.attrs.v else m) ks = _
      rw [hj, ih]
      by_cases hc : (if parent = [] then k.attrs.t else parent ++ b!"." ++ k.attrs.t) ≠ [] ∧ k.attrs.v ≠ .none
      · rw [if_pos hc, if_pos (decide_eq_true hc), List.foldl_cons]
      · rw [if_neg hc, if_neg (fun h => hc (of_decide_eq_true h))]
  have hall : ∀ (fs : List Pdfer.Forms.Field) (m : Map Bytes FVal),
      fs.foldl (fun m f => kidValues f.attrs.t (if f.attrs.t ≠ [] ∧ f.attrs.v ≠ .none then m.set f.attrs.t f.attrs.v else m) f.kids) m =
        (formValues fs).foldl (fun m e => m.set e.1 e.2) m := by
    intro fs
    induction fs with
    | nil => intro m; rfl
    | cons f fs ih =>
      intro m
      rw [List.foldl_cons, ih, hkid]
      unfold formValues
      rw [List.flatMap_cons, List.filter_append, List.foldl_append, List.filter_cons]
      by_cases hc : f.attrs.t ≠ [] ∧ f.attrs.v ≠ .none
      · rw [if_pos hc, if_pos (by simpa using hc), List.foldl_cons]
      · rw [if_neg hc, if_neg (by simpa using hc)]
  unfold fieldValues
  rw [hall, get_foldl_set]
  simp [Map.get]

/-- A form with values on three levels. -/
def exValues : List Pdfer.Forms.Field :=
  [.mk { num := 1, gen := 0, t := b!"a", v := .str b!"1" } [.mk { num := 2, gen := 0, t := b!"b", v := .str b!"2" }
    [.mk { num := 3, gen := 0, t := b!"c", v := .str b!"3" } []], .mk { num := 4, gen := 0, t := b!"d", v := .none } []],
   .mk { num := 5, gen := 0, t := b!"a.b", v := .str b!"4" } []]

example : (fieldValues exValues).get b!"a" = some (.str b!"1") ∧ (fieldValues exValues).get b!"a.b" = some (.str b!"4") ∧
    (fieldValues exValues).get b!"a.d" = none := by decide +kernel

/-- C48 is violated by the values of fields below the second level: they are not reported. -/
theorem C48_values_depth_violated : (∃ f, FieldAt exValues b!"a.b.c" f ∧ f.attrs.v = .str b!"3") ∧ (fieldValues exValues).get b!"a.b.c" = none := by
  refine ⟨⟨_, .kid (p := .mk { num := 2, gen := 0, t := b!"b", v := .str b!"2" } [.mk { num := 3, gen := 0, t := b!"c", v := .str b!"3" } []])
    (.kid (p := .mk { num := 1, gen := 0, t := b!"a", v := .str b!"1" } [.mk { num := 2, gen := 0, t := b!"b", v := .str b!"2" }
    [.mk { num := 3, gen := 0, t := b!"c", v := .str b!"3" } []], .mk { num := 4, gen := 0, t := b!"d", v := .none } []])
      (.top (List.mem_cons_self ..)) (List.mem_cons_self ..)) (List.mem_cons_self ..), rfl⟩, by decide +kernel⟩

end Pdfer.Props
