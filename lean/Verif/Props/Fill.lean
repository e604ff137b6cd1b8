import Verif.Proofs.CompareDoc
import Verif.Proofs.FillForm
import Verif.Props.Forms
import Verif.Props.FormsApi
import Verif.Props.Standalone

/-! C126: filling an AcroForm.  C127: the schema of an AcroForm.  C128, C129: validation against a schema. -/

namespace Pdfer.Props

open Pdfer.Go Pdfer.Forms Pdfer.Fill Pdfer.FormsApi Pdfer.Spec Pdfer.Spec.Forms Pdfer.Spec.Fill

variable {F S : Type}

/-! ### C126 -/

/-- C126: when no given name is the name of a field of the first two levels, the file comes back as it was. -/
theorem C126_unknown (c : Ctx F S) (zip : Bytes → Bytes) (pdf : Bytes) (data : List (Bytes × Val)) (p : Incremental.Pdf) (fs : List Field)
    (hopen : Incremental.openPdf c.env pdf = .ok p) (hform : extractAcroForm c pdf = .ok fs)
    (hno : ∀ d ∈ data, ∀ full f, FieldAt2 fs full f → full ≠ d.1 ∧ f.attrs.t ≠ d.1) : fillForm c zip pdf data = .ok pdf := by
  have hne : pdf ≠ [] := by
    rintro rfl
    simp [Incremental.openPdf] at hopen
  have : ∀ st : St, fillAll c.src pdf (Incremental.getObject c.env p) fs data st = .ok st := by
    induction data with
    | nil => intro st; rfl
    | cons d ds ih =>
      intro st
      rw [fillAll]
      have : fillOne c.src pdf (Incremental.getObject c.env p) fs st d = .ok st := by
        unfold fillOne
        rw [(findField_none fs d.1).2 (hno d (by simp))]
      rw [this]
      exact ih (fun d' hd' => hno d' (List.mem_cons_of_mem _ hd')) st
  unfold fillForm
  rw [if_neg hne, hopen, hform]
  simp only [Res.bind, this, rebuildAll, if_neg hne]

/-- C126: when the named fields are objects of their own, filling succeeds with the file `b` exactly when every named field, one after the
other, could be read in the file filled so far and was replaced in it, and `b` is the outcome.  So success means that all known fields
were filled; one field that cannot be filled makes the whole call fail (it is not skipped, as the code's own message says).
Partial: fields in object streams. -/
theorem C126_success_partial (c : Ctx F S) (zip : Bytes → Bytes) (pdf : Bytes) (data : List (Bytes × Val)) (p : Incremental.Pdf) (fs : List Field)
    (hopen : Incremental.openPdf c.env pdf = .ok p) (hform : extractAcroForm c pdf = .ok fs)
    (hd : ∀ d ∈ data, ∀ f full, findField fs d.1 = some (f, full) →
      ∃ o, Incremental.getObject c.env p f.attrs.num = .ok o ∧ (itoa f.attrs.num ++ b!" 0 obj") <:+: o.take 50) (b : Bytes) :
    fillForm c zip pdf data = .ok b ↔ FilledAll (Document.getObject c.src.unz none) fs data pdf b := by
  have hne : pdf ≠ [] := by
    rintro rfl
    simp [Incremental.openPdf] at hopen
  have hd' : ∀ d ∈ data, ∀ f full, findField fs d.1 = some (f, full) →
      ∃ o, Incremental.getObject c.env p f.attrs.num = .ok o ∧ inStream o f.attrs.num = false := by
    intro d hdm f full hf
    obtain ⟨o, h1, h2⟩ := hd d hdm f full hf
    refine ⟨o, h1, ?_⟩
    unfold inStream
    rw [(Manipulate.contains_iff _ _).2 h2]
    rfl
  have key : ∀ st : St, st.updates = [] → st.file ≠ [] → b ≠ [] →
      (((fillAll c.src pdf (Incremental.getObject c.env p) fs data st).bind fun st =>
        (rebuildAll c.src zip st.updates st.file).bind fun b => if b = [] then .err else .ok b) = .ok b ↔
      FilledAll (Document.getObject c.src.unz none) fs data st.file b) := by
    intro st hu hf hb
    rw [← fillAll_direct c.src pdf (Incremental.getObject c.env p) fs data hd' st b hf hb]
    cases h : fillAll c.src pdf (Incremental.getObject c.env p) fs data st with
    | err => simp [Res.bind]
    | panic => simp [Res.bind]
    | ok st' =>
      have hu' := fillAll_updates c.src pdf (Incremental.getObject c.env p) fs data hd' st st' h
      simp only [Res.bind, hu', hu, rebuildAll]
      constructor
      · intro h'
        split at h'
        · cases h'
        · cases h'; exact ⟨st', rfl, rfl⟩
      · rintro ⟨st'', h1, h2⟩
        cases h1
        rw [h2, if_neg hb]
  have grow : ∀ (ds : List (Bytes × Val)) (x y : Bytes), FilledAll (Document.getObject c.src.unz none) fs ds x y → x ≠ [] → y ≠ [] := by
    intro ds x y h
    induction h with
    | done => exact id
    | unknown _ _ ih => exact ih
    | set _ h1 _ ih =>
      intro _
      obtain ⟨_, _, _, _, hr⟩ := h1
      exact ih (replace_ne hr)
  unfold fillForm
  rw [if_neg hne, hopen, hform]
  simp only [Res.bind]
  by_cases hb : b = []
  · subst hb
    constructor
    · intro h
      exfalso
      split at h <;> try cases h
      rename_i st' _
      revert h
      cases rebuildAll c.src zip st'.updates st'.file with
      | ok x => intro h; simp only at h; split at h <;> cases h; contradiction
      | err => intro h; cases h
      | panic => intro h; cases h
    · intro h
      exact absurd rfl (grow data pdf [] h hne)
  · exact key { file := pdf } rfl hne hb

/-- C126: a built form in a written file (conditions of C109), one field named, whose header is the first text of the file that reads like it:
the field's text gets the new value — in place of the old one, or at the end of the dictionary — and everything before and behind the
object is the same.  Partial: the new text is wrapped in a second header and a second `endobj`, as the result shows; values of plain
characters without a dollar sign; one field. -/
theorem C126_built_partial (c : Ctx F S) (zip : Bytes → Bytes) (hfuel : c.fuel ≠ 0) (env : Writer.Env) (ops : List Writer.Op) (fs : List FieldDef)
    (texts : List Bytes)
    (hb : buildTexts fs (Writer.run env ops).nextObjNum = some texts) (hf : ∀ f ∈ fs, PlainField f) (hdel : ∀ f ∈ fs, Delimitable (fieldText f))
    (hfit : FitsAlone env (Writer.run env (ops ++ addAll texts)))
    (henc : c.env.handleEncryption (Writer.write env (Writer.run env (ops ++ addAll texts))).1 = some none)
    (before after : Bytes) (n : Nat) (hn : (Writer.run env (ops ++ addAll texts)).nextObjNum = n + 1)
    (hfile : (Writer.write env (Writer.run env (ops ++ addAll texts))).1 = before ++ (b!"/AcroForm" ++ (32 :: (natDec n ++ (b!" 0 R" ++ after)))))
    (hfirst : Absent b!"/AcroForm" before)
    (i : Nat) (f : FieldDef) (hi : fs[i]? = some f) (hu : ∀ (j : Nat) (g : FieldDef), fs[j]? = some g → g.name = f.name → j = i)
    (v : Val) (hv : v ≠ .nil) (hp : ∀ c ∈ Forms.formatFieldValue v f.type, PlainChar c ∧ c ≠ 36)
    (num : Int) (hnum : num = (Writer.run env ops).nextObjNum + i) (A B : Bytes)
    (hat : (Writer.write env (Writer.run env (ops ++ addAll texts))).1 = A ++ (itoa num ++ b!" 0 obj" ++ (b!"\n" ++ fieldText f ++ b!"\nendobj")) ++ B)
    (hA : ∀ j, j < A.length → ¬ HeaderAt num 0 (Writer.write env (Writer.run env (ops ++ addAll texts))).1 j) :
    fillForm c zip (Writer.write env (Writer.run env (ops ++ addAll texts))).1 [(f.name, v)] =
      .ok (A ++ (itoa num ++ b!" 0 obj" ++ (b!"\n" ++ (itoa num ++ b!" 0 obj\n" ++ newText f v ++ b!"\nendobj") ++ b!"\nendobj\n")) ++ B) := by
  obtain ⟨pdf, fields, hopen, hacro, hlen, hall⟩ := acro_built c hfuel env ops fs texts hb hf hdel hfit henc before after n hn hfile hfirst
  generalize (Writer.write env (Writer.run env (ops ++ addAll texts))).1 = file at *
  obtain ⟨g, g1, gk, g2, g3, g4⟩ := hall i f hi
  have hname : g.attrs.t = f.name := by rw [g2]
  have hgn : g.attrs.num = num := by rw [g2, hnum]
  have hgg : g.attrs.gen = 0 := by rw [g2]
  have hgt : g.attrs.ft = f.type := by rw [g2]
  -- the field is found
  have hfind : findField fields f.name = some (g, f.name) := by
    have hk : ∀ x ∈ fields, x.kids = [] ∧ (x.attrs.t = f.name → x = g) := by
      intro x hx
      obtain ⟨j, hj⟩ := List.mem_iff_getElem?.1 hx
      have hjl : j < fs.length := by rw [← hlen]; exact (List.getElem?_eq_some_iff.1 hj).1
      obtain ⟨y, y1, yk, y2, _⟩ := hall j fs[j] (List.getElem?_eq_getElem hjl)
      rw [hj] at y1
      cases y1
      refine ⟨yk, fun hxn => ?_⟩
      have : j = i := hu j fs[j] (List.getElem?_eq_getElem hjl) (by rw [← hxn, y2])
      subst this
      rw [hj] at g1
      exact Option.some.inj g1
    have := C48_lookup_partial fields f.name g (hname ▸ FieldAt2.top (List.mem_of_getElem? g1)) (by
      intro full x hx hor
      cases hx with
      | top hm =>
        have : x.attrs.t = f.name := by rcases hor with h | h <;> exact h
        exact ⟨(hk x hm).2 this, this⟩
      | kid hpm hkm => rw [(hk _ hpm).1] at hkm; simp at hkm)
    exact this
  have hnpos : 0 ≤ num := by
    have := (Writer.inv_run env ops).next_pos
    rw [hnum]; omega
  have hnle : num ≤ 9223372036854775807 := by
    have h1 := hfit.next
    have h2 := (run_addAll env ops texts).1
    have h3 : texts.length = fs.length + 1 := by
      unfold buildTexts at hb
      split at hb
      · simp at hb
      · rw [← Option.some.inj hb]; simp
    have h4 : i < fs.length := (List.getElem?_eq_some_iff.1 hi).1
    rw [h2, h3] at h1
    push_cast at h1
    rw [hnum]; omega
  obtain ⟨N, rfl⟩ := Int.eq_ofNat_of_zero_le hnpos
  have hlen19 : (itoa ((N : Nat) : Int)).length ≤ 19 := by
    have := Pdfer.Incremental.natDec_length_int64 N (by omega)
    exact this
  refine (C126_success_partial c zip file [(f.name, v)] pdf fields hopen hacro ?_ _).2 ?_
  · intro d hd x full hx
    simp only [List.mem_cons, List.not_mem_nil, or_false] at hd
    subst hd
    rw [hfind] at hx
    cases hx
    refine ⟨_, g3, ?_⟩
    rw [hgn]
    have e : itoa ((N : Nat) : Int) ++ b!" 0 obj\n" ++ fieldText f ++ b!"\nendobj" =
        (itoa ((N : Nat) : Int) ++ b!" 0 obj") ++ (b!"\n" ++ fieldText f ++ b!"\nendobj") := by simp
    rw [e, List.take_append]
    rw [List.take_of_length_le (by simp; omega)]
    exact (List.prefix_append _ _).isInfix
  · refine .set hfind ⟨_, itoa g.attrs.num ++ b!" 0 obj\n" ++ newText f v ++ b!"\nendobj", g4, ?_, ?_⟩ .done
    · rw [hgt]; exact setValue_built f (hf f (List.mem_of_getElem? hi)) v hv hp _
    · rw [hgn, hgg]
      refine (C49_replace_exact file _ _ N 0).2 ⟨A, itoa ((N : Nat) : Int) ++ b!" 0 obj", b!"\n" ++ fieldText f ++ b!"\n", B, ?_, ?_, ?_, hA, ?_⟩
      · rw [hat]; simp
      · simp
      · exact ⟨b!" ", b!" ", by decide, by intro c hc; simp at hc; subst hc; simp [Spec.Manipulate.White], by decide,
          by intro c hc; simp at hc; subst hc; simp [Spec.Manipulate.White], by rw [show itoa (0 : Int) = b!"0" from rfl]; simp⟩
      · have hd := (hdel f (List.mem_of_getElem? hi)).1
        rw [Incremental.absent_iff (by decide)] at hd
        rw [← Manipulate.noOcc_iff_infix]
        have e : b!"\n" ++ fieldText f ++ b!"\n" ++ b!"endob" = b!"\n" ++ (fieldText f ++ b!"\nendob") := by simp
        rw [e]
        have h2 := Manipulate.noOcc_app hd (t := b!"\nendob") (noOcc_iff_index.2 (by decide)) (by intro d hd; simp at hd; subst hd; decide)
        have h3 := Crypto.avoid_head (c := 101) (key := b!"ndobj") (a := b!"\n") (by decide)
        intro j hj
        cases j with
        | zero =>
          obtain ⟨t, ht⟩ := hj
          simp at ht
        | succ j => exact h2 j (by simpa using hj)

/-- The hypotheses of `C126_built_partial` hold for the written file of one field (object 2, at position 63 of the file): its value `a b`
becomes `new`. -/
example : fillForm exCtx id acroFile [(b!"n", .str b!"new")] =
    .ok (acroFile.take 63 ++ (itoa 2 ++ b!" 0 obj" ++ (b!"\n" ++ (itoa 2 ++ b!" 0 obj\n" ++
      newText { textField b!"n" [] with value := .str b!"a b" } (.str b!"new") ++ b!"\nendobj") ++ b!"\nendobj\n")) ++
      (acroFile.drop 63).drop (itoa 2 ++ b!" 0 obj" ++ (b!"\n" ++ fieldText { textField b!"n" [] with value := .str b!"a b" } ++ b!"\nendobj")).length) :=
  C126_built_partial exCtx id (by decide) plainEnv acroOps acroDefs acroTexts (by decide +kernel)
    (by
      intro f hf
      simp only [acroDefs, List.mem_cons, List.not_mem_nil, or_false] at hf
      subst hf
      exact ⟨by decide, by decide +kernel, by decide +kernel, by decide +kernel, by decide +kernel, by decide +kernel, by decide, by decide⟩)
    (by
      intro f hf
      simp only [acroDefs, List.mem_cons, List.not_mem_nil, or_false] at hf
      subst hf
      refine ⟨?_, by decide +kernel, .inl ?_⟩ <;> (rw [Incremental.absent_iff (by decide), noOcc_iff_index]; decide +kernel))
    acro_fits (by rfl) (acroFile.take 38) (acroFile.drop 53) 3 (by decide +kernel) (by decide +kernel)
    (by rw [Incremental.absent_iff (by decide), noOcc_iff_index]; decide +kernel)
    0 _ rfl
    (by
      intro j g hj _
      cases j with
      | zero => rfl
      | succ j => simp [acroDefs] at hj)
    (.str b!"new") (by simp) (by decide +kernel) 2 (by decide +kernel) _ _ (by decide +kernel)
    (by
      intro j hj
      have hj' : j < 63 := by
        rw [List.length_take] at hj
        omega
      rintro ⟨hd, t, h, w1, w2, -, -, -, -, rfl⟩
      have h1 : (acroFile.drop j).head? = some 50 := by
        rw [show acroFile.drop j = _ from h]
        rfl
      have : ∀ j < 63, (acroFile.drop j).head? ≠ some 50 := by decide +kernel
      exact this j hj' h1)

/-- For examples: a written file with two text fields (objects 1 and 2), the form (3) and the catalog (4), and `k` further objects. -/
def twoFields (k : Nat) : Bytes :=
  (Writer.write plainEnv (Writer.run plainEnv
    ([.addObject (some (fieldText { textField b!"a" [] with value := .str b!"x" })),
      .addObject (some (fieldText { textField b!"b" [] with value := .str b!"y" })), .addObject (some (formText [1, 2])),
      .addObject (some b!"<</Type/Catalog/AcroForm 3 0 R>>"), .setRoot 4] ++ List.replicate k (.addObject (some b!"()"))))).1

/-- For examples: the fields of a form that was found, with their values. -/
def fieldsOf (r : Res (List Field)) : Option (List (Bytes × FVal)) :=
  match r with
  | .ok fs => some (fs.map fun f => (f.attrs.t, f.attrs.v))
  | _ => none

/-- For examples: whether a call ended with a crash. -/
def crashed {α : Type} : Res α → Bool
  | .panic => true
  | _ => false

/-- For examples: the bytes of a successful call. -/
def bytesOf : Res Bytes → Bytes
  | .ok b => b
  | _ => []

/-- C126 is violated: filling two fields of a file this library wrote crashes, whatever the order of the map: the first replacement moves the
cross-reference table, and the look-up of the second field reads at the old place and slices behind the end. -/
theorem C126_two_fields_violated :
    fieldsOf (extractAcroForm exCtx (twoFields 0)) = some [(b!"a", .str b!"x"), (b!"b", .str b!"y")] ∧
    fillForm exCtx id (twoFields 0) [(b!"a", .str b!"new"), (b!"b", .str b!"value")] = .panic ∧
    fillForm exCtx id (twoFields 0) [(b!"b", .str b!"value"), (b!"a", .str b!"new")] = .panic := by
  refine ⟨by decide +kernel, ?_, ?_⟩
  · have : crashed (fillForm exCtx id (twoFields 0) [(b!"a", .str b!"new"), (b!"b", .str b!"value")]) = true := by decide +kernel
    revert this
    cases fillForm exCtx id (twoFields 0) [(b!"a", .str b!"new"), (b!"b", .str b!"value")] <;> simp [crashed]
  · have : crashed (fillForm exCtx id (twoFields 0) [(b!"b", .str b!"value"), (b!"a", .str b!"new")]) = true := by decide +kernel
    revert this
    cases fillForm exCtx id (twoFields 0) [(b!"b", .str b!"value"), (b!"a", .str b!"new")] <;> simp [crashed]

/-- The same for a file of 25 objects: here the reader, at the old place, takes the table for an object and slices the first 500 bytes at a
`<<` that lies behind them. -/
theorem C126_longer_table_violated :
    fieldsOf (extractAcroForm exCtx (twoFields 21)) = some [(b!"a", .str b!"x"), (b!"b", .str b!"y")] ∧
    crashed (fillForm exCtx id (twoFields 21) [(b!"a", .str b!"new"), (b!"b", .str b!"value")]) = true ∧
    crashed (Incremental.openPdf exCtx.env (bytesOf (fillForm exCtx id (twoFields 21) [(b!"a", .str b!"new")]))) = true := by
  decide +kernel

/-- C126 is violated: the file that comes back after one field was filled cannot be opened again: `Open` crashes. -/
theorem C126_reopen_violated :
    (bytesOf (fillForm exCtx id (twoFields 0) [(b!"a", .str b!"new")]) ≠ []) ∧
    crashed (Incremental.openPdf exCtx.env (bytesOf (fillForm exCtx id (twoFields 0) [(b!"a", .str b!"new")]))) = true := by
  decide +kernel

/-- C126 is violated: what validation finds does not stop FillFormFromSchema and ExtractAndFill: a field whose limit is two
characters gets a value of three. -/
theorem C126_invalid_data_violated :
    let ck : Checks Bool := { rx := fun _ _ => none, parse := fun _ => none, lt := fun _ _ => false }
    let qs : List (Question Bool) := [{ id := b!"field_1", name := b!"a", type := b!"text", validation := some { maxLength := some 2 } }]
    (fillFromSchema exCtx id ck (twoFields 0) qs [(b!"a", .str b!"new")]).1 = [.tooLong b!"a" 2] ∧
    contains (bytesOf (fillFromSchema exCtx id ck (twoFields 0) qs [(b!"a", .str b!"new")]).2) b!"/V (new)" = true := by
  decide +kernel

/-! ### C127: the schema of an AcroForm -/

theorem choices_get (sel : List Int) : ∀ (os : List Bytes) (i k : Nat),
    (choices sel i os)[k]? = os[k]?.map fun o => { value := o, label := o, selected := sel.contains (((i + k : Nat)) : Int) } := by
  intro os
  induction os with
  | nil => intro i k; simp [choices]
  | cons o os ih =>
    intro i k
    cases k with
    | zero => simp [choices]
    | succ k =>
      rw [choices, List.getElem?_cons_succ, ih, List.getElem?_cons_succ]
      have : i + 1 + k = i + (k + 1) := by omega
      rw [this]

/-- C127: the schema has one question for each top-level field, in the same order, and the question says what the field says: name, label,
required (flag 2), read-only (flag 1), default, the options with the selected ones marked, the maximum length, page and object number.
Partial: only top-level fields (see the violation). -/
theorem C127_questions_partial (sub : F → F → F) (extra : Field → Extra F) (fs : List Field) :
    (toSchema sub extra fs).length = fs.length ∧ ∀ (i : Nat) (f : Field), fs[i]? = some f →
      ∃ q, (toSchema sub extra fs)[i]? = some q ∧ q.name = f.attrs.t ∧ q.label = f.attrs.tu ∧ (q.required = true ↔ Flag f.attrs.ff 2) ∧
        (q.readOnly = true ↔ Flag f.attrs.ff 1) ∧ q.dflt = f.attrs.dv ∧
        q.options.length = f.attrs.opt.length ∧
        (∀ (k : Nat) (o : Bytes), f.attrs.opt[k]? = some o → ∃ ch, q.options[k]? = some ch ∧ ch.value = o ∧ ch.label = o ∧
          (ch.selected = true ↔ (k : Int) ∈ (extra f).selected)) ∧
        (f.attrs.maxLen = 0 → q.validation = none) ∧
        (f.attrs.maxLen ≠ 0 → ∃ l, q.validation = some l ∧ l.maxLength = some (f.attrs.maxLen : Int) ∧ l.minLength = none ∧ l.minValue = none ∧
          l.maxValue = none ∧ l.pattern = []) ∧
        q.page = (extra f).page ∧ q.objectNum = f.attrs.num := by
  refine ⟨by simp [toSchema], fun i f hi => ?_⟩
  refine ⟨toQuestion sub f.attrs (extra f), by simp [toSchema, hi], rfl, rfl, ?_, ?_, rfl, ?_, ?_, ?_, ?_, rfl, rfl⟩
  · show decide (f.attrs.ff &&& 2 ≠ 0) = true ↔ _
    rw [decide_eq_true_iff]
    exact and_flag _ 2 2 rfl
  · show decide (f.attrs.ff &&& 1 ≠ 0) = true ↔ _
    rw [decide_eq_true_iff]
    exact and_flag _ 1 1 rfl
  · show (choices _ 0 _).length = _
    have : ∀ (os : List Bytes) (i : Nat), (choices (extra f).selected i os).length = os.length := by
      intro os
      induction os with
      | nil => intro i; rfl
      | cons o os ih => intro i; simp [choices, ih]
    exact this _ _
  · intro k o ho
    refine ⟨_, (choices_get _ _ 0 k).trans (by rw [ho]; rfl), rfl, rfl, ?_⟩
    simp
  · intro h
    simp [toQuestion, h]
  · intro h
    exact ⟨{ maxLength := some (f.attrs.maxLen : Int) }, by simp [toQuestion, Nat.pos_of_ne_zero h], rfl, rfl, rfl, rfl, rfl⟩

/-- C127: two questions have the same identifier only if their fields are the same object. -/
theorem C127_ids (sub : F → F → F) (extra : Field → Extra F) (fs : List Field) (hn : (fs.map (·.attrs.num)).Nodup) :
    ((toSchema sub extra fs).map (·.id)).Nodup := by
  have : (toSchema sub extra fs).map (·.id) = (fs.map (·.attrs.num)).map fun n => b!"field_" ++ itoa n := by
    simp [toSchema, toQuestion, Function.comp_def]
  rw [this]
  refine List.Pairwise.map _ ?_ hn
  intro a b hab h
  exact hab (Pdfer.Compare.itoa_inj _ _ (List.append_cancel_left h))

/-- C127: where a field is: the corner, width and height of its rectangle. -/
theorem C127_place (sub : F → F → F) (a : Attrs) (e : Extra F) (x0 y0 x1 y1 : F) (more : List F) (h : e.rect = x0 :: y0 :: x1 :: y1 :: more) :
    (toQuestion sub a e).place = some (x0, y0, sub x1 x0, sub y1 y0) := by
  simp [toQuestion, h]

/-- C127 is violated for every form with child fields: a child that is not itself a top-level field has no question. -/
theorem C127_kids_violated (sub : F → F → F) (extra : Field → Extra F) (fs : List Field) (f k : Field) (_hf : f ∈ fs) (_hk : k ∈ f.kids)
    (hn : k.attrs.num ∉ fs.map (·.attrs.num)) : ∀ q ∈ toSchema sub extra fs, q.objectNum ≠ k.attrs.num := by
  intro q hq h
  obtain ⟨g, hg, rfl⟩ := List.mem_map.1 hq
  exact hn (List.mem_map.2 ⟨g, hg, h⟩)

example : ∃ f ∈ exForm, ∃ k ∈ f.kids, k.attrs.num ∉ exForm.map (·.attrs.num) := ⟨exA, by simp [exForm], _, List.mem_cons_self, by decide⟩

/-! ### C128: validation against a schema -/

/-- The last question with a name. -/
def LastNamed (qs : List (Question F)) (n : Bytes) (q : Question F) : Prop :=
  ∃ a b, qs = a ++ q :: b ∧ q.name = n ∧ ∀ r ∈ b, r.name ≠ n

theorem byName_snoc (qs : List (Question F)) (q : Question F) : byName (qs ++ [q]) = (byName qs).set q.name q := by
  simp [byName]

theorem byName_some (qs : List (Question F)) (n : Bytes) (q : Question F) : (byName qs).get n = some q ↔ LastNamed qs n q := by
  induction qs using snoc_induction with
  | nil =>
    constructor
    · intro h; simp [byName, Map.get] at h
    · rintro ⟨a, b, h, _⟩; simp at h
  | snoc qs r ih =>
    rw [byName_snoc]
    by_cases hr : r.name = n
    · subst hr
      rw [Map.get_set_eq]
      constructor
      · intro h; cases h; exact ⟨qs, [], rfl, rfl, by simp⟩
      · rintro ⟨a, b, h1, h2, h3⟩
        rcases List.eq_nil_or_concat b with rfl | ⟨b', x, rfl⟩
        · have := List.append_inj_right' h1 rfl
          simp at this; rw [this]
        · exfalso
          have h1' : qs ++ [r] = (a ++ q :: b') ++ [x] := by simpa using h1
          have := List.append_inj_right' h1' rfl
          simp at this
          subst this
          exact h3 r (by simp) rfl
    · rw [Map.get_set_ne _ _ (fun h => hr h.symm), ih]
      constructor
      · rintro ⟨a, b, rfl, h2, h3⟩
        refine ⟨a, b ++ [r], by simp, h2, ?_⟩
        intro x hx
        rcases List.mem_append.1 hx with hx | hx
        · exact h3 x hx
        · simp at hx; subst hx; exact hr
      · rintro ⟨a, b, h1, h2, h3⟩
        rcases List.eq_nil_or_concat b with rfl | ⟨b', x, rfl⟩
        · exfalso
          have := List.append_inj_right' h1 rfl
          simp at this
          subst this
          exact hr h2
        · have h1' : qs ++ [r] = (a ++ q :: b') ++ [x] := by simpa using h1
          have e := List.append_inj' h1' rfl
          exact ⟨a, b', e.1, h2, fun y hy => h3 y (by simp [hy])⟩

theorem byName_none (qs : List (Question F)) (n : Bytes) : (byName qs).get n = none ↔ ∀ q ∈ qs, q.name ≠ n := by
  induction qs using snoc_induction with
  | nil => simp [byName, Map.get]
  | snoc qs r ih =>
    rw [byName_snoc]
    by_cases hr : r.name = n
    · subst hr
      rw [Map.get_set_eq]
      simp
    · rw [Map.get_set_ne _ _ (fun h => hr h.symm), ih]
      constructor
      · intro h q hq
        rcases List.mem_append.1 hq with hq | hq
        · exact h q hq
        · simp at hq; subst hq; exact hr
      · intro h q hq; exact h q (by simp [hq])

theorem validateValue_none (ck : Checks F) (q : Question F) (v : Val) : validateValue ck q v = none ↔ Keeps ck q v := by
  unfold validateValue
  cases hl : q.validation with
  | none =>
    simp only [true_iff]
    exact ⟨by simp [hl], by simp [hl], by simp [hl], by simp [hl], by simp [hl]⟩
  | some l =>
    simp only
    have hrange : checkRange ck q l (valueText v) = none ↔
        (∀ m x, q.type = b!"number" → l.minValue = some m → ck.parse (valueText v) = some x → ck.lt x m = false) ∧
        (∀ m x, q.type = b!"number" → l.maxValue = some m → ck.parse (valueText v) = some x → ck.lt m x = false) := by
      unfold checkRange
      by_cases ht : q.type = b!"number"
      · rw [if_pos ht]
        cases hx : ck.parse (valueText v) with
        | none => simp
        | some x =>
          simp only [ht, true_implies, Option.some.injEq]
          cases hm : l.minValue with
          | none =>
            cases hM : l.maxValue with
            | none => simp
            | some M => cases hlt : ck.lt M x <;> simp [hlt]
          | some m =>
            cases hlt1 : ck.lt x m with
            | true => simp [hlt1]
            | false =>
              cases hM : l.maxValue with
              | none => simp [hlt1]
              | some M => cases hlt : ck.lt M x <;> simp [hlt, hlt1]
      · rw [if_neg ht]; simp [ht]
    have hpat : checkPattern ck q l (valueText v) = none ↔
        (l.pattern ≠ [] → ck.rx l.pattern (valueText v) = some true) ∧ checkRange ck q l (valueText v) = none := by
      unfold checkPattern
      by_cases hp : l.pattern = []
      · simp [hp]
      · rw [if_pos hp]
        cases hr : ck.rx l.pattern (valueText v) with
        | none => simp [hp]
        | some b => cases b <;> simp [hp]
    have hmin : ((l.minLength.map fun m => decide (((valueText v).length : Int) < m)).getD false) = true ↔
        ¬ (∀ m, l.minLength = some m → m ≤ ((valueText v).length : Int)) := by
      cases l.minLength <;> simp
    have hmax : ((l.maxLength.map fun m => decide (((valueText v).length : Int) > m)).getD false) = true ↔
        ¬ (∀ m, l.maxLength = some m → ((valueText v).length : Int) ≤ m) := by
      cases l.maxLength <;> simp
    have hkeep : Keeps ck q v ↔ (∀ m, l.minLength = some m → m ≤ ((valueText v).length : Int)) ∧
        (∀ m, l.maxLength = some m → ((valueText v).length : Int) ≤ m) ∧ checkPattern ck q l (valueText v) = none := by
      rw [hpat, hrange]
      constructor
      · intro h
        exact ⟨fun m => h.short l m hl, fun m => h.long l m hl, h.pattern l hl, fun m x => h.low l m x hl, fun m x => h.high l m x hl⟩
      · rintro ⟨h1, h2, h3, h4, h5⟩
        refine ⟨?_, ?_, ?_, ?_, ?_⟩
        · intro l' m hl' hm; rw [hl] at hl'; cases hl'; exact h1 m hm
        · intro l' m hl' hm; rw [hl] at hl'; cases hl'; exact h2 m hm
        · intro l' hl'; rw [hl] at hl'; cases hl'; exact h3
        · intro l' m x hl' ht hm hx; rw [hl] at hl'; cases hl'; exact h4 m x ht hm hx
        · intro l' m x hl' ht hm hx; rw [hl] at hl'; cases hl'; exact h5 m x ht hm hx
    rw [hkeep]
    by_cases h1 : ∀ m, l.minLength = some m → m ≤ ((valueText v).length : Int)
    · rw [if_neg (by rw [hmin]; simpa using h1)]
      by_cases h2 : ∀ m, l.maxLength = some m → ((valueText v).length : Int) ≤ m
      · rw [if_neg (by rw [hmax]; simpa using h2)]
        constructor
        · intro h; exact ⟨h1, h2, h⟩
        · intro h; exact h.2.2
      · rw [if_pos (hmax.2 h2)]
        constructor
        · intro h; cases h
        · intro h; exact absurd h.2.1 h2
    · rw [if_pos (hmin.2 h1)]
      constructor
      · intro h; cases h
      · intro h; exact absurd h.1 h1

/-- C128: ValidateFieldValue accepts a value exactly when its text keeps the limits of the question. -/
theorem C128_value (ck : Checks F) (q : Question F) (v : Val) : validateValue ck q v = none ↔ Keeps ck q v := validateValue_none ck q v

/-- C128: ValidateFormSchema reports nothing exactly when every given name is the name of a question — the last one, if several have it —
and its value keeps the limits of that question, and every required question is given. -/
theorem C128_valid (ck : Checks F) (qs : List (Question F)) (data : List (Bytes × Val)) :
    validateSchema ck qs data = [] ↔
      (∀ d ∈ data, ∃ q, LastNamed qs d.1 q ∧ Keeps ck q d.2) ∧ (∀ q ∈ qs, q.required = true → q.name ∈ data.map (·.1)) := by
  unfold validateSchema valueErrors missingErrors
  rw [List.append_eq_nil_iff, List.flatMap_eq_nil_iff, List.flatMap_eq_nil_iff]
  constructor
  · rintro ⟨h1, h2⟩
    refine ⟨fun d hd => ?_, fun q hq hr => ?_⟩
    · have := h1 d hd
      cases hq : (byName qs).get d.1 with
      | none => rw [hq] at this; simp at this
      | some q =>
        rw [hq] at this
        simp only [Option.toList_eq_nil_iff] at this
        exact ⟨q, (byName_some qs d.1 q).1 hq, (validateValue_none ck q d.2).1 this⟩
    · have := h2 q hq
      apply Classical.byContradiction
      intro hm
      rw [if_pos ⟨hr, hm⟩] at this
      cases this
  · rintro ⟨h1, h2⟩
    refine ⟨fun d hd => ?_, fun q hq => ?_⟩
    · obtain ⟨q, hl, hk⟩ := h1 d hd
      rw [(byName_some qs d.1 q).2 hl]
      simp [(validateValue_none ck q d.2).2 hk]
    · rw [if_neg]
      rintro ⟨hr, hm⟩
      exact hm (h2 q hq hr)

/-- C128: a name is reported as unknown exactly when it is given and no question has it; a question is reported as missing exactly when it
is required and not given. -/
theorem C128_reported (ck : Checks F) (qs : List (Question F)) (data : List (Bytes × Val)) (n : Bytes) :
    (.unknownField n ∈ validateSchema ck qs data ↔ n ∈ data.map (·.1) ∧ ∀ q ∈ qs, q.name ≠ n) ∧
    (.missing n ∈ validateSchema ck qs data ↔ n ∉ data.map (·.1) ∧ ∃ q ∈ qs, q.required = true ∧ q.name = n) := by
  have hval : ∀ q v e, validateValue ck q v = some e → e ≠ .unknownField n ∧ e ≠ .missing n := by
    intro q v e
    have hr : ∀ l s, checkRange ck q l s = some e → e ≠ .unknownField n ∧ e ≠ .missing n := by
      intro l s h
      unfold checkRange at h
      split at h
      · split at h
        · cases h
        · split at h
          · cases h; simp
          · split at h
            · cases h; simp
            · cases h
      · cases h
    have hpt : ∀ l s, checkPattern ck q l s = some e → e ≠ .unknownField n ∧ e ≠ .missing n := by
      intro l s h
      unfold checkPattern at h
      split at h
      · split at h
        · cases h; simp
        · cases h; simp
        · exact hr l s h
      · exact hr l s h
    unfold validateValue
    cases q.validation with
    | none => intro h; cases h
    | some l =>
      simp only
      intro h
      split at h
      · cases h; simp
      · split at h
        · cases h; simp
        · exact hpt l _ h
  unfold validateSchema
  constructor
  · rw [List.mem_append]
    have hmiss : QErr.unknownField n ∉ missingErrors qs data := by
      intro h
      unfold missingErrors at h
      obtain ⟨q, _, hq⟩ := List.mem_flatMap.1 h
      split at hq <;> simp at hq
    simp only [hmiss, or_false]
    unfold valueErrors
    rw [List.mem_flatMap]
    constructor
    · rintro ⟨d, hd, h⟩
      cases hq : (byName qs).get d.1 with
      | none =>
        rw [hq] at h
        simp at h
        subst h
        exact ⟨List.mem_map.2 ⟨d, hd, rfl⟩, (byName_none qs d.1).1 hq⟩
      | some q =>
        rw [hq] at h
        simp only [Option.mem_toList] at h
        exact absurd rfl (hval q d.2 _ h).1
    · rintro ⟨hm, hno⟩
      obtain ⟨d, hd, rfl⟩ := List.mem_map.1 hm
      exact ⟨d, hd, by rw [(byName_none qs d.1).2 hno]; simp⟩
  · rw [List.mem_append]
    have hvals : QErr.missing n ∉ valueErrors ck qs data := by
      intro h
      unfold valueErrors at h
      obtain ⟨d, hd, h⟩ := List.mem_flatMap.1 h
      cases hq : (byName qs).get d.1 with
      | none => rw [hq] at h; simp at h
      | some q =>
        rw [hq] at h
        simp only [Option.mem_toList] at h
        exact absurd rfl (hval q d.2 _ h).2
    simp only [hvals, false_or]
    unfold missingErrors
    rw [List.mem_flatMap]
    constructor
    · rintro ⟨q, hq, h⟩
      split at h
      · rename_i hc
        simp at h
        subst h
        exact ⟨hc.2, q, hq, hc.1, rfl⟩
      · simp at h
    · rintro ⟨hm, q, hq, hr, rfl⟩
      exact ⟨q, hq, by rw [if_pos ⟨hr, hm⟩]; simp⟩

/-- C128: the order of the map does not change what is reported, only the order of the reports. -/
theorem C128_order (ck : Checks F) (qs : List (Question F)) (data data' : List (Bytes × Val)) (h : data.Perm data') :
    (validateSchema ck qs data).Perm (validateSchema ck qs data') := by
  unfold validateSchema
  refine List.Perm.append (h.flatMap_right _) ?_
  unfold missingErrors
  have : ∀ q : Question F, q.name ∈ data.map (·.1) ↔ q.name ∈ data'.map (·.1) := fun q => (h.map _).mem_iff
  simp only [this]
  exact List.Perm.refl _

/-- For examples: a schema of two questions, and values that keep and break it. -/
def exQuestions : List (Question Nat) :=
  [{ id := b!"field_1", name := b!"n", type := b!"text", objectNum := 1, required := true, validation := some { maxLength := some 3 } },
   { id := b!"field_2", name := b!"m", type := b!"number", objectNum := 2, validation := some { minValue := some 5 } }]

example : let ck : Checks Nat := { rx := fun _ _ => none, parse := fun b => (atoi b).map Int.toNat, lt := fun a b => decide (a < b) }
    validateSchema ck exQuestions [(b!"n", .str b!"abc"), (b!"m", .str b!"7")] = [] ∧
    (validateSchema ck exQuestions [(b!"m", .str b!"4"), (b!"x", .nil)]).length = 3 := by
  decide +kernel

/-! ### C129: the two validations -/

/-- C129: for a form without child fields and with distinct names, data that ValidateFormData accepts is accepted by ValidateFormSchema with
the schema of the form.  Partial: no floating point values (they are measured in two notations), and the converse fails. -/
theorem C129_schema_accepts_partial (ck : Checks F) (sub : F → F → F) (extra : Field → Extra F) (fs : List Field) (data : List (Bytes × Val))
    (hflat : ∀ f ∈ fs, f.kids = []) (hn : (fs.map (·.attrs.t)).Nodup) (htx : ∀ f ∈ fs, f.attrs.maxLen ≠ 0 → f.attrs.ft = b!"Tx")
    (hfl : ∀ d ∈ data, ∀ x y, d.2 ≠ .float x y)
    (h : validateFormData fs data = []) : validateSchema ck (toSchema sub extra fs) data = [] := by
  obtain ⟨h1, h2⟩ := (C48_validate fs data).1 h
  have hat : ∀ full f, FieldAt2 fs full f ↔ f ∈ fs ∧ full = f.attrs.t := by
    intro full f
    constructor
    · intro hf
      cases hf with
      | top hm => exact ⟨hm, rfl⟩
      | kid hp hk => rw [hflat _ hp] at hk; simp at hk
    · rintro ⟨hm, rfl⟩; exact .top hm
  rw [C128_valid]
  constructor
  · intro d hd
    obtain ⟨f, full, hf, hacc⟩ := h1 d hd
    obtain ⟨k1, k2⟩ := findField_some fs d.1 f full hf
    obtain ⟨hm, rfl⟩ := (hat full f).1 k1
    have hname : f.attrs.t = d.1 := by rcases k2 with h | h <;> exact h
    obtain ⟨a, b, rfl⟩ := List.append_of_mem hm
    refine ⟨toQuestion sub f.attrs (extra f), ⟨toSchema sub extra a, toSchema sub extra b, by simp [toSchema], hname, ?_⟩, ?_⟩
    · intro r hr
      obtain ⟨g, hg, rfl⟩ := List.mem_map.1 hr
      show g.attrs.t ≠ d.1
      rw [← hname]
      intro he
      rw [List.map_append, List.map_cons, List.nodup_append] at hn
      exact (List.nodup_cons.1 hn.2.1).1 (he ▸ List.mem_map.2 ⟨g, hg, rfl⟩)
    · have hvt : valueText d.2 = fmtV d.2 := by
        cases hv : d.2 with
        | float x y => exact absurd hv (hfl d hd x y)
        | _ => rfl
      have hval : ∀ l, (toQuestion sub f.attrs (extra f)).validation = some l → f.attrs.maxLen ≠ 0 ∧ l = { maxLength := some (f.attrs.maxLen : Int) } := by
        intro l hl
        simp only [toQuestion] at hl
        split at hl
        · rename_i hpos; exact ⟨by omega, (Option.some.inj hl).symm⟩
        · cases hl
      refine ⟨?_, ?_, ?_, ?_, ?_⟩
      · intro l m hl hm'; obtain ⟨_, rfl⟩ := hval l hl; cases hm'
      · intro l m hl hm'
        obtain ⟨hpos, rfl⟩ := hval l hl
        cases hm'
        rw [hvt]
        have := hacc.text (htx f (by simp) hpos) hpos
        omega
      · intro l hl hp; obtain ⟨_, rfl⟩ := hval l hl; exact absurd rfl hp
      · intro l m x hl _ hm'; obtain ⟨_, rfl⟩ := hval l hl; cases hm'
      · intro l m x hl _ hm'; obtain ⟨_, rfl⟩ := hval l hl; cases hm'
  · intro q hq hr
    obtain ⟨f, hf, rfl⟩ := List.mem_map.1 hq
    refine h2 f.attrs.t f ((hat _ f).2 ⟨hf, rfl⟩) ?_
    have : decide (f.attrs.ff &&& 2 ≠ 0) = true := hr
    rw [decide_eq_true_iff] at this
    exact (and_flag _ 2 2 rfl).1 this

/-- C129 is violated: the schema has no rule for options and none for blank required values, so validation against it accepts a choice
that is not among the options and a blank required field, which the validation against the form rejects. -/
theorem C129_weaker_violated (ck : Checks F) (sub : F → F → F) (extra : Field → Extra F) :
    ∃ fs data, (∀ f ∈ fs, f.kids = []) ∧ (fs.map (·.attrs.t)).Nodup ∧
      validateFormData fs data = [.notOption b!"c", .required b!"r"] ∧ validateSchema ck (toSchema sub extra fs) data = [] := by
  refine ⟨[.mk { num := 1, gen := 0, ft := b!"Ch", t := b!"c", opt := [b!"x", b!"y"] } [],
    .mk { num := 2, gen := 0, ft := b!"Tx", t := b!"r", ff := 2 } []], [(b!"c", .str b!"z"), (b!"r", .str [])], ?_, by decide, by decide, ?_⟩
  · intro f hf
    simp at hf
    rcases hf with rfl | rfl <;> rfl
  · rw [C128_valid]
    constructor
    · intro d hd
      simp at hd
      rcases hd with rfl | rfl
      · exact ⟨_, ⟨[], _, rfl, rfl, by intro r hr; simp [Field.attrs] at hr; subst hr; simp [toQuestion]⟩,
          ⟨by simp [toQuestion, Field.attrs], by simp [toQuestion, Field.attrs], by simp [toQuestion, Field.attrs], by simp [toQuestion, Field.attrs], by simp [toQuestion, Field.attrs]⟩⟩
      · exact ⟨_, ⟨[_], [], rfl, rfl, by simp⟩,
          ⟨by simp [toQuestion, Field.attrs], by simp [toQuestion, Field.attrs], by simp [toQuestion, Field.attrs], by simp [toQuestion, Field.attrs], by simp [toQuestion, Field.attrs]⟩⟩
    · intro q hq _
      simp [toSchema, toQuestion, Field.attrs] at hq
      rcases hq with rfl | rfl <;> simp

/-- The hypotheses of `C129_schema_accepts_partial` hold for a form with a limited text and a choice. -/
example : let fs : List Field := [.mk { num := 1, gen := 0, ft := b!"Ch", t := b!"c", opt := [b!"x", b!"y"] } [], .mk { num := 2, gen := 0, ft := b!"Tx", t := b!"r", ff := 2, maxLen := 4 } []]
    (∀ f ∈ fs, f.kids = []) ∧ (fs.map (·.attrs.t)).Nodup ∧ validateFormData fs [(b!"c", .str b!"y"), (b!"r", .int 1234)] = [] := by
  refine ⟨?_, by decide, by decide +kernel⟩
  intro f hf
  simp at hf
  rcases hf with rfl | rfl <;> rfl

end Pdfer.Props
