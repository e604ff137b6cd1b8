import Verif.Proofs.FormXFA
import Verif.Proofs.XFAFields

/-! C119, C120: form schemas and XFA templates. -/

namespace Pdfer.Props

open Pdfer.Go Pdfer.XFA Pdfer.FormXFA Pdfer.Spec.FormXFA
open Pdfer.Datasets (DVal trim_eq)
open Pdfer.Spec.Datasets (Trimmed)
open Pdfer.Spec.Builder (InOrder)
open Pdfer.Spec.XFA (ValidId)

variable {F : Type}

/-- The question read says what the question written said: its name, title texts (without white space at the ends), type (one that has a name
of its own in templates), flags (hidden, when it is not read only), default (a text without white space at the ends), number of options, the
script and message of its validation, its position and size (numbers whose text is read as that number), and the page if it is among the
properties. -/
structure SurvivesXFA (lib : Lib F) (r q : Question F) : Prop where
  name : r.name = q.name
  label : Trimmed q.label → r.label = q.label
  description : Trimmed q.description → r.description = q.description
  type : OwnType q.type → r.type = q.type
  required : r.required = q.required
  readOnly : r.readOnly = q.readOnly
  hidden : q.readOnly = false → r.hidden = q.hidden
  dflt : ∀ t, q.dflt = some (.str t) → Trimmed t → t ≠ [] → r.dflt = some (.str t)
  noDflt : q.dflt = none → r.dflt = none
  options : r.options.length = q.options.length
  validation : r.validation.map (fun v => (v.script, v.message)) = q.validation.map fun v => (v.script, v.message)
  layout : (q.properties.map (·.1)).Nodup → ∀ n ∈ [b!"x", b!"y", b!"w", b!"h"], ∀ x, Map.get q.properties n = some (.float x) →
    lib.parse (trimSpace (lib.print (.float x))) = some x → Map.get r.properties n = some (.float x)
  page : ∀ n : Int, 0 < n → n ≤ 9223372036854775807 → Map.get q.properties b!"page_number" = some (.int n) → r.page = n

/-- The pages in the properties are Go integers. -/
def IntPages (s : Schema F) : Prop := ∀ q ∈ s.questions, ∀ n, Map.get q.properties b!"page_number" = some (.int n) → n ≤ 9223372036854775807

theorem intPages_of {s : Schema F} (h : IntPages s) {q : Question F} (hq : q ∈ s.questions) (n : Int) (hn : pageOf q = some n) : n ≤ 9223372036854775807 := by
  unfold pageOf at hn
  split at hn
  · rename_i m hm
    split at hn
    · cases hn; exact h q hq _ hm
    · cases hn
  · cases hn

theorem readField_name (lib : Lib F) (q : Question F) (hp : ∀ n, pageOf q = some n → n ≤ 9223372036854775807) :
    readField lib q =
      { name := q.name, type := if q.type ≠ [] then typeToXFA q.type else [], required := q.required, readOnly := q.readOnly
        hidden := q.hidden && !q.readOnly, page := (pageOf q).getD 1, properties := layoutAll lib q.properties []
        label := trimSpace q.label, description := trimSpace q.description, value := dfltText lib q, dflt := dfltText lib q
        options := q.options.map fun _ => [], validation := q.validation.map fun v => { script := v.script, message := v.message } } := by
  unfold readField
  rw [attrs_read lib q hp]

theorem type_back {t : Bytes} (h : OwnType t) : typeOfXFA (if t ≠ [] then typeToXFA t else []) = t := by
  unfold OwnType at h
  revert t
  decide

theorem question_survives (lib : Lib F) (hs : ∀ t, lib.print (.str t) = t) (q : Question F) (hp : ∀ n, pageOf q = some n → n ≤ 9223372036854775807) (i : Nat) :
    SurvivesXFA lib (toQuestion (readField lib q) i) q := by
  rw [readField_name lib q hp]
  refine ⟨rfl, fun h => trim_eq h, fun h => trim_eq h, fun h => type_back h, rfl, rfl, fun h => by simp [toQuestion, h], ?_, ?_, by simp [toQuestion], ?_, ?_, ?_⟩
  · intro t ht h1 h2
    simp [toQuestion, dfltText, ht, hs, trim_eq h1, h2]
  · intro h
    simp [toQuestion, dfltText, h]
  · cases hv : q.validation <;> simp [toQuestion, hv]
  · intro hn n hm x hx hpx
    have hl : isLayout n := by
      simp only [List.mem_cons, List.not_mem_nil, or_false] at hm
      exact hm
    simp [toQuestion, layoutAll_get lib q.properties hn, hl, hx, layoutRead, hpx]
  · intro n h0 _ h2
    simp [toQuestion, pageOf, h2, h0]

theorem read_schema (lib : Lib F) (s : Schema F) {dec : List Tok} (hw : Woven (formToXFA lib s) dec) :
    parseForm lib dec = .ok { title := s.title, questions := ((s.questions.map (readField lib)).zipIdx 1).map fun p => toQuestion p.1 p.2
                              rules := rulesOf (s.questions.map (readField lib)) } := by
  unfold parseForm
  rw [read_written lib s hw]
  rfl

theorem zip_inOrder {α β γ : Type} {R : β → γ → Prop} (f : α → Nat → β) (g : γ → α) (l : List γ) (i : Nat) (h : ∀ x ∈ l, ∀ i, R (f (g x) i) x) :
    InOrder R (((l.map g).zipIdx i).map fun p => f p.1 p.2) l := by
  induction l generalizing i with
  | nil => exact .nil
  | cons x xs ih => exact .cons (h x (by simp) i) (ih (i + 1) fun y hy => h y (List.mem_cons_of_mem _ hy))

/-- C119 (partial: what `SurvivesXFA` lists; see below for what is lost): a schema that `FormToXFA` wrote is read by `ParseXFAForm`, however the
decoder delivers the indentation, with the same title and the same questions in the same order. -/
theorem C119_roundtrip_partial (lib : Lib F) (hs : ∀ t, lib.print (.str t) = t) (s : Schema F) (hp : IntPages s)
    {dec : List Tok} (hw : Woven (formToXFA lib s) dec) :
    ∃ r, parseForm lib dec = .ok r ∧ r.title = s.title ∧ InOrder (SurvivesXFA lib) r.questions s.questions := by
  refine ⟨_, read_schema lib s hw, rfl, ?_⟩
  exact zip_inOrder toQuestion (readField lib) s.questions 1 fun q hq i => question_survives lib hs q (fun n hn => intPages_of hp hq n hn) i

/-- C119: all rules of the schema are lost, and its description and version: for every schema. -/
theorem C119_rules_violated (lib : Lib F) (s : Schema F) {dec : List Tok} (hw : Woven (formToXFA lib s) dec) :
    ∃ r, parseForm lib dec = .ok r ∧ r.rules = [] ∧ r.description = [] ∧ r.version = [] := by
  refine ⟨_, read_schema lib s hw, ?_, rfl, rfl⟩
  have : ∀ qs : List (Question F), ((qs.map (readField lib)).flatMap fun f => f.events.map fun e => (e, f.name)) = [] := by
    intro qs
    induction qs with
    | nil => rfl
    | cons q qs ih => rw [List.map_cons, List.flatMap_cons, ih]; simp [readField]
  simp [rulesOf, this]

/-- C119: of every question, the value and label of every option are lost, the pattern and limits of its validation, its page number (unless it is
also among the properties, every page becomes page 1), and its hidden flag if it is read only; and a select question becomes a text question. -/
theorem C119_questions_violated (lib : Lib F) (s : Schema F) (hp : IntPages s) {dec : List Tok} (hw : Woven (formToXFA lib s) dec) :
    ∃ r, parseForm lib dec = .ok r ∧ InOrder (fun r q =>
      (∀ o ∈ r.options, o.value = [] ∧ o.label = []) ∧
      (∀ v, r.validation = some v → v.pattern = [] ∧ v.limits = false) ∧
      (Map.get q.properties b!"page_number" = none → r.page = 1) ∧
      (q.readOnly = true → r.hidden = false) ∧
      (q.type = b!"select" → r.type = b!"text")) r.questions s.questions := by
  refine ⟨_, read_schema lib s hw, ?_⟩
  refine zip_inOrder toQuestion (readField lib) s.questions 1 fun q hq i => ?_
  rw [readField_name lib q fun n hn => intPages_of hp hq n hn]
  refine ⟨?_, ?_, ?_, ?_, ?_⟩
  · intro o ho
    simp only [toQuestion, List.map_map, List.mem_map] at ho
    obtain ⟨_, _, rfl⟩ := ho
    exact ⟨rfl, rfl⟩
  · intro v hv
    simp only [toQuestion, Option.map_eq_some_iff] at hv
    obtain ⟨_, _, rfl⟩ := hv
    exact ⟨rfl, rfl⟩
  · intro h
    simp [toQuestion, pageOf, h]
  · intro h
    simp [toQuestion, h]
  · intro h
    simp only [toQuestion, h]
    decide

/-! ### Templates -/

/-- The schema of the fields read. -/
def schemaOf (st : St F) : Schema F :=
  { title := st.title, questions := (st.fields.zipIdx 1).map fun p => toQuestion p.1 p.2, rules := rulesOf st.fields }

theorem parse_of {lib : Lib F} {toks : List Tok} {s : St F} (h : run lib toks {} = .ok s) : parseForm lib toks = .ok (schemaOf s) := by
  unfold parseForm
  rw [h]
  rfl

/-- C120: `ParseXFAForm` crashes on no template: whatever the decoder delivers. -/
theorem C120_no_crash (lib : Lib F) (toks : List Tok) : ∃ r, parseForm lib toks = .ok r := by
  obtain ⟨s, hs, _⟩ := good_run lib toks {} good_init
  exact ⟨_, parse_of hs⟩

theorem sanitizeIdx_valid (n : Bytes) (i : Nat) : ValidId (sanitizeIdx n i) := by
  have hf : b!"field_" ++ natDec i = fieldN i := rfl
  unfold sanitizeIdx
  split
  · rw [hf]; exact fieldN_valid i
  · simp only
    by_cases h : n.filterMap idChar = []
    · rw [if_pos h, hf]
      have hv := fieldN_valid i
      have : isDigit ((fieldN i).headD 0) = false := by simp [fieldN, isDigit]
      rw [if_neg (by rw [this]; simp)]
      exact hv
    · have := sanitize_valid n
      unfold sanitizeFieldID at this
      simp only [h, if_false] at this
      rw [if_neg h]
      exact this

/-- C120: whatever the template, every question has an identifier: letters, digits and underscores, no digit in front, never empty. -/
theorem C120_ids (lib : Lib F) (toks : List Tok) (r : Schema F) (h : parseForm lib toks = .ok r) : ∀ q ∈ r.questions, ValidId q.id := by
  unfold parseForm at h
  cases hr : run lib toks {} with
  | ok s =>
    rw [hr] at h
    cases h
    intro q hq
    simp only [List.mem_map] at hq
    obtain ⟨p, _, rfl⟩ := hq
    exact sanitizeIdx_valid _ _
  | err => rw [hr] at h; cases h
  | panic => rw [hr] at h; cases h

/-- C120: but not one of its own: two fields of different names get the same identifier. -/
theorem C120_ids_violated (lib : Lib F) : ∃ r, parseForm lib [.start b!"field" [(b!"name", b!"a b")], .close b!"field",
    .start b!"field" [(b!"name", b!"a-b")], .close b!"field"] = .ok r ∧ r.questions.map (·.id) = [b!"a_b", b!"a_b"] ∧
    r.questions.map (·.name) = [b!"a b", b!"a-b"] := by
  refine ⟨_, rfl, ?_, ?_⟩ <;> rfl

theorem attrs_name (lib : Lib F) (f : TField) (n : Bytes) (h : f.Ok n) : (f.attrs.foldl (fieldAttr lib) {}).name = n := by
  obtain ⟨a, b, hab, hb⟩ := h.name
  rw [hab, List.foldl_append, List.foldl_cons]
  generalize a.foldl (fieldAttr lib) {} = g
  have h1 : (fieldAttr lib g (b!"name", n)).name = n := by simp [fieldAttr]
  generalize fieldAttr lib g (b!"name", n) = g' at h1
  clear hab
  induction b generalizing g' with
  | nil => exact h1
  | cons x xs ih =>
    rw [List.foldl_cons]
    refine ih (fun y hy => hb y (List.mem_cons_of_mem _ hy)) _ ?_
    have := hb x (by simp)
    unfold fieldAttr
    rw [if_neg this]
    repeat' split
    all_goals exact h1

theorem inOrder_append {α β : Type} {R : α → β → Prop} {a a' : List α} {b b' : List β} (h : InOrder R a b) (h' : InOrder R a' b') : InOrder R (a ++ a') (b ++ b') := by
  induction h with
  | nil => exact h'
  | cons hr _ ih => exact .cons hr ih

/-- The field read has what the attributes of the field say. -/
def KeyOf (lib : Lib F) (g : FieldData F) (f : TField) : Prop := key g = key (f.attrs.foldl (fieldAttr lib) {})

theorem fields_top (lib : Lib F) (fs : List TField) (hb : ∀ f ∈ fs, ∀ t ∈ f.body, Plain t) (st : St F) (hg : Good st) (hs : st.inSub = false) :
    ∃ gs s, run lib (fs.flatMap TField.toks) st = .ok s ∧ Good s ∧ s.inSub = false ∧ s.sub = st.sub ∧ s.fields = st.fields ++ gs ∧ InOrder (KeyOf lib) gs fs := by
  induction fs generalizing st with
  | nil => exact ⟨[], st, rfl, hg, hs, rfl, by simp, .nil⟩
  | cons f fs ih =>
    obtain ⟨g, s1, h1, g1, k1, i1, m1⟩ := field_run lib f (hb f (by simp)) st hg
    rw [hs] at m1 i1
    obtain ⟨gs, s2, h2, g2, i2, u2, f2, o2⟩ := ih (fun x hx => hb x (List.mem_cons_of_mem _ hx)) s1 g1 i1
    refine ⟨g :: gs, s2, ?_, g2, i2, u2.trans m1.1, ?_, .cons k1 o2⟩
    · rw [List.flatMap_cons, run_append, h1]; exact h2
    · rw [f2, m1.2]; simp

theorem fields_sub (lib : Lib F) (fs : List TField) (hb : ∀ f ∈ fs, ∀ t ∈ f.body, Plain t) (st : St F) (hg : Good st) (hs : st.inSub = true) (l : List (FieldData F))
    (hl : st.sub = some l) :
    ∃ gs s, run lib (fs.flatMap TField.toks) st = .ok s ∧ Good s ∧ s.inSub = true ∧ s.sub = some (l ++ gs) ∧ s.fields = st.fields ∧ InOrder (KeyOf lib) gs fs := by
  induction fs generalizing st l with
  | nil => exact ⟨[], st, rfl, hg, hs, by simpa using hl, rfl, .nil⟩
  | cons f fs ih =>
    obtain ⟨g, s1, h1, g1, k1, i1, m1⟩ := field_run lib f (hb f (by simp)) st hg
    rw [hs, hl] at m1
    rw [hs] at i1
    obtain ⟨gs, s2, h2, g2, i2, u2, f2, o2⟩ := ih (fun x hx => hb x (List.mem_cons_of_mem _ hx)) s1 g1 i1 _ m1.1
    refine ⟨g :: gs, s2, ?_, g2, i2, ?_, f2.trans m1.2, .cons k1 o2⟩
    · rw [List.flatMap_cons, run_append, h1]; exact h2
    · rw [u2]; simp

/-- Outside of subforms. -/
structure Outside (st : St F) : Prop where
  good : Good st
  inSub : st.inSub = false

theorem sub_start (lib : Lib F) (st : St F) (as : List (Bytes × Bytes)) : step lib st (.start b!"subform" as) = .ok { st with inSub := true, sub := some [] } := by
  simp [step, onStart]

theorem sub_close (lib : Lib F) (st : St F) : step lib st (.close b!"subform") = .ok { st with fields := st.fields ++ st.sub.getD [], inSub := false, sub := none } := by
  simp [step, onEnd]

theorem item_run (lib : Lib F) (i : Item) (hi : i.Ok) (hb : ∀ f ∈ i.fields, ∀ t ∈ f.body, Plain t) (st : St F) (ho : Outside st) :
    ∃ gs s, run lib i.toks st = .ok s ∧ Outside s ∧ s.fields = st.fields ++ gs ∧ InOrder (KeyOf lib) gs i.fields := by
  cases i with
  | field f =>
    obtain ⟨gs, s, h1, h2, h3, _, h5, h6⟩ := fields_top lib [f] (by simpa [Item.fields] using hb) st ho.good ho.inSub
    exact ⟨gs, s, by simpa [Item.toks] using h1, ⟨h2, h3⟩, h5, h6⟩
  | subform as fs =>
    obtain ⟨gs, s, h1, h2, h3, h4, h5, h6⟩ := fields_sub lib fs hb { st with inSub := true, sub := some [] } ho.good rfl [] rfl
    refine ⟨gs, { s with fields := s.fields ++ s.sub.getD [], inSub := false, sub := none }, ?_, ⟨h2, rfl⟩, ?_, h6⟩
    · simp only [Item.toks, run, sub_start, Res.bind, run_append, h1]
      rw [sub_close]
    · simp [h4, h5]
  | other t =>
    obtain ⟨s, hs, hg⟩ := good_step lib st ho.good t
    obtain ⟨a1, a2, a3, a4, a5⟩ := plain_step lib st t hi s hs
    exact ⟨[], s, by simp [Item.toks, run, hs, Res.bind], ⟨hg, a3.trans ho.inSub⟩, by simpa using a1, .nil⟩

theorem items_run (lib : Lib F) (items : List Item) (hi : ∀ i ∈ items, i.Ok) (hb : ∀ i ∈ items, ∀ f ∈ i.fields, ∀ t ∈ f.body, Plain t) (st : St F) (ho : Outside st) :
    ∃ gs s, run lib (items.flatMap Item.toks) st = .ok s ∧ Outside s ∧ s.fields = st.fields ++ gs ∧ InOrder (KeyOf lib) gs (items.flatMap Item.fields) := by
  induction items generalizing st with
  | nil => exact ⟨[], st, rfl, ho, by simp, .nil⟩
  | cons i is ih =>
    obtain ⟨g1, s1, r1, o1, f1, k1⟩ := item_run lib i (hi i (by simp)) (hb i (by simp)) st ho
    obtain ⟨g2, s2, r2, o2, f2, k2⟩ := ih (fun x hx => hi x (List.mem_cons_of_mem _ hx)) (fun x hx => hb x (List.mem_cons_of_mem _ hx)) s1 o1
    refine ⟨g1 ++ g2, s2, ?_, o2, by rw [f2, f1]; simp, ?_⟩
    · rw [List.flatMap_cons, run_append, r1]; exact r2
    · rw [List.flatMap_cons]; exact inOrder_append k1 k2

theorem questions_of {α : Type} {R : FieldData F → α → Prop} {S : Question F → α → Prop} {gs : List (FieldData F)} {fs : List α} (h : InOrder R gs fs)
    (hs : ∀ g f i, f ∈ fs → R g f → S (toQuestion g i) f) (i : Nat) : InOrder S ((gs.zipIdx i).map fun p => toQuestion p.1 p.2) fs := by
  induction h generalizing i with
  | nil => exact .nil
  | cons hr _ ih => exact .cons (hs _ _ _ (by simp) hr) (ih (fun g f i hf => hs g f i (List.mem_cons_of_mem _ hf)) (i + 1))

/-- C120 (partial: no subform within a subform): every field of the template, at the top or in a subform, whatever else the template has and
whatever is in the field, is one question, in the order of the template, with the field's name; and there are no other questions. -/
theorem C120_fields_partial (lib : Lib F) (items : List Item) (hi : ∀ i ∈ items, i.Ok) (hf : ∀ i ∈ items, ∀ f ∈ i.fields, ∃ n, f.Ok n) :
    ∃ r, parseForm lib (items.flatMap Item.toks) = .ok r ∧ InOrder (fun q f => TField.Ok f q.name) r.questions (items.flatMap Item.fields) := by
  obtain ⟨gs, s, hr, _, hfs, hk⟩ := items_run lib items hi (fun i h f hm => (hf i h f hm).choose_spec.body) {} ⟨good_init, rfl⟩
  refine ⟨_, parse_of hr, ?_⟩
  simp only [schemaOf, hfs, List.nil_append]
  refine questions_of (R := KeyOf lib) hk (fun g f i hm h => ?_) 1
  obtain ⟨it, h1, h2⟩ := List.mem_flatMap.1 hm
  obtain ⟨n, hn⟩ := hf it h1 f h2
  have h3 := attrs_name lib f n hn
  have : g.name = (f.attrs.foldl (fieldAttr lib) {}).name := by
    have := congrArg Prod.fst h
    exact this
  show TField.Ok f g.name
  rw [this, h3]
  exact hn

/-- C120: in a subform that has a subform in it, the fields before the inner subform are lost, all of them: whatever the fields, only those of the
inner subform and those after it are read. -/
theorem C120_nested_violated (lib : Lib F) (as as' : List (Bytes × Bytes)) (before inside after : List TField)
    (hf : ∀ f ∈ before ++ inside ++ after, ∃ n, f.Ok n) :
    ∃ r, parseForm lib (.start b!"subform" as :: (before.flatMap TField.toks ++ .start b!"subform" as' :: (inside.flatMap TField.toks ++
        .close b!"subform" :: (after.flatMap TField.toks ++ [.close b!"subform"])))) = .ok r ∧
      InOrder (fun q f => TField.Ok f q.name) r.questions (inside ++ after) := by
  have hb : ∀ l : List TField, (∀ f ∈ l, f ∈ before ++ inside ++ after) → ∀ f ∈ l, ∀ t ∈ f.body, Plain t :=
    fun l hl f hm => (hf f (hl f hm)).choose_spec.body
  obtain ⟨g1, s1, r1, o1, i1, u1, f1, k1⟩ := fields_sub lib before (hb _ (by simp +contextual)) { ({} : St F) with inSub := true, sub := some [] } good_init rfl [] rfl
  obtain ⟨g2, s2, r2, o2, i2, u2, f2, k2⟩ := fields_sub lib inside (hb _ (by simp +contextual)) { s1 with inSub := true, sub := some [] } o1 rfl [] rfl
  obtain ⟨g3, s3, r3, o3, i3, u3, f3, k3⟩ := fields_top lib after (hb _ (by simp +contextual)) { s2 with fields := s2.fields ++ s2.sub.getD [], inSub := false, sub := none } o2 rfl
  refine ⟨schemaOf { s3 with fields := s3.fields ++ s3.sub.getD [], inSub := false, sub := none }, parse_of ?_, ?_⟩
  · simp only [run, sub_start, Res.bind, run_append, r1, r2, sub_close, r3]
  · simp only at u3 f3 f2 f1
    simp only [schemaOf, u3, f3, f2, f1, u2, Option.getD_none, Option.getD_some, List.append_nil, List.nil_append]
    refine questions_of (R := KeyOf lib) (inOrder_append k2 k3) (fun g f i hm h => ?_) 1
    obtain ⟨n, hn⟩ := hf f (by simp only [List.mem_append] at hm ⊢; rcases hm with h | h <;> simp [h])
    have h3 := attrs_name lib f n hn
    have : g.name = (f.attrs.foldl (fieldAttr lib) {}).name := congrArg Prod.fst h
    show TField.Ok f g.name
    rw [this, h3]
    exact hn

theorem attrs_no_type (lib : Lib F) (as : List (Bytes × Bytes)) (h : ∀ a ∈ as, a.1 ≠ b!"type") (f : FieldData F) : (as.foldl (fieldAttr lib) f).type = f.type := by
  induction as generalizing f with
  | nil => rfl
  | cons a as ih =>
    rw [List.foldl_cons, ih fun x hx => h x (List.mem_cons_of_mem _ hx)]
    have := h a (by simp)
    unfold fieldAttr
    rw [if_neg this]
    repeat' split
    all_goals rfl

/-- C120: XFA says what a field is with its `ui` element (a choice list, a check button …): the parser does not look at it. Whatever is in a
field without a `type` attribute, the question is a text question. -/
theorem C120_ui_violated (lib : Lib F) (f : TField) (n : Bytes) (hf : f.Ok n) (ht : ∀ a ∈ f.attrs, a.1 ≠ b!"type") :
    ∃ r q, parseForm lib f.toks = .ok r ∧ r.questions = [q] ∧ q.type = b!"text" := by
  obtain ⟨gs, s, hr, _, _, _, hfs, hk⟩ := fields_top lib [f] (by simpa using hf.body) {} good_init rfl
  cases hk with
  | cons h1 h2 =>
    cases h2
    rename_i g
    have hr' : run lib f.toks {} = .ok s := by simpa using hr
    refine ⟨_, toQuestion g 1, parse_of hr', by simp [schemaOf, hfs], ?_⟩
    have : g.type = (f.attrs.foldl (fieldAttr lib) {}).type := congrArg (fun k => k.2.1) h1
    rw [attrs_no_type lib _ ht] at this
    show typeOfXFA g.type = _
    rw [this]
    rfl

/-- C120: XFA gives a field its label with a `caption` that has a value; the parser takes it for the default, and the field's own value for
nothing: whatever the two texts. -/
theorem C120_caption_violated (lib : Lib F) (n c v : Bytes) (hc : Trimmed c) (hc0 : c ≠ []) :
    ∃ r q, parseForm lib [.start b!"field" [(b!"name", n)], .start b!"caption" [], .start b!"value" [], .start b!"text" [], .chars c, .close b!"text",
        .close b!"value", .close b!"caption", .start b!"value" [], .start b!"text" [], .chars v, .close b!"text", .close b!"value",
        .close b!"field"] = .ok r ∧ r.questions = [q] ∧ q.dflt = some (.str c) ∧ q.label = [] := by
  have h1 := trim_eq hc
  have h2 : trimSpace ([] : Bytes) = [] := by decide
  have hr : run lib [.start b!"field" [(b!"name", n)], .start b!"caption" [], .start b!"value" [], .start b!"text" [], .chars c, .close b!"text",
        .close b!"value", .close b!"caption", .start b!"value" [], .start b!"text" [], .chars v, .close b!"text", .close b!"value",
        .close b!"field"] {} = .ok { fields := [{ name := n, value := if v = [] then c else trimSpace v, dflt := c }] } := by
    by_cases hv0 : v = []
    · subst hv0
      simp [run, step, onStart, onEnd, Res.bind, fieldAttr, FormXFA.finish, h1, hc0, h2]
    · by_cases hv : trimSpace v = []
      · simp [run, step, onStart, onEnd, Res.bind, fieldAttr, FormXFA.finish, h1, hc0, hv, hv0]
      · simp [run, step, onStart, onEnd, Res.bind, fieldAttr, FormXFA.finish, h1, hc0, hv, hv0]
  refine ⟨_, _, parse_of hr, rfl, ?_, rfl⟩
  simp [toQuestion, hc0]

/-- C120: the script of an event and the texts of the items are lost, whatever they are: the rule has no action, the option no value. -/
theorem C120_text_violated (lib : Lib F) (n a script item : Bytes) :
    ∃ r q rule, parseForm lib [.start b!"field" [(b!"name", n)], .start b!"items" [], .start b!"text" [], .chars item, .close b!"text", .close b!"items",
        .start b!"event" [(b!"activity", a)], .start b!"script" [], .chars script, .close b!"script", .close b!"event", .close b!"field"] = .ok r ∧
      r.questions = [q] ∧ q.options = [{ value := [], label := [] }] ∧ r.rules = [rule] ∧ rule.source = n ∧ rule.actions = [] := by
  have h2 : trimSpace ([] : Bytes) = [] := by decide
  have hr : run lib [.start b!"field" [(b!"name", n)], .start b!"items" [], .start b!"text" [], .chars item, .close b!"text", .close b!"items",
        .start b!"event" [(b!"activity", a)], .start b!"script" [], .chars script, .close b!"script", .close b!"event", .close b!"field"] {} =
      .ok { fields := [{ name := n, options := [[]], events := [{ type := a }] }] } := by
    simp [run, step, onStart, onEnd, Res.bind, fieldAttr, FormXFA.finish, withCur, eventAttr, h2]
  exact ⟨_, _, _, parse_of hr, rfl, rfl, rfl, rfl, rfl⟩

/-! ### The hypotheses can be met -/

/-- No floating point numbers; values are printed for the examples only. -/
def exLib : Lib Unit :=
  { parse := fun s => if s = b!"1.5" then some () else none
    print := fun v => match v with | .str s => s | .float _ => b!"1.5" | .int n => itoa n | .bool true => b!"true" | .bool false => b!"false" | .nil => b!"<nil>" }

/-- A schema with two questions and a rule. -/
def exSchema : Schema Unit :=
  { title := b!"T"
    questions := [{ id := b!"a", name := b!"a", label := b!"A label", type := b!"number", required := true, dflt := some (.str b!"x")
                    properties := [(b!"x", .float ()), (b!"page_number", .int 3)], page := 3 },
                  { id := b!"b", name := b!"b", type := b!"select", options := [{ value := b!"1", label := b!"One" }], page := 2 }]
    rules := [{ id := b!"r", type := b!"validate", actions := [(b!"s", [])] }] }

theorem woven_refl (l : List Tok) : Woven l l := by
  induction l with
  | nil => exact .nil
  | cons t ts ih => exact .keep t ih

example : ∃ r, parseForm exLib (formToXFA exLib exSchema) = .ok r ∧ r.title = b!"T" ∧ InOrder (SurvivesXFA exLib) r.questions exSchema.questions :=
  C119_roundtrip_partial exLib (fun _ => rfl) exSchema (by
    intro q hq n hn
    simp only [exSchema, List.mem_cons, List.not_mem_nil, or_false] at hq
    rcases hq with rfl | rfl
    · simp [Map.get] at hn; omega
    · simp [Map.get] at hn) (woven_refl _)

/-- Indentation is among what the decoder may deliver. -/
example : Woven (formToXFA exLib { title := b!"t" }) [.start b!"template" [(b!"title", b!"t")], .chars b!"\n", .close b!"template"] :=
  .keep _ (.indent _ _ (by simp [Indentable]) .nil)

/-- A field with a name and something in it. -/
def exTField (n : Bytes) : TField := { attrs := [(b!"name", n), (b!"w", b!"1.5")], body := [.start b!"ui" [], .close b!"ui", .chars b!"\n"] }

theorem exTField_ok (n : Bytes) : (exTField n).Ok n :=
  ⟨⟨[], [(b!"w", b!"1.5")], rfl, by decide⟩, by simp [exTField, Plain]⟩

/-- A field and a subform of two. -/
example : ∃ r, parseForm exLib (([.field (exTField b!"a"), .other (.chars b!"\n"), .subform [] [exTField b!"b", exTField b!"c"]] : List Item).flatMap Item.toks) = .ok r ∧
    InOrder (fun q f => TField.Ok f q.name) r.questions [exTField b!"a", exTField b!"b", exTField b!"c"] := by
  have := C120_fields_partial exLib [.field (exTField b!"a"), .other (.chars b!"\n"), .subform [] [exTField b!"b", exTField b!"c"]]
    (by simp [Item.Ok, Plain]) (by
      intro i hi f hm
      simp only [List.mem_cons, List.not_mem_nil, or_false] at hi
      rcases hi with rfl | rfl | rfl <;> simp [Item.fields] at hm
      · exact ⟨_, hm ▸ exTField_ok _⟩
      · rcases hm with rfl | rfl <;> exact ⟨_, exTField_ok _⟩)
  simpa [Item.fields] using this

end Pdfer.Props
