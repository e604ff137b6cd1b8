import Verif.Proofs.XFAFields
import Verif.Proofs.XFAUpdate
import Verif.Proofs.XFAReplace
import Verif.Proofs.Rebuild

/-! C100 – C103: XFA fields, values and streams. -/

namespace Pdfer.Props

open Pdfer.Go Pdfer.XFA Pdfer.Spec Pdfer.Spec.XFA
open Pdfer.Forms (Val fmtV)

/-! ### C100: the fields are well-formed -/

/-- C100: whatever the decoder delivers, every field that `ParseXFAFields` returns has a name that is not empty, which is also its full
name, a type the form model knows, and a valid identifier that is determined by the name. -/
theorem C100_fields (xml : Bytes) (toks : List Tok) (f : XField) (hf : f ∈ parseFields xml toks) :
    f.name ≠ [] ∧ f.fullName = f.name ∧ f.type ∈ Types ∧ ValidId f.id ∧
      ∀ xml' toks' f', f' ∈ parseFields xml' toks' → f'.name = f.name → f'.id = f.id := by
  have h := fields_whole xml toks f hf
  refine ⟨h.named, h.full, h.type, by rw [h.id h.named]; exact sanitize_valid _, ?_⟩
  intro xml' toks' f' hf' hn
  have h' := fields_whole xml' toks' f' hf'
  rw [h.id h.named, h'.id h'.named, hn]

/-- C100: a name that is an identifier already is its own identifier. -/
theorem C100_identifier (xml : Bytes) (toks : List Tok) (f : XField) (hf : f ∈ parseFields xml toks) (h : ValidId f.name) : f.id = f.name := by
  have hw := fields_whole xml toks f hf
  rw [hw.id hw.named]
  exact sanitize_id h

/-- Tokens of a small template. -/
def exToks : List Tok :=
  [.start b!"template" [], .start b!"field" [(b!"name", b!"1st name"), (b!"type", b!"Choice"), (b!"required", b!"1")], .start b!"value" [],
   .start b!"text" [], .chars b!" Ada ", .close b!"text", .close b!"value", .close b!"field", .start b!"field" [(b!"name", b!"age"), (b!"w", b!"30mm")],
   .close b!"field", .start b!"field" [], .close b!"field", .close b!"template"]

example : parseFields b!"<template><field ..." exToks =
    [{ id := b!"field_1st_name", name := b!"1st name", fullName := b!"1st name", type := b!"select", dflt := some b!"Ada", required := true },
     { id := b!"age", name := b!"age", fullName := b!"age", layout := [(b!"w", b!"30mm")] },
     { id := b!"field_3", name := b!"field_3", fullName := b!"field_3" }] := by decide +kernel

/-- C100: the identifiers of different fields need not differ. -/
theorem C100_unique_violated : ∃ xml toks f g, f ∈ parseFields xml toks ∧ g ∈ parseFields xml toks ∧ f.name ≠ g.name ∧ f.id = g.id :=
  ⟨b!"<field", [.start b!"field" [(b!"name", b!"a b")], .close b!"field", .start b!"field" [(b!"name", b!"a-b")], .close b!"field"],
   { id := b!"a_b", name := b!"a b", fullName := b!"a b" }, { id := b!"a_b", name := b!"a-b", fullName := b!"a-b" },
   by decide +kernel, by decide +kernel, by decide, rfl⟩

/-! ### C101: a template -/

/-- C101 (partial: fields are not nested, each has a name attribute and at most one value element, and no other element called value, name
or label): `ParseXFAFields` returns one field for each field element of the template, in the order of the template, with its name, type,
default value, position and flags. -/
theorem C101_template_partial (xml : Bytes) (pre : List Tok) (fs : List (FieldEl × List Tok)) (hx : b!"<field" <:+: xml)
    (hpre : ∀ t ∈ pre, Neutral t)
    (h : ∀ e ∈ fs, (∀ t ∈ e.1.before, Neutral t) ∧ (∀ t ∈ e.1.after, Neutral t) ∧ (∀ v, e.1.value = some v → ∀ t ∈ v, Neutral t) ∧
      (∃ n, attr e.1.attrs b!"name" = some n ∧ n ≠ []) ∧ ∀ t ∈ e.2, Neutral t) :
    (parseFields xml (pre ++ template fs)).length = fs.length ∧
      ∀ (i : Nat) (e : FieldEl × List Tok) (x : XField), fs[i]? = some e → (parseFields xml (pre ++ template fs))[i]? = some x → Describes e.1 x := by
  unfold parseFields
  rw [if_pos (by rw [Manipulate.contains_iff]; exact hx), List.foldl_append, neutral_all pre {} hpre rfl rfl rfl]
  have hidle : Idle {} := by constructor <;> rfl
  obtain ⟨xs, h1, h2, h3⟩ := template_read fs {} hidle h
  rw [h1]
  exact ⟨by simpa using h2, by simpa using h3⟩

/-- A template with two fields. -/
def exTemplate : List (FieldEl × List Tok) :=
  [({ attrs := [(b!"x", b!"1mm"), (b!"name", b!"first"), (b!"type", b!"date")], before := [.chars b!"\n", .start b!"ui" [], .close b!"ui"],
      value := some [.start b!"text" [], .chars b!"Ada", .close b!"text"], after := [.chars b!" "] }, [.chars b!"\n"]),
   ({ attrs := [(b!"name", b!"second"), (b!"access", b!"readOnly"), (b!"required", b!"True")], before := [], value := none, after := [] }, [.close b!"subform"])]

example : (∀ e ∈ exTemplate, (∃ n, attr e.1.attrs b!"name" = some n ∧ n ≠ [])) ∧
    parseFields b!"<field" ([.start b!"subform" []] ++ template exTemplate) =
    [{ id := b!"first", name := b!"first", fullName := b!"first", type := b!"date", dflt := some b!"Ada", layout := [(b!"x", b!"1mm")] },
     { id := b!"second", name := b!"second", fullName := b!"second", required := true, readOnly := true }] := by
  refine ⟨?_, by decide +kernel⟩
  intro e he
  simp only [exTemplate, List.mem_cons, List.not_mem_nil, or_false] at he
  rcases he with rfl | rfl
  · exact ⟨b!"first", by decide, by decide⟩
  · exact ⟨b!"second", by decide, by decide⟩

/-- C101: the default value of a field is not always the content of its own value element: in a field whose caption, which has a value
element too, comes after it, the text of the caption becomes the default value. -/
theorem C101_caption_violated :
    (parseFields b!"<field" [.start b!"field" [(b!"name", b!"a")], .start b!"value" [], .start b!"text" [], .chars b!"Ada", .close b!"text", .close b!"value",
      .start b!"caption" [], .start b!"value" [], .start b!"text" [], .chars b!"Name:", .close b!"text", .close b!"value", .close b!"caption", .close b!"field"]).map (·.dflt) =
    [some b!"Name:"] := by decide +kernel

/-- C101: a template whose elements carry a namespace prefix has no fields for it, although the decoder delivers the same tokens. -/
theorem C101_prefix_violated (toks : List Tok) : parseFields b!"<xfa:template><xfa:field name=\"a\"/></xfa:template>" toks = [] := by
  unfold parseFields
  rw [if_neg (by decide +kernel)]

/-! ### C102: updating values -/

theorem fold_text (data : List (Bytes × Val)) (x : Bytes) :
    updateFieldValues x data = (data.map fun e => (e.1, fmtV e.2)).foldl (fun x e => setFieldValue x e.1 e.2) x := by
  unfold updateFieldValues
  induction data generalizing x with
  | nil => rfl
  | cons d data ih => rw [List.foldl_cons, ih]; rfl

/-- C102 (partial: the fields are not nested, have different names and the name as their first attribute; no name or value contains
markup): `UpdateXFAFieldValues` gives each field named in the form data the value stated there and leaves every other byte as it is,
whatever order Go walks the map in. -/
theorem C102_update_partial (pre : Bytes) (doc : List (XmlField × Bytes)) (data : List (Bytes × Val)) (hd : FlatDoc pre doc)
    (hk : (data.map (·.1)).Nodup) (hm : ∀ d ∈ data, (34 : UInt8) ∉ d.1 ∧ (60 : UInt8) ∉ d.1 ∧ (60 : UInt8) ∉ fmtV d.2) :
    updateFieldValues (pre ++ fieldsText doc) data = pre ++ fieldsText (updated doc (data.map fun e => (e.1, fmtV e.2))) := by
  rw [fold_text]
  apply fold_updated _ _ _ hd
  · simpa [List.map_map, Function.comp_def] using hk
  · intro d hd'
    obtain ⟨e, he, rfl⟩ := List.mem_map.1 hd'
    exact hm e he

/-- C102 (partial, as above): with a data element in the document, `UpdateXFAValues` does the same inside it (from the first `<data` to
the last `</data>`) and keeps what is outside. -/
theorem C102_data_partial (a pre c : Bytes) (doc : List (XmlField × Bytes)) (data : List (Bytes × Val)) (hd : FlatDoc pre doc)
    (hk : (data.map (·.1)).Nodup) (hm : ∀ d ∈ data, (34 : UInt8) ∉ d.1 ∧ (60 : UInt8) ∉ d.1 ∧ (60 : UInt8) ∉ fmtV d.2)
    (ha : Absent b!"<data" a) (hc : (60 : UInt8) ∉ c) (h1 : b!"<data" <+: pre ++ fieldsText doc) (h2 : b!"</data>" <:+ pre ++ fieldsText doc) :
    updateValues (a ++ (pre ++ fieldsText doc) ++ c) data =
      .ok (a ++ (pre ++ fieldsText (updated doc (data.map fun e => (e.1, fmtV e.2)))) ++ c) := by
  have hu := C102_update_partial pre doc data hd hk hm
  generalize pre ++ fieldsText doc = sec at h1 h2 hu
  obtain ⟨u, hu1⟩ := h1
  obtain ⟨v, hv⟩ := h2
  have hi : index b!"<data" (a ++ sec ++ c) = some a.length := by
    rw [← hu1, List.append_assoc, List.append_assoc]
    exact Manipulate.index_first (by decide) ((Incremental.absent_iff (by decide)).1 ha)
  have hl : lastIndex b!"</data>" (a ++ sec ++ c) = some (a.length + v.length) := by
    have h0 : lastIndex b!"</data>" (b!"</data>" ++ c) = some 0 := by
      have hn : lastIndex b!"</data>" (b!"/data>" ++ c) = none := Forms.lastIndex_free (by simp [hc])
      show lastIndex b!"</data>" (60 :: (b!"/data>" ++ c)) = some 0
      rw [lastIndex, hn]
      simp only
      rw [if_pos (by simp [List.isPrefixOf])]
    have e : a ++ sec ++ c = (a ++ v) ++ (b!"</data>" ++ c) := by rw [← hv]; simp
    rw [e, Manipulate.lastIndex_append _ h0]
    simp
  have hsl : sec.length = v.length + 7 := by rw [← hv]; simp
  unfold updateValues
  rw [hi]
  simp only
  rw [hl]
  simp only [slice]
  rw [if_pos ⟨by omega, by simp; omega⟩]
  have e1 : ((a ++ sec ++ c).take (a.length + v.length + 7)).drop a.length = sec := by
    rw [List.take_left' (by simp; omega)]
    exact List.drop_left' rfl
  have e2 : (a ++ sec ++ c).drop (a.length + v.length + 7) = c := List.drop_left' (by simp; omega)
  have e3 : (a ++ sec ++ c).take a.length = a := by rw [List.append_assoc]; exact List.take_left' rfl
  simp only [Res.bind, e1, e2, e3, hu]

/-- C102 (partial, as above): the order in which Go walks the map does not matter. -/
theorem C102_order_partial (pre : Bytes) (doc : List (XmlField × Bytes)) (data data' : List (Bytes × Val)) (hd : FlatDoc pre doc)
    (hk : (data.map (·.1)).Nodup) (hm : ∀ d ∈ data, (34 : UInt8) ∉ d.1 ∧ (60 : UInt8) ∉ d.1 ∧ (60 : UInt8) ∉ fmtV d.2) (hp : data.Perm data') :
    updateFieldValues (pre ++ fieldsText doc) data = updateFieldValues (pre ++ fieldsText doc) data' := by
  rw [C102_update_partial pre doc data hd hk hm,
    C102_update_partial pre doc data' hd ((hp.map _).nodup_iff.1 hk) (fun d hd' => hm d (hp.mem_iff.2 hd'))]
  congr 2
  unfold updated
  apply List.map_congr_left
  intro e _
  have : (data.map fun e => (e.1, fmtV e.2)).find? (fun d => decide (d.1 = e.1.name)) = (data'.map fun e => (e.1, fmtV e.2)).find? (fun d => decide (d.1 = e.1.name)) := by
    have key : ∀ {l l' : List (Bytes × Bytes)}, (l.map (·.1)).Nodup → l.Perm l' →
        l.find? (fun d => decide (d.1 = e.1.name)) = l'.find? (fun d => decide (d.1 = e.1.name)) := by
      intro l l' hnd hp
      cases hf : l.find? (fun d => decide (d.1 = e.1.name)) with
      | none =>
        rw [eq_comm, List.find?_eq_none]
        intro x hx
        exact List.find?_eq_none.1 hf x (hp.mem_iff.2 hx)
      | some x =>
        have hx := List.mem_of_find?_eq_some hf
        have hx2 : x.1 = e.1.name := by simpa using List.find?_some hf
        cases hf' : l'.find? (fun d => decide (d.1 = e.1.name)) with
        | none => exact absurd hx2 (by simpa using List.find?_eq_none.1 hf' x (hp.mem_iff.1 hx))
        | some y =>
          have hy := hp.mem_iff.2 (List.mem_of_find?_eq_some hf')
          have hy2 : y.1 = e.1.name := by simpa using List.find?_some hf'
          have : x = y := by
            clear hf hf' hp
            induction l with
            | nil => simp at hx
            | cons z l ih =>
              rw [List.map_cons, List.nodup_cons] at hnd
              rcases List.mem_cons.1 hx with rfl | hx'
              · rcases List.mem_cons.1 hy with rfl | hy'
                · rfl
                · exact absurd (List.mem_map.2 ⟨y, hy', by rw [hy2, hx2]⟩) hnd.1
              · rcases List.mem_cons.1 hy with rfl | hy'
                · exact absurd (List.mem_map.2 ⟨x, hx', by rw [hy2, hx2]⟩) hnd.1
                · exact ih hnd.2 hx' hy'
          rw [this]
    exact key (by simpa [List.map_map, Function.comp_def] using hk) (hp.map _)
  rw [this]

/-- A document with two fields. -/
def exXml : List (XmlField × Bytes) :=
  [({ name := b!"a", head := b!" x=\"1\"><ui/>", value := some b!"old", tail := b!"<bind/>" }, b!"\n"),
   ({ name := b!"b", head := b!">", value := none, tail := [] }, b!"</data>")]

theorem exXml_flat : FlatDoc b!"<data>" exXml := by
  have abs : ∀ {p s : Bytes}, p ≠ [] → index p s = none → Absent p s := fun hp h => (Incremental.absent_iff hp).2 (noOcc_iff_index.2 h)
  refine ⟨abs (by decide) (by decide), ?_, by decide⟩
  intro e he
  simp only [exXml, List.mem_cons, List.not_mem_nil, or_false] at he
  rcases he with rfl | rfl
  · refine ⟨⟨by decide, by intro v hv; simp at hv; subst hv; decide, ⟨abs (by decide) (by decide), abs (by decide) (by decide), abs (by decide) (by decide), abs (by decide) (by decide)⟩,
      ⟨abs (by decide) (by decide), abs (by decide) (by decide)⟩, by simp⟩, abs (by decide) (by decide)⟩
  · refine ⟨⟨by decide, by simp, ⟨abs (by decide) (by decide), abs (by decide) (by decide), abs (by decide) (by decide), abs (by decide) (by decide)⟩,
      ⟨abs (by decide) (by decide), abs (by decide) (by decide)⟩, fun _ => rfl⟩, abs (by decide) (by decide)⟩

example : updateValues (b!"<xfa:datasets>" ++ (b!"<data>" ++ fieldsText exXml) ++ b!"\n") [(b!"b", .int (-3)), (b!"zz", .nil), (b!"a", .str b!"new")] =
    .ok b!"<xfa:datasets><data><field name=\"a\" x=\"1\"><ui/><value>new</value><bind/></field>\n<field name=\"b\"><value>-3</value></field></data>\n" := by decide +kernel

/-- C102: values are not escaped: a value with markup becomes markup, and then the result depends on the order of the map. -/
theorem C102_escape_violated :
    updateFieldValues b!"<field name=\"a\"></field>" [(b!"a", .str b!"</value></field><field name=\"b\"><value>")] =
      b!"<field name=\"a\"><value></value></field><field name=\"b\"><value></value></field>" ∧
    ∃ x y : Bytes × Val, updateFieldValues b!"<field name=\"a\"></field>" [x, y] ≠ updateFieldValues b!"<field name=\"a\"></field>" [y, x] :=
  ⟨by decide +kernel, (b!"a", .str b!"</value></field><field name=\"b\"><value>"), (b!"b", .str b!"1"), by decide +kernel⟩

/-- C102: with fields inside fields, setting the outer one changes the inner one, and the result depends on the order of the map. -/
theorem C102_nested_violated :
    updateFieldValues b!"<field name=\"a\"><field name=\"b\"><value>1</value></field><value>2</value></field>" [(b!"a", .str b!"3")] =
      b!"<field name=\"a\"><field name=\"b\"><value>3</value></field><value>2</value></field>" ∧
    updateFieldValues b!"<field name=\"a\"><field name=\"b\"><value>1</value></field><value>2</value></field>" [(b!"a", .str b!"3"), (b!"b", .str b!"4")] ≠
    updateFieldValues b!"<field name=\"a\"><field name=\"b\"><value>1</value></field><value>2</value></field>" [(b!"b", .str b!"4"), (b!"a", .str b!"3")] := by
  constructor <;> decide +kernel

/-- C102: a field whose name is not its first attribute is not updated, and nothing reports it. -/
theorem C102_attribute_violated (v : Val) :
    updateFieldValues b!"<field x=\"1\" name=\"a\"><value>1</value></field>" [(b!"a", v)] = b!"<field x=\"1\" name=\"a\"><value>1</value></field>" := by
  unfold updateFieldValues setFieldValue
  rw [List.foldl_cons, List.foldl_nil]
  have : index (b!"<field name=\"" ++ b!"a" ++ b!"\"") b!"<field x=\"1\" name=\"a\"><value>1</value></field>" = none := by decide +kernel
  rw [this]

/-- C102: in a document where the last `</data>` stands before the first `<data` the update crashes. -/
theorem C102_panic_violated : updateValues b!"</data> <data" [] = .panic := by decide +kernel

/-! ### C103: replacing a stream -/

/-- C103 (partial: the new data and its length take no more room than the old ones, or the caller's array has no room for them; the header
of the object is the first text that reads like it; one `/Length`, no white space at the start of the data): `ReplaceStreamInPDF` returns
the file with the data of the stream and its length replaced, and every other byte as it was. -/
theorem C103_replace_partial (f : StreamFile) (n : Int) (spare new : Bytes) (h : f.WellFormed n) (hf : f.Fits n spare new) :
    (replaceStream (f.text n ++ spare) (f.text n).length n new).map (·.1) = some (f.replaced n new) := by
  unfold replaceStream
  rw [List.take_left' rfl, cuts_found h]
  simp only [Option.map_some, Option.some.injEq]
  have := splice_ok (f.front n) (natDec f.length) f.middle (f.data ++ b!"\n") (b!"endstream" ++ f.rest) spare new hf.1 (by simpa [StreamFile.text] using hf.2)
  unfold StreamFile.replaced
  rw [← this]
  rfl

/-- A file with a stream object. -/
def exStream : StreamFile :=
  { before := b!"%PDF-1.7\n1 0 obj\n<</Type/Catalog>>\nendobj\n", dict1 := b!"\n<<", length := 5, dict2 := b!" >>\n", eol := b!"\r\n", data := b!"Hello",
    rest := b!"\nendobj\n" }

theorem exStream_wf : exStream.WellFormed 2 := by
  have abs : ∀ {p s : Bytes}, p ≠ [] → index p s = none → Absent p s := fun hp h => (Incremental.absent_iff hp).2 (noOcc_iff_index.2 h)
  refine ⟨?_, ⟨abs (by decide) (by decide), abs (by decide) (by decide)⟩, ⟨abs (by decide) (by decide), by decide⟩, by decide, abs (by decide) (by decide), 72, rfl, by decide⟩
  intro x y h hxy hy ⟨w1, w2, _, _, _, _, hh⟩ hp
  have h50 : (50 : UInt8) ∈ exStream.before := by
    obtain ⟨t, ht⟩ := hp
    have e : itoa 2 = b!"2" := by decide
    rw [hh, e] at ht
    cases y with
    | nil => exact absurd rfl hy
    | cons c y =>
      simp at ht
      rw [hxy, ← ht.1]
      simp
  exact absurd h50 (by decide)

/-- The file of the example as text. -/
def exStreamText : Bytes := b!"%PDF-1.7\n1 0 obj\n<</Type/Catalog>>\nendobj\n2 0 obj\n<</Length 5 >>\nstream\r\nHello\nendstream\nendobj\n"

example : exStream.text 2 = exStreamText ∧ exStream.Fits 2 b!"spare" b!"Bye" ∧
    exStream.replaced 2 b!"Bye" = b!"%PDF-1.7\n1 0 obj\n<</Type/Catalog>>\nendobj\n2 0 obj\n<</Length 3 >>\nstream\r\nByeendstream\nendobj\n" := by
  refine ⟨?_, ?_, ?_⟩
  · decide +kernel
  · unfold StreamFile.Fits; decide +kernel
  · decide +kernel

/-- C103: the caller's bytes are overwritten, even when the replacement succeeds. -/
theorem C103_caller_violated : ∃ r arr, replaceStream exStreamText exStreamText.length 2 b!"Bye" = some (r, arr) ∧ r = exStream.replaced 2 b!"Bye" ∧
    arr ≠ exStreamText := by
  refine ⟨_, (exStream.replaced 2 b!"Bye" ++ b!"bj\n"), ?_, rfl, by decide +kernel⟩
  decide +kernel

/-- C103: with longer data, and room for it in the caller's array, what follows the length and the stream is overwritten before it is
copied: the length becomes 133 and `endstream` is lost. -/
theorem C103_tail_violated : (replaceStream exStreamText exStreamText.length 2 b!"Hello, World!").map (·.1) =
    some b!"%PDF-1.7\n1 0 obj\n<</Type/Catalog>>\nendobj\n2 0 obj\n<</Length 133>>\nstream\r\nHello, World!, World!m\nendobj\n" := by
  decide +kernel

/-- C103: the header is not anchored: asked to replace object 2, it replaces the stream of object 12. -/
theorem C103_other_violated : (replaceStream b!"12 0 obj<</Length 1>>stream\nA\nendstream endobj 2 0 obj<</Length 1>>stream\nB\nendstream endobj" 92 2 b!"C").map (·.1) =
    some b!"12 0 obj<</Length 1>>stream\nCendstream endobj 2 0 obj<</Length 1>>stream\nB\nendstream endobj" := by
  decide +kernel

end Pdfer.Props
