import Verif.Model.FormsApi
import Verif.Model.FormXFA

/-! Model of forms/acroform/fill_streams.go, stream_finder.go and integration.go:74-108: filling an AcroForm; and of
forms/acroform/parser.go:288-386, validation.go:218-334: the schema of an AcroForm and the validation against a schema.

Simplifications: `verbose` is off; files are not encrypted; the form data, a Go map, is a list in the order of its iteration, and so is
the map of the stream updates (its order is that of the first update of each stream; Go's order is any). -/

namespace Pdfer.Fill

open Pdfer.Go Pdfer.Forms Pdfer.FormsApi Pdfer.Document

variable {F S : Type}

/-! ### Filling -/

/-- forms/acroform/stream_finder.go:35-52 – `findStartXRef`: the first `startxref` of the last 1024 bytes (`none` = -1). -/
def findStartXRef (pdf : Bytes) : Option Nat :=
  (searchWith (reKeyNum b!"startxref") (pdf.drop (pdf.length - 1024))).bind (atoiMag 9223372036854775807)

/-- forms/acroform/stream_finder.go:13-32 – `findStreamForObject` (0: none). -/
def findStream (unz : Bytes → Option Bytes) (pdf : Bytes) (n : Int) : Res Nat :=
  match findStartXRef pdf with
  | none => .ok 0
  | some start => match XRefStream.parseFull unz pdf start with
    | .panic => .panic
    | .err => .ok 0
    | .ok r => .ok (((r.objectStreams.get n).map (·.1)).getD 0)

/-- forms/acroform/fill_streams.go:77-82 – whether the object seems to come from an object stream: its header is not in the first 50
bytes. -/
def inStream (obj : Bytes) (n : Int) : Bool := !contains (obj.take 50) (itoa n ++ b!" 0 obj")

/-- The state of the loop: the file so far (a failed replacement leaves the empty slice) and the updates of each stream. -/
structure St where
  file : Bytes
  updates : Map Nat (List (Int × Bytes)) := []

/-- fill_streams.go:68-71, 121-124, 129-136 – `result, fillErr = FillFieldValue(result, …)`: an error makes `result` nil. -/
def direct (src : XFA.Src) (st : St) (a : Attrs) (v : Val) : Res St :=
  match fillFieldValue (getObject src.unz none) st.file a v with
  | .panic => .panic
  | .err => .ok { st with file := [] }
  | .ok b => .ok { st with file := b }

/-- forms/acroform/fill_streams.go:52-143 – one round of the loop over the form data; `obj` is pdf.GetObject on the opened file.  (The
index that an update carries is not used by RebuildObjectStream and is left out, with the second look at the cross-reference stream
that only gives the index.) -/
def fillOne (src : XFA.Src) (pdf : Bytes) (obj : Int → Res Bytes) (fs : List Field) (st : St) (d : Bytes × Val) : Res St :=
  match findField fs d.1 with
  | none => .ok st
  | some (f, _) =>
    match obj f.attrs.num with
    | .panic => .panic
    | .err => direct src st f.attrs d.2
    | .ok o =>
      if inStream o f.attrs.num then
        match setValue o d.2 f.attrs.ft with
        | none => .ok st
        | some new => (findStream src.unz pdf f.attrs.num).bind fun stm =>
          if stm > 0 then
            .ok { st with updates := st.updates.set stm (((st.updates.get stm).getD []) ++ [(f.attrs.num, new)]) }
          else direct src st f.attrs d.2
      else direct src st f.attrs d.2

/-- The loop over the form data. -/
def fillAll (src : XFA.Src) (pdf : Bytes) (obj : Int → Res Bytes) (fs : List Field) : List (Bytes × Val) → St → Res St
  | [], st => .ok st
  | d :: ds, st => (fillOne src pdf obj fs st d).bind (fillAll src pdf obj fs ds)

/-- forms/acroform/fill_streams.go:146-165 – the modified streams are rebuilt; an error makes the result nil. -/
def rebuildAll (src : XFA.Src) (zip : Bytes → Bytes) : List (Nat × List (Int × Bytes)) → Bytes → Res Bytes
  | [], b => .ok b
  | u :: us, b =>
    match rebuildObjectStream (getObject src.unz none) src.unz zip b u.1 (u.2.foldl (fun m e => m.set e.1 e.2) []) with
    | .panic => .panic
    | .err => rebuildAll src zip us []
    | .ok b' => rebuildAll src zip us b'

/-- forms/acroform/fill_streams.go:15-172 – `FillFormFieldsWithStreams`; forms/acroform/replace.go:143-146 `FillFormFields`, fill.go:11-13
`FillForm`, and forms/forms.go:53-55 `Fill` of an AcroForm call it and nothing else. -/
def fillForm (c : Ctx F S) (zip : Bytes → Bytes) (pdf : Bytes) (data : List (Bytes × Val)) : Res Bytes :=
  if pdf = [] then .err
  else (Incremental.openPdf c.env pdf).bind fun p =>
    (extractAcroForm c pdf).bind fun fs =>
    (fillAll c.src pdf (Incremental.getObject c.env p) fs data { file := pdf }).bind fun st =>
    (rebuildAll c.src zip st.updates st.file).bind fun b => if b = [] then .err else .ok b

/-! ### Schemas of AcroForms -/

/-- types/form_types.go:63-71 – types.ValidationRules (the script is not looked at here). -/
structure Limits (F : Type) where
  minLength : Option Int := none
  maxLength : Option Int := none
  minValue : Option F := none
  maxValue : Option F := none
  pattern : Bytes := []
  message : Bytes := []

/-- types/form_types.go:21-35 – types.Question; the properties are the four coordinates of the rectangle with width and height (`none`: no
such properties), the page and the object number. -/
structure Question (F : Type) where
  id : Bytes
  name : Bytes
  label : Bytes := []
  type : Bytes
  options : List FormXFA.Choice := []
  validation : Option (Limits F) := none
  dflt : Option Bytes := none
  required : Bool := false
  readOnly : Bool := false
  place : Option (F × F × F × F) := none
  page : Int := 0
  objectNum : Int := 0

/-- types/form_types.go:40-52 – the texts of the response types. -/
def typeText : RType → Bytes
  | .text => b!"text"
  | .checkbox => b!"checkbox"
  | .radio => b!"radio"
  | .button => b!"button"
  | .select => b!"select"
  | .signature => b!"signature"
  | .unknown => b!"unknown"

/-- forms/acroform/parser.go:23-45 – the attributes of a field that `Attrs` leaves out (the parser sets only the rectangle). -/
structure Extra (F : Type) where
  rect : List F := []
  selected : List Int := []
  page : Int := 0

/-- forms/acroform/parser.go:335-351 – the options, from the position `i`. -/
def choices (sel : List Int) : Nat → List Bytes → List FormXFA.Choice
  | _, [] => []
  | i, o :: os => { value := o, label := o, selected := sel.contains (i : Int) } :: choices sel (i + 1) os

/-- forms/acroform/parser.go:309-371 – `ToQuestion`; `sub` subtracts floats. -/
def toQuestion (sub : F → F → F) (a : Attrs) (e : Extra F) : Question F where
  id := b!"field_" ++ itoa a.num
  name := a.t
  label := a.tu
  type := typeText (mapFieldType a.ft a.ff)
  required := a.ff &&& 2 ≠ 0
  readOnly := a.ff &&& 1 ≠ 0
  dflt := a.dv
  options := choices e.selected 0 a.opt
  validation := if a.maxLen > 0 then some { maxLength := some (a.maxLen : Int) } else none
  place := match e.rect with
    | x0 :: y0 :: x1 :: y1 :: _ => some (x0, y0, sub x1 x0, sub y1 y0)
    | _ => none
  page := e.page
  objectNum := a.num

/-- forms/acroform/parser.go:288-306 – `ToFormSchema`: the questions; `extra` gives what `Attrs` leaves out. -/
def toSchema (sub : F → F → F) (extra : Field → Extra F) (fs : List Field) : List (Question F) :=
  fs.map fun f => toQuestion sub f.attrs (extra f)

/-! ### Validation against a schema -/

/-- The errors of forms/acroform/validation.go:218-334. -/
inductive QErr where
  | tooShort (name : Bytes) (min : Int)
  | tooLong (name : Bytes) (max : Int)
  | badPattern
  | noMatch (name : Bytes)
  | belowMin (name : Bytes)
  | aboveMax (name : Bytes)
  | unknownField (name : Bytes)
  | missing (name : Bytes)
deriving DecidableEq, Repr

/-- Packages regexp (`none`: not a valid expression) and strconv, and the order of floats. -/
structure Checks (F : Type) where
  rx : Bytes → Bytes → Option Bool
  parse : Bytes → Option F
  lt : F → F → Bool

/-- forms/acroform/validation.go:223-233 – the text of a value. -/
def valueText : Val → Bytes
  | .float f _ => f
  | v => fmtV v

/-- forms/acroform/validation.go:271-291 – the range of a number. -/
def checkRange (ck : Checks F) (q : Question F) (l : Limits F) (s : Bytes) : Option QErr :=
  if q.type = b!"number" then
    match ck.parse s with
    | none => none
    | some x =>
      if (l.minValue.map (ck.lt x)).getD false then some (.belowMin q.name)
      else if (l.maxValue.map fun m => ck.lt m x).getD false then some (.aboveMax q.name)
      else none
  else none

/-- forms/acroform/validation.go:253-269 – the pattern, then the range. -/
def checkPattern (ck : Checks F) (q : Question F) (l : Limits F) (s : Bytes) : Option QErr :=
  if l.pattern ≠ [] then
    match ck.rx l.pattern s with
    | none => some .badPattern
    | some false => some (.noMatch q.name)
    | some true => checkRange ck q l s
  else checkRange ck q l s

/-- forms/acroform/validation.go:218-294 – `ValidateFieldValue`. -/
def validateValue (ck : Checks F) (q : Question F) (v : Val) : Option QErr :=
  match q.validation with
  | none => none
  | some l =>
    if (l.minLength.map fun m => decide (((valueText v).length : Int) < m)).getD false then some (.tooShort q.name (l.minLength.getD 0))
    else if (l.maxLength.map fun m => decide (((valueText v).length : Int) > m)).getD false then some (.tooLong q.name (l.maxLength.getD 0))
    else checkPattern ck q l (valueText v)

/-- forms/acroform/validation.go:300-305 – the questions by name: a later one replaces an earlier one. -/
def byName (qs : List (Question F)) : Map Bytes (Question F) := qs.foldl (fun m q => m.set q.name q) []

/-- forms/acroform/validation.go:307-318 – the errors of the given values. -/
def valueErrors (ck : Checks F) (qs : List (Question F)) (data : List (Bytes × Val)) : List QErr :=
  data.flatMap fun d => match (byName qs).get d.1 with
    | none => [.unknownField d.1]
    | some q => (validateValue ck q d.2).toList

/-- forms/acroform/validation.go:320-331 – the required questions without a value. -/
def missingErrors (qs : List (Question F)) (data : List (Bytes × Val)) : List QErr :=
  qs.flatMap fun q => if q.required ∧ q.name ∉ data.map (·.1) then [QErr.missing q.name] else []

/-- forms/acroform/validation.go:297-334 – `ValidateFormSchema`. -/
def validateSchema (ck : Checks F) (qs : List (Question F)) (data : List (Bytes × Val)) : List QErr :=
  valueErrors ck qs data ++ missingErrors qs data

/-- forms/acroform/integration.go:74-89 – `FillFormFromSchema`: what validation finds is only printed. -/
def fillFromSchema (c : Ctx F S) (zip : Bytes → Bytes) (ck : Checks F) (pdf : Bytes) (qs : List (Question F)) (data : List (Bytes × Val)) :
    List QErr × Res Bytes := (validateSchema ck qs data, fillForm c zip pdf data)

/-- forms/acroform/integration.go:92-108 – `ExtractAndFill`: the errors printed, and the result. -/
def extractAndFill (c : Ctx F S) (zip : Bytes → Bytes) (pdf : Bytes) (data : List (Bytes × Val)) : List VErr × Res Bytes :=
  match extractAcroForm c pdf with
  | .panic => ([], .panic)
  | .err => ([], .err)
  | .ok fs => (validateFormData fs data, fillForm c zip pdf data)

end Pdfer.Fill
