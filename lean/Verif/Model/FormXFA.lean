import Verif.Model.Datasets

/-! Model of forms/xfa/xfa_form_translator.go: reading an XFA template as a form schema (`ParseXFAForm`) and writing a form schema as an XFA
template (`FormToXFA`).

Simplifications: the XML encoder and decoder of the standard library are not modelled, both functions work on tokens (`XFA.Tok`, local names
only); the iteration order of the properties is the order of a list, so "for every list" covers every order; values of type `interface{}` are
`Datasets.DVal`, with `fmt.Sprintf("%v")` a parameter, and 64 bit floating point numbers a type `F` with `strconv.ParseFloat` a parameter; the
page count, taken from the raw text by counting `<pageSet`, and fields that neither function uses (conditions, priorities) are left out;
`verbose` is off. -/

namespace Pdfer.FormXFA

open Pdfer.Go Pdfer.XFA Pdfer.Datasets

/-- `strconv.ParseFloat(_, 64)` (`none`: error) and `fmt.Sprintf("%v", _)`. -/
structure Lib (F : Type) where
  parse : Bytes → Option F
  print : DVal F → Bytes

variable {F : Type}

/-! ### Schemas -/

/-- types/form_types.go:55-60 – types.Option (without the description). -/
structure Choice where
  value : Bytes
  label : Bytes
  selected : Bool := false
deriving DecidableEq, Repr

/-- types/form_types.go:63-71 – types.ValidationRules; the four limits, which the writer does not look at and the reader leaves nil, are one
flag: whether any is set. -/
structure Rules where
  limits : Bool := false
  pattern : Bytes := []
  script : Bytes := []
  message : Bytes := []
deriving DecidableEq, Repr

/-- types/form_types.go:21-35 – types.Question. -/
structure Question (F : Type) where
  id : Bytes
  name : Bytes
  label : Bytes := []
  description : Bytes := []
  type : Bytes := []
  options : List Choice := []
  validation : Option Rules := none
  dflt : Option (DVal F) := none
  required : Bool := false
  readOnly : Bool := false
  hidden : Bool := false
  properties : List (Bytes × DVal F) := []
  page : Int := 0
deriving Repr

/-- types/form_types.go:74-82 – types.Rule with the scripts of its actions (script, expression). -/
structure Rule where
  id : Bytes
  type : Bytes
  source : Bytes := []
  actions : List (Bytes × Bytes) := []
deriving DecidableEq, Repr

/-- types/form_types.go:5-18 – types.FormSchema with its metadata. -/
structure Schema (F : Type) where
  title : Bytes := []
  description : Bytes := []
  version : Bytes := []
  questions : List (Question F) := []
  rules : List Rule := []

/-! ### Writing -/

/-- forms/xfa/xfa_form_translator.go:383-408 – `mapResponseTypeToXFA`. -/
def typeToXFA (t : Bytes) : Bytes :=
  if t = b!"text" then b!"text"
  else if t = b!"textarea" then b!"textEdit"
  else if t = b!"radio" then b!"radioButton"
  else if t = b!"checkbox" then b!"checkButton"
  else if t = b!"select" then b!"choiceList"
  else if t = b!"number" then b!"numeric"
  else if t = b!"date" then b!"date"
  else if t = b!"email" then b!"email"
  else if t = b!"button" then b!"button"
  else if t = b!"signature" then b!"signature"
  else b!"text"

/-- forms/xfa/xfa_form_translator.go:131-186 – the attributes of a field. -/
def fieldAttrs (lib : Lib F) (q : Question F) : List (Bytes × Bytes) :=
  [(b!"name", q.name)] ++
  (if q.type ≠ [] then [(b!"type", typeToXFA q.type)] else []) ++
  (if q.required then [(b!"required", b!"1")] else []) ++
  (if q.readOnly then [(b!"access", b!"readOnly")] else if q.hidden then [(b!"access", b!"hidden")] else []) ++
  (q.properties.filterMap fun p =>
    if p.1 = b!"x" ∨ p.1 = b!"y" ∨ p.1 = b!"w" ∨ p.1 = b!"h" then some (p.1, lib.print p.2) else none) ++
  (match Map.get q.properties b!"page_number" with
    | some (.int n) => if n > 0 then [(b!"page", itoa n)] else []
    | _ => [])

/-- forms/xfa/xfa_form_translator.go:193-233 – an element with text in it. -/
def textElem (n t : Bytes) : List Tok := [.start n [], .chars t, .close n]

/-- forms/xfa/xfa_form_translator.go:274-320 – `encodeValidation`. -/
def encodeValidation (v : Rules) : List Tok :=
  [.start b!"validate"
    ((if v.pattern ≠ [] then [(b!"formatTest", b!"pattern")] else []) ++
     (if v.script ≠ [] then [(b!"scriptTest", v.script)] else []) ++
     (if v.message ≠ [] then [(b!"messageText", v.message)] else []))] ++
  (if v.pattern ≠ [] then textElem b!"pattern" v.pattern else []) ++
  [.close b!"validate"]

/-- forms/xfa/xfa_form_translator.go:130-271 – `encodeQuestionAsField`. -/
def encodeQuestion (lib : Lib F) (q : Question F) : List Tok :=
  [.start b!"field" (fieldAttrs lib q)] ++
  (if q.label ≠ [] then textElem b!"label" q.label else []) ++
  (if q.description ≠ [] then textElem b!"desc" q.description else []) ++
  (match q.dflt with | some v => textElem b!"value" (lib.print v) | none => []) ++
  (if q.options ≠ [] then
    [.start b!"items" []] ++ q.options.flatMap (fun o => textElem b!"text" o.value) ++ [.close b!"items"] else []) ++
  (match q.validation with | some v => encodeValidation v | none => []) ++
  [.close b!"field"]

/-- forms/xfa/xfa_form_translator.go:325-335 – the activity of an event. -/
def activityOf (t : Bytes) : Bytes :=
  if t = b!"visibility" then b!"initialize"
  else if t = b!"calculate" then b!"change"
  else if t = b!"validate" then b!"validate"
  else if t = b!"set_value" then b!"enter"
  else b!"change"

/-- forms/xfa/xfa_form_translator.go:323-380 – `encodeRuleAsEvent`. -/
def encodeRule (r : Rule) : List Tok :=
  [.start b!"event" [(b!"activity", activityOf r.type)]] ++
  (if r.actions ≠ [] then
    [.start b!"script" []] ++
    (let text := (r.actions.map fun a => if a.1 ≠ [] then a.1 else a.2).flatten
     if text ≠ [] then [.chars text] else []) ++
    [.close b!"script"] else []) ++
  [.close b!"event"]

/-- forms/xfa/xfa_form_translator.go:72-127 – `FormToXFA`: the tokens given to the encoder (which refuses none of them). -/
def formToXFA (lib : Lib F) (s : Schema F) : List Tok :=
  [.start b!"template" (if s.title ≠ [] then [(b!"title", s.title)] else [])] ++
  s.questions.flatMap (encodeQuestion lib) ++ s.rules.flatMap encodeRule ++ [.close b!"template"]

/-! ### Reading -/

/-- forms/xfa/xfa_form_translator.go:457-462 – XFAEvent (the target is never set). -/
structure Event where
  type : Bytes := []
  script : Bytes := []
  action : Bytes := []
deriving DecidableEq, Repr

/-- forms/xfa/xfa_form_translator.go:420-454 – XFAFieldData (an option's label is its value, `Selected` and the limits are never set). -/
structure FieldData (F : Type) where
  name : Bytes := []
  type : Bytes := []
  value : Bytes := []
  dflt : Bytes := []
  label : Bytes := []
  description : Bytes := []
  required : Bool := false
  readOnly : Bool := false
  hidden : Bool := false
  page : Int := 1
  options : List Bytes := []
  validation : Option Rules := none
  properties : List (Bytes × DVal F) := []
  events : List Event := []

/-- forms/xfa/xfa_form_translator.go:472-491 – the structure and the local variables of the loop (without the subforms kept in the
structure and the counter, which nothing reads). -/
structure St (F : Type) where
  title : Bytes := []
  fields : List (FieldData F) := []
  cur : Option (FieldData F) := none
  sub : Option (List (FieldData F)) := none
  value : Bytes := []
  label : Bytes := []
  description : Bytes := []
  inField : Bool := false
  inSub : Bool := false
  inValue : Bool := false
  inLabel : Bool := false
  inDescription : Bool := false
  inItems : Bool := false

/-- forms/xfa/xfa_form_translator.go:881-884 – `parseBool`. -/
def parseBool (s : Bytes) : Bool := [b!"1", b!"true", b!"yes", b!"required"].contains (toLower (trimSpace s))

/-- forms/xfa/xfa_form_translator.go:541-567 – one attribute of a field. -/
def fieldAttr (lib : Lib F) (f : FieldData F) (a : Bytes × Bytes) : FieldData F :=
  if a.1 = b!"name" then { f with name := a.2 }
  else if a.1 = b!"type" then { f with type := a.2 }
  else if a.1 = b!"required" then { f with required := parseBool a.2 }
  else if a.1 = b!"access" then
    (if a.2 = b!"readOnly" then { f with readOnly := true } else if a.2 = b!"hidden" then { f with hidden := true } else f)
  else if a.1 = b!"h" ∨ a.1 = b!"w" ∨ a.1 = b!"x" ∨ a.1 = b!"y" then
    { f with properties := Map.set f.properties a.1
              (match lib.parse (trimSpace a.2) with | some x => .float x | none => .str a.2) }
  else if a.1 = b!"page" then (match atoi a.2 with | some n => { f with page := n } | none => f)
  else f

/-- forms/xfa/xfa_form_translator.go:596-603 – the attributes of an event. -/
def eventAttr (e : Event) (a : Bytes × Bytes) : Event :=
  if a.1 = b!"activity" then { e with type := a.2 } else if a.1 = b!"name" then { e with action := a.2 } else e

/-- forms/xfa/xfa_form_translator.go:616-623 – the attributes of a validation. -/
def validateAttr (v : Rules) (a : Bytes × Bytes) : Rules :=
  if a.1 = b!"scriptTest" then { v with script := a.2 } else if a.1 = b!"messageText" then { v with message := a.2 } else v

/-- `currentField.…` where the code does not check for nil: a nil pointer is a panic. -/
def withCur (st : St F) (k : FieldData F → St F) : Res (St F) :=
  match st.cur with | some f => .ok (k f) | none => .panic

/-- forms/xfa/xfa_form_translator.go:507-641 – a start element. -/
def onStart (lib : Lib F) (st : St F) (n : Bytes) (attrs : List (Bytes × Bytes)) : Res (St F) :=
  if n = b!"template" then .ok { st with title := attrs.foldl (fun t a => if a.1 = b!"title" then a.2 else t) st.title }
  else if n = b!"subform" then .ok { st with inSub := true, sub := some [] }
  else if n = b!"field" then .ok { st with inField := true, cur := some (attrs.foldl (fieldAttr lib) {}) }
  else if n = b!"value" then .ok (if st.inField then { st with inValue := true, value := [] } else st)
  else if n = b!"label" then .ok (if st.inField then { st with inLabel := true, label := [] } else st)
  else if n = b!"desc" ∨ n = b!"description" then .ok (if st.inField then { st with inDescription := true, description := [] } else st)
  else if n = b!"items" then .ok (if st.inField then { st with inItems := true } else st)
  else if n = b!"text" then .ok (if st.inItems && st.inField then { st with value := [] } else st)
  else if n = b!"event" then
    (if st.inField then withCur st fun f => { st with cur := some { f with events := f.events ++ [attrs.foldl eventAttr {}] } } else .ok st)
  else if n = b!"script" then
    (if st.inField then withCur st fun f => if f.events ≠ [] then { st with value := [] } else st else .ok st)
  else if n = b!"validate" then
    (if st.inField then withCur st fun f => { st with cur := some { f with validation := some (attrs.foldl validateAttr (f.validation.getD {})) } } else .ok st)
  else if n = b!"pattern" then
    (if st.inField then withCur st fun f => if f.validation ≠ none then { st with value := [] } else st else .ok st)
  else if n = b!"bind" then
    (if st.inField then withCur st fun f =>
      { st with cur := some (attrs.foldl (fun f a => if a.1 = b!"match" ∧ a.2 = b!"none" then { f with required := false } else f) f) } else .ok st)
  else .ok st

/-- forms/xfa/xfa_form_translator.go:649-661 – a field is complete. -/
def finish (st : St F) (f : FieldData F) : FieldData F :=
  let f := if st.value ≠ [] then
      let v := trimSpace st.value
      { f with value := v, dflt := if f.dflt = [] then v else f.dflt }
    else f
  let f := if st.label ≠ [] then { f with label := trimSpace st.label } else f
  if st.description ≠ [] then { f with description := trimSpace st.description } else f

/-- forms/xfa/xfa_form_translator.go:643-724 – an end element. -/
def onEnd (st : St F) (n : Bytes) : Res (St F) :=
  if n = b!"field" then
    let st := match st.cur with
      | some f =>
        (match st.inSub, st.sub with
          | true, some l => { st with sub := some (l ++ [finish st f]) }
          | _, _ => { st with fields := st.fields ++ [finish st f] })
      | none => st
    .ok { st with inField := false, cur := none, value := [], label := [], description := [] }
  else if n = b!"subform" then
    .ok { st with fields := st.fields ++ st.sub.getD [], inSub := false, sub := none }
  else if n = b!"value" then
    let v := trimSpace st.value
    .ok { st with
      cur := match st.inField, st.cur with
        | true, some f => some (if v ≠ [] then { f with value := v, dflt := if f.dflt = [] then v else f.dflt } else f)
        | _, c => c
      inValue := false }
  else if n = b!"label" then
    .ok { st with cur := (if st.inField then st.cur.map fun f => { f with label := trimSpace st.label } else st.cur), inLabel := false }
  else if n = b!"desc" ∨ n = b!"description" then
    .ok { st with cur := (if st.inField then st.cur.map fun f => { f with description := trimSpace st.description } else st.cur), inDescription := false }
  else if n = b!"items" then .ok { st with inItems := false }
  else if n = b!"text" then
    .ok { st with cur := (if st.inItems && st.inField then st.cur.map fun f => { f with options := f.options ++ [trimSpace st.value] } else st.cur) }
  else if n = b!"script" then
    (if st.inField then withCur st fun f => { st with cur := some { f with
        events := match f.events.getLast? with
          | some e => f.events.dropLast ++ [{ e with script := trimSpace st.value }]
          | none => f.events } } else .ok st)
  else if n = b!"pattern" then
    (if st.inField then withCur st fun f => { st with cur := some { f with validation := f.validation.map fun v => { v with pattern := trimSpace st.value } } } else .ok st)
  else .ok st

/-- forms/xfa/xfa_form_translator.go:506-736 – one token. -/
def step (lib : Lib F) (st : St F) : Tok → Res (St F)
  | .start n attrs => onStart lib st n attrs
  | .close n => onEnd st n
  | .chars t => .ok
      (if st.inValue && st.inField then { st with value := st.value ++ t }
       else if st.inLabel && st.inField then { st with label := st.label ++ t }
       else if st.inDescription && st.inField then { st with description := st.description ++ t }
       else st)

/-- forms/xfa/xfa_form_translator.go:493-737 – the loop over the tokens the decoder delivers before it ends or fails. -/
def run (lib : Lib F) : List Tok → St F → Res (St F)
  | [], st => .ok st
  | t :: ts, st => (step lib st t).bind (run lib ts)

/-- forms/xfa/xfa_form_translator.go:890-912 – `sanitizeFieldIDWithIndex`. -/
def sanitizeIdx (name : Bytes) (i : Nat) : Bytes :=
  if name = [] then b!"field_" ++ natDec i
  else
    let id := name.filterMap idChar
    let id := if id = [] then b!"field_" ++ natDec i else id
    if (id.headD 0 |> isDigit) then b!"field_" ++ id else id

/-- forms/xfa/xfa_form_translator.go:792-817 – `mapXFATypeToResponseTypeEnum` (`strings.ToLower` on ASCII letters only). -/
def typeOfXFA (t : Bytes) : Bytes :=
  let l := XFA.toLower t
  if l = b!"text" ∨ l = b!"textfield" then b!"text"
  else if l = b!"textarea" ∨ l = b!"textedit" then b!"textarea"
  else if l = b!"radio" ∨ l = b!"radiobutton" then b!"radio"
  else if l = b!"checkbox" ∨ l = b!"checkbutton" then b!"checkbox"
  else if l = b!"select" ∨ l = b!"choice" ∨ l = b!"dropdown" ∨ l = b!"listbox" then b!"select"
  else if l = b!"numeric" ∨ l = b!"decimal" ∨ l = b!"integer" ∨ l = b!"float" then b!"number"
  else if l = b!"date" ∨ l = b!"datefield" then b!"date"
  else if l = b!"email" ∨ l = b!"emailfield" then b!"email"
  else if l = b!"button" then b!"button"
  else if l = b!"signature" ∨ l = b!"signaturefield" then b!"signature"
  else b!"text"

/-- forms/xfa/xfa_form_translator.go:742-789 – `convertXFAFieldToQuestion`. -/
def toQuestion (f : FieldData F) (i : Nat) : Question F :=
  { id := sanitizeIdx f.name i
    name := f.name
    label := f.label
    description := f.description
    type := typeOfXFA f.type
    required := f.required
    readOnly := f.readOnly
    hidden := f.hidden
    page := f.page
    properties := f.properties
    dflt := if f.dflt ≠ [] then some (.str f.dflt) else if f.value ≠ [] then some (.str f.value) else none
    options := f.options.map fun o => { value := o, label := o }
    validation := f.validation }

/-- forms/xfa/xfa_form_translator.go:845-877 – `convertXFAEventToRule`. -/
def toRule (e : Event) (source : Bytes) (i : Nat) : Rule :=
  { id := b!"rule_" ++ natDec i
    source := source
    type :=
      let l := XFA.toLower e.type
      if l = b!"initialize" ∨ l = b!"enter" then b!"set_value"
      else if l = b!"change" ∨ l = b!"exit" then b!"calculate"
      else if l = b!"validate" then b!"validate"
      else b!"calculate"
    actions := if e.script ≠ [] then [(e.script, e.script)] else [] }

/-- forms/xfa/xfa_form_translator.go:820-842 – `extractXFARules`: the events with their numbers from 1. -/
def rulesOf (fields : List (FieldData F)) : List Rule :=
  ((fields.flatMap fun f => f.events.map fun e => (e, f.name)).zipIdx 1).map fun p => toRule p.1.1 p.1.2 p.2

/-- forms/xfa/xfa_form_translator.go:15-69 – `ParseXFAForm`. -/
def parseForm (lib : Lib F) (toks : List Tok) : Res (Schema F) :=
  (run lib toks {}).bind fun st => .ok
    { title := st.title
      questions := (st.fields.zipIdx 1).map fun p => toQuestion p.1 p.2
      rules := rulesOf st.fields }

end Pdfer.FormXFA
