import Verif.Model.Datasets

/-! Model of forms/forms.go: one interface for AcroForm and XFA forms.

Simplifications: `verbose` is off; the file is not encrypted (ExtractAcroForm calls the decryption only when `/Encrypt` occurs in the file);
`ParseXFAForm` and the XML decoder are parameters; a crash of parse.GetObject while a field is read counts as an error of it; the
recursion through /Kids has fuel, running out of it is a crash (a Go program ends when its stack overflows). -/

namespace Pdfer.FormsApi

open Pdfer.Go Pdfer.XFA Pdfer.Forms Pdfer.Datasets Pdfer.Document

/-- forms/forms.go:12-18 – `FormType` (`FormTypeUnknown` only comes with an error). -/
inductive FormType where
  | acro
  | xfa
deriving DecidableEq, Repr

/-- forms/forms.go:39-43, 66-71 – the two implementations of `Form`. `S` is types.FormSchema. -/
inductive Form (F S : Type) where
  | acro (fields : List Field)
  | xfa (schema : S) (datasets : Option (Datasets F))

/-- What the functions take from outside: the readers of the file, the fuel of the field parser, ParseXFAForm (`none` = error), the XML
decoder and the conversions of floating point numbers. -/
structure Ctx (F S : Type) where
  env : Incremental.Env
  src : Src
  fuel : Nat
  schema : Bytes → Option S
  decode : Bytes → List Tok
  floats : Floats F

variable {F S : Type}

/-- parse.GetObject, as the form parser uses it: the bytes or a failure. -/
def get (src : Src) (pdf : Bytes) (n : Int) : Option Bytes :=
  match getObject src.unz none pdf n with
  | .ok b => some b
  | _ => none

/-- forms/acroform/extract.go:14-32, forms/acroform/parser.go:47-102 – `ExtractAcroForm`, the fields. -/
def extractAcroForm (c : Ctx F S) (pdf : Bytes) : Res (List Field) :=
  (Incremental.openPdf c.env pdf).bind fun _ =>
  (Res.ofOption ((searchWith reAcroForm pdf).bind atoi)).bind fun n =>
  (getObject c.src.unz none pdf n).bind fun obj =>
  match parseForm (get c.src pdf) c.fuel obj with
  | none => .panic
  | some none => .err
  | some (some fs) => .ok fs

/-- forms/forms.go:111-115, 129-137 – the AcroForm is taken when it is found and has fields. -/
def tryAcro (c : Ctx F S) (pdf : Bytes) : Res (Option (List Field)) :=
  match extractAcroForm c pdf with
  | .panic => .panic
  | .err => .ok none
  | .ok fs => .ok (if fs = [] then none else some fs)

/-- forms/forms.go:118-121, 139-141 – the XFA streams are taken when there is a template that is not empty. -/
def tryXFA (c : Ctx F S) (pdf : Bytes) : Res (Option (Bytes × Map Bytes Info)) :=
  match extractAll c.src pdf with
  | .panic => .panic
  | .err => .ok none
  | .ok m => .ok (match m.get b!"template" with
    | some i => if i.data = [] then none else some (i.data, m)
    | none => none)

/-- forms/forms.go:110-124 – `Detect`. -/
def detect (c : Ctx F S) (pdf : Bytes) : Res FormType :=
  (tryAcro c pdf).bind fun
  | some _ => .ok .acro
  | none => (tryXFA c pdf).bind fun
    | some _ => .ok .xfa
    | none => .err

/-- forms/forms.go:148-151, 183-185 – the datasets, when there is such a stream. -/
def datasetsOf (c : Ctx F S) (m : Map Bytes Info) : Option (Datasets F) :=
  (m.get b!"datasets").map fun i => parseDatasets c.floats (c.decode i.data)

/-- forms/forms.go:128-162 – `Extract`. -/
def extract (c : Ctx F S) (pdf : Bytes) : Res (Form F S) :=
  (tryAcro c pdf).bind fun
  | some fs => .ok (.acro fs)
  | none => (tryXFA c pdf).bind fun
    | some t => (Res.ofOption (c.schema t.1)).bind fun s => .ok (.xfa s (datasetsOf c t.2))
    | none => .err

/-- forms/forms.go:171-189 – `ExtractXFA`: a failure of ParseXFAForm only leaves the schema out. -/
def extractXFA (c : Ctx F S) (pdf : Bytes) : Res (Option S × Option (Datasets F)) :=
  (extractAll c.src pdf).bind fun m => .ok ((m.get b!"template").bind fun i => c.schema i.data, datasetsOf c m)

/-- forms/forms.go:45-47, 73-75 – `Type`. -/
def Form.type : Form F S → FormType
  | .acro _ => .acro
  | .xfa _ _ => .xfa

/-- A value of either interface. -/
inductive AnyVal (F : Type) where
  | acro (v : FVal)
  | xfa (v : DVal F)

/-- forms/forms.go:61-63, 102-107 – `GetValues`. -/
def Form.values : Form F S → Map Bytes (AnyVal F)
  | .acro fs => (fieldValues fs).map fun e => (e.1, .acro e.2)
  | .xfa _ (some d) => d.fields.map fun e => (e.1, .xfa e.2)
  | .xfa _ none => []

/-- forms/forms.go:57-59, 96-100 – `Validate`. -/
def Form.validate (data : List (Bytes × Val)) : Form F S → List VErr
  | .acro fs => validateFormData fs data
  | .xfa _ _ => []

/-- forms/forms.go:81-94 – `Fill` of an XFA form: the passwords are looked at and not used. -/
def fillXFA (src : Src) (arr : Bytes) (len : Nat) (data : List (Bytes × Val)) (_password _stored : Bytes) : Res (Bytes × Bytes) :=
  updateInPDF src arr len data

end Pdfer.FormsApi
