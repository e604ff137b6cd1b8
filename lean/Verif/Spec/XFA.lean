import Verif.Model.XFA
import Verif.Spec.Incremental
import Verif.Spec.Forms

/-! What the XFA functions should do, stated without their own helpers. -/

namespace Pdfer.Spec.XFA

open Pdfer.Go Pdfer.XFA Pdfer.Spec

/-! ### Fields -/

/-- A letter, a digit or an underscore. -/
def IdByte (c : UInt8) : Prop := (65 ≤ c ∧ c ≤ 90) ∨ (97 ≤ c ∧ c ≤ 122) ∨ (48 ≤ c ∧ c ≤ 57) ∨ c = 95

/-- An identifier: not empty, letters, digits and underscores, the first not a digit. -/
def ValidId (s : Bytes) : Prop := s ≠ [] ∧ (∀ c ∈ s, IdByte c) ∧ ∀ c, s.head? = some c → ¬ (48 ≤ c ∧ c ≤ 57)

/-- The streams an XFA form may have. -/
def streamNames : List Bytes :=
  [b!"template", b!"datasets", b!"config", b!"localeSet", b!"connectionSet", b!"stylesheet", b!"xmp", b!"signature", b!"sourceSet"]

/-- The streams of a form that is built. -/
def builtNames : List Bytes := [b!"template", b!"datasets", b!"config", b!"localeSet", b!"connectionSet", b!"stylesheet", b!"xmp"]

/-- The field types. -/
def Types : List Bytes :=
  [b!"text", b!"textarea", b!"radio", b!"checkbox", b!"select", b!"number", b!"date", b!"email", b!"button", b!"signature"]

/-- A token that neither opens nor closes a field or one of the three elements that describe it. -/
def Neutral : Tok → Prop
  | .start n _ => n ≠ b!"field" ∧ n ≠ b!"value" ∧ n ≠ b!"name" ∧ n ≠ b!"label"
  | .close n => n ≠ b!"field" ∧ n ≠ b!"value" ∧ n ≠ b!"name" ∧ n ≠ b!"label"
  | .chars _ => True

/-- The character data of a token list. -/
def textOf : List Tok → Bytes
  | [] => []
  | .chars t :: r => t ++ textOf r
  | _ :: r => textOf r

/-- A field element as it stands in a template: its attributes and its content, with at most one `value` element. -/
structure FieldEl where
  attrs : List (Bytes × Bytes)
  before : List Tok
  value : Option (List Tok)
  after : List Tok

/-- The tokens of the value element. -/
def FieldEl.valueToks (f : FieldEl) : List Tok :=
  match f.value with
  | some v => [.start b!"value" []] ++ v ++ [.close b!"value"]
  | none => []

/-- The tokens of a field element. -/
def FieldEl.toks (f : FieldEl) : List Tok :=
  [.start b!"field" f.attrs] ++ f.before ++ f.valueToks ++ f.after ++ [.close b!"field"]

/-- The tokens of a template: field elements with neutral tokens between them. -/
def template : List (FieldEl × List Tok) → List Tok
  | [] => []
  | (f, gap) :: r => f.toks ++ gap ++ template r

/-- The value of an attribute, if the element has it (the last one, though XML allows only one). -/
def attr (as : List (Bytes × Bytes)) (k : Bytes) : Option Bytes := (as.reverse.find? fun a => a.1 = k).map (·.2)

/-- Words that make a field required. -/
def Required (v : Bytes) : Prop := v = b!"1" ∨ toLower v = b!"true" ∨ toLower v = b!"required"

/-- A parsed field is the description of the element. -/
structure Describes (f : FieldEl) (x : XField) : Prop where
  name : attr f.attrs b!"name" = some x.name
  fullName : x.fullName = x.name
  type : x.type = match attr f.attrs b!"type" with | some t => mapType t | none => b!"text"
  required : x.required = true ↔ ∃ v, attr f.attrs b!"required" = some v ∧ Required v
  readOnly : x.readOnly = true ↔ (b!"access", b!"readOnly") ∈ f.attrs
  value : x.dflt = match f.value with
    | some v => if textOf v = [] then none else some (trimSpace (textOf v))
    | none => none
  layout : ∀ k, k ∈ [b!"h", b!"w", b!"x", b!"y"] → x.layout.get k = attr f.attrs k
  label : x.label = none

/-! ### Values in XML -/

/-- A field element of an XML text: its name, the markup before its value element, its value, the markup after. -/
structure XmlField where
  name : Bytes
  head : Bytes
  value : Option Bytes
  tail : Bytes
deriving DecidableEq

/-- The value element. -/
def XmlField.valueText (f : XmlField) : Bytes :=
  match f.value with
  | some v => b!"<value>" ++ v ++ b!"</value>"
  | none => []

/-- The text of a field element. -/
def XmlField.text (f : XmlField) : Bytes :=
  b!"<field name=\"" ++ f.name ++ b!"\"" ++ f.head ++ f.valueText ++ f.tail ++ b!"</field>"

/-- The text of the field elements, each followed by other text. -/
def fieldsText : List (XmlField × Bytes) → Bytes
  | [] => []
  | (f, gap) :: r => f.text ++ gap ++ fieldsText r

/-- Field elements that are not nested, with at most one value element each; names and values without markup. -/
structure FlatField (f : XmlField) : Prop where
  name : (34 : UInt8) ∉ f.name ∧ (60 : UInt8) ∉ f.name
  value : ∀ v, f.value = some v → (60 : UInt8) ∉ v
  head : Absent b!"<field name=\"" f.head ∧ Absent b!"</field>" f.head ∧ Absent b!"<value>" f.head ∧ Absent b!"</value>" f.head
  tail : Absent b!"<field name=\"" f.tail ∧ Absent b!"</field>" f.tail
  none : f.value = .none → f.tail = []

/-- The field with another value (in the place of the old value, or in a new value element at the end). -/
def XmlField.withValue (f : XmlField) (v : Bytes) : XmlField := { f with value := some v }

/-- The fields after an update with form data: each field named there has the value given, every other one is unchanged. -/
def updated (doc : List (XmlField × Bytes)) (data : List (Bytes × Bytes)) : List (XmlField × Bytes) :=
  doc.map fun e => match data.find? fun d => d.1 = e.1.name with
    | some d => (e.1.withValue d.2, e.2)
    | none => e

/-! ### A stream object in a file -/

/-- A file around the stream object `n`: what stands before it, the dictionary before and after the digits of its length, the white space
after `stream`, its data and what follows it. -/
structure StreamFile where
  before : Bytes
  dict1 : Bytes
  length : Nat
  dict2 : Bytes
  eol : Bytes
  data : Bytes
  rest : Bytes

/-- The text of the file up to the digits of the length. -/
def StreamFile.front (f : StreamFile) (n : Int) : Bytes := f.before ++ itoa n ++ b!" 0 obj" ++ f.dict1 ++ b!"/Length "

/-- The text between the digits of the length and the data. -/
def StreamFile.middle (f : StreamFile) : Bytes := f.dict2 ++ b!"stream" ++ f.eol

/-- The text of the file. -/
def StreamFile.text (f : StreamFile) (n : Int) : Bytes :=
  f.front n ++ natDec f.length ++ f.middle ++ (f.data ++ b!"\n") ++ (b!"endstream" ++ f.rest)

/-- The file with other data, and the length of that data, in the object. -/
def StreamFile.replaced (f : StreamFile) (n : Int) (new : Bytes) : Bytes :=
  f.front n ++ natDec new.length ++ f.middle ++ new ++ (b!"endstream" ++ f.rest)

/-- The parts are what they are said to be: no earlier text reads as the header of the object, the dictionary names one length and no
`stream`, the data does not begin with white space and does not contain `endstream`. -/
structure StreamFile.WellFormed (f : StreamFile) (n : Int) : Prop where
  header : ∀ x y h, f.before = x ++ y → y ≠ [] → Spec.Forms.HeaderText n 0 h → ¬ h <+: y ++ (f.text n).drop f.before.length
  dict1 : Absent b!"stream" f.dict1 ∧ Absent b!"/Length" f.dict1
  dict2 : Absent b!"stream" f.dict2 ∧ ∀ c, f.dict2.head? = some c → ¬ (48 ≤ c ∧ c ≤ 57)
  eol : ∀ c ∈ f.eol, c = 32 ∨ c = 10 ∨ c = 13 ∨ c = 9
  data : Absent b!"endstream" f.data ∧ ∃ c, f.data.head? = some c ∧ ¬ (c = 32 ∨ c = 10 ∨ c = 13 ∨ c = 9)

/-- The new data and its length take no more room than the old ones, or the caller's array (with `spare` bytes after the file) has no room
for the new data at all. -/
def StreamFile.Fits (f : StreamFile) (n : Int) (spare new : Bytes) : Prop :=
  (natDec new.length).length ≤ (natDec f.length).length ∧
  ((natDec new.length).length + new.length ≤ (natDec f.length).length + (f.data.length + 1) ∨
   (f.text n ++ spare).length < (f.front n ++ natDec new.length ++ f.middle ++ new).length)

/-! ### Streams that survive building and extraction -/

/-- What stands in the file for a stream with data `d`. -/
def stored (z : Bytes → Bytes) (s : XStream) (d : Bytes) : Bytes := if s.compress then z d else d

/-- A stream with data `d` that is not itself compressed data (the extraction tries to decompress it once more), decompression undoes
compression, and its bytes in the file can be delimited. -/
structure Storable (z : Bytes → Bytes) (zip : Zip) (s : XStream) (d : Bytes) : Prop where
  data : s.data = some d
  nonempty : d ≠ []
  inverse : s.compress = true → zip.zlib (z d) = some d
  plain : zip.zlib d = none ∧ zip.flate d = none
  delimited : Absent b!"endstream" (stored z s d) ∧ Absent b!"endobj" (stored z s d)

/-- What is left of a file that was cut off somewhere after its last object and before its `startxref`. -/
structure LostTable (file cut : Bytes) : Prop where
  start : cut <+: file
  objects : ∀ i, OccursAt b!"endobj" file i → i + 6 ≤ cut.length
  table : Absent b!"startxref" cut

/-- A stored stream without the texts that the old way of reading looks for in it. -/
structure Recoverable (stored : Bytes) : Prop where
  nonempty : stored ≠ []
  noStream : Absent b!"stream" stored
  noDict : Absent b!"<<" stored

end Pdfer.Spec.XFA
