import Verif.Model.Document
import Verif.Model.Strings
import Verif.Model.Manipulate

/-! Model of forms/acroform: parsing fields, looking them up, validating values, building fields, filling values in
place, rebuilding object streams, adding actions and appearances. -/

namespace Pdfer.Forms

open Pdfer.Go Pdfer.Strings Pdfer.Manipulate Pdfer.XRefStream

/-! ### Values -/

/-- A Go `interface{}` holding a field value.  A float64 is represented by its two renderings
(`strconv.FormatFloat(v, 'f', -1, 64)` and `%v`), a value of another type by its `%v` rendering. -/
inductive Val where
  | nil
  | str (s : Bytes)
  | int (n : Int)
  | bool (b : Bool)
  | float (fixed general : Bytes)
  | other (text : Bytes)
deriving DecidableEq, Repr

/-- `strconv.FormatBool`. -/
def boolText (b : Bool) : Bytes := if b then b!"true" else b!"false"

/-- `fmt.Sprintf("%v", v)`. -/
def fmtV : Val → Bytes
  | .nil => b!"<nil>"
  | .str s => s
  | .int n => itoa n
  | .bool b => boolText b
  | .float _ g => g
  | .other t => t

/-- forms/acroform/replace.go:90-111 – `formatFieldValue` (forms/acroform/writer.go:225-245 is the same). -/
def formatFieldValue (v : Val) (ft : Bytes) : Bytes :=
  match v with
  | .str s => s
  | .int n => itoa n
  | .float f _ => f
  | .bool b => if ft = b!"Btn" then (if b then b!"Yes" else b!"Off") else boolText b
  | v => fmtV v

/-! ### Parsing fields -/

/-- `\w` of package regexp. -/
def reWord (c : UInt8) : Bool := isDigit c || (65 ≤ c && c ≤ 90) || (97 ≤ c && c ≤ 122) || c == 95

/-- forms/acroform/parser.go:163, 170, 187 – `key\s*/(\w+)` anchored: the group. -/
def reKeyName (key s : Bytes) : Option Bytes :=
  (reLit key s).bind fun r => (reLit b!"/" (reSp0 r)).bind fun r =>
  if r.takeWhile reWord = [] then none else some (r.takeWhile reWord)

/-- forms/acroform/parser.go:117, 189, 205, 210, 215 – `key\s*\[([^\]]*)\]` anchored: the group. -/
def reKeyArr (key s : Bytes) : Option Bytes :=
  (reLit key s).bind fun r => (reLit b!"[" (reSp0 r)).bind fun r =>
  if (93 : UInt8) ∈ r then some (r.takeWhile (· ≠ 93)) else none

/-- forms/acroform/parser.go:129, 217 – `(\d+)\s+(\d+)\s+R` anchored: both numbers and the rest. -/
def reRef2 (s : Bytes) : Option ((Nat × Nat) × Bytes) :=
  (reNum s).bind fun p => (reSp1 p.2).bind fun s => (reNum s).bind fun q => (reSp1 q.2).bind fun s =>
  (reLit b!"R" s).map fun r => ((atoiClamp p.1, atoiClamp q.1), r)

/-- `FindAllStringSubmatch(_, -1)` for an expression that never matches the empty text; `skip` bytes of the current
match are still to be passed over. -/
def findAll {α : Type} (p : Bytes → Option (α × Bytes)) : Nat → Bytes → List α
  | _, [] => []
  | skip + 1, _ :: r => findAll p skip r
  | 0, c :: r =>
    match p (c :: r) with
    | some (a, rest) => a :: findAll p (r.length - rest.length) r
    | none => findAll p 0 r

/-- forms/acroform/parser.go:264 – `\(([^)]*)\)` anchored: the group and the rest. -/
def reParen (s : Bytes) : Option (Bytes × Bytes) :=
  (reLit b!"(" s).bind fun r => if (41 : UInt8) ∈ r then some (r.takeWhile (· ≠ 41), (r.dropWhile (· ≠ 41)).drop 1) else none

/-- forms/acroform/parser.go:255-273 – `parseOptions`. -/
def parseOptions (s : Bytes) : List Bytes := if contains s b!"(" then findAll reParen 0 s else []

/-- The value of a parsed field: absent, text, or an array. -/
inductive FVal where
  | none
  | str (s : Bytes)
  | arr (l : List Bytes)
deriving DecidableEq, Repr

/-- forms/acroform/parser.go:239-252 – `parseArray`. -/
def parseArray (s : Bytes) : List Bytes :=
  (fields s).map fun p => if (b!"(").isPrefixOf p && (b!")").isSuffixOf p then (p.drop 1).take (p.length - 2) else p

/-- forms/acroform/parser.go:23-45 – the attributes of a `Field` that the parser sets (the rectangle, a list of floats,
is left out; AA, DA, Q, TI, I and Page are never set). -/
structure Attrs where
  num : Int
  gen : Int
  ft : Bytes := []
  t : Bytes := []
  tu : Bytes := []
  ff : Nat := 0
  v : FVal := .none
  dv : Option Bytes := none
  maxLen : Nat := 0
  opt : List Bytes := []
deriving DecidableEq, Repr

/-- forms/acroform/parser.go:160-207 – the attributes read from the text of the field object. -/
def parseAttrs (num gen : Int) (s : Bytes) : Attrs where
  num := num
  gen := gen
  ft := (searchWith (reKeyName b!"/FT") s).getD []
  t := match searchWith (reInfo b!"/T") s with
    | some x => x
    | none => (searchWith (reKeyName b!"/T") s).getD []
  tu := (searchWith (reInfo b!"/TU") s).getD []
  ff := ((searchWith (reKeyNum b!"/Ff") s).map atoiClamp).getD 0
  v := match searchWith (reInfo b!"/V") s with
    | some x => .str x
    | none => match searchWith (reKeyName b!"/V") s with
      | some x => .str x
      | none => match searchWith (reKeyArr b!"/V") s with
        | some x => .arr (parseArray x)
        | none => .none
  dv := searchWith (reInfo b!"/DV") s
  maxLen := ((searchWith (reKeyNum b!"/MaxLen") s).map atoiClamp).getD 0
  opt := ((searchWith (reKeyArr b!"/Opt") s).map parseOptions).getD []

/-- A parsed field with its child fields (forms/acroform/parser.go:23-45; a kid's Parent is the field that holds it). -/
inductive Field where
  | mk (a : Attrs) (kids : List Field)

/-- The attributes of a field. -/
def Field.attrs : Field → Attrs | .mk a _ => a
/-- The child fields. -/
def Field.kids : Field → List Field | .mk _ k => k

/-- forms/acroform/parser.go:215-233, 129-146 – the references in a /Kids or /Fields array. -/
def arrayRefs (key s : Bytes) : List (Nat × Nat) := ((searchWith (reKeyArr key) s).map (findAll reRef2 0)).getD []

/-- forms/acroform/parser.go:220-232, 132-146 – the loop over references; an error of the recursive call is skipped
(`none`: the recursive call did not finish). -/
def refsLoop (go : Int → Int → Option (Option Field)) : List (Nat × Nat) → Option (List Field)
  | [] => some []
  | r :: rs => match go r.1 r.2 with
    | none => none
    | some f => (refsLoop go rs).map fun fs => match f with | some f => f :: fs | none => fs

/-- forms/acroform/parser.go:150-236 – `parseField`.  The recursion through /Kids has no guard, so it is given fuel; outer
`none`: the fuel ran out, inner `none`: an error.  `get` is parse.GetObject on the file (errors are `none`). -/
def parseField (get : Int → Option Bytes) : Nat → Int → Int → Option (Option Field)
  | 0, _, _ => none
  | fuel + 1, n, g =>
    match get n with
    | none => some none
    | some s => (refsLoop (parseField get fuel) (arrayRefs b!"/Kids" s)).map fun ks => some (.mk (parseAttrs n g s) ks)

/-- forms/acroform/parser.go:104-148 – `parseAcroFormDict`: the fields; inner `none`: no /Fields array. -/
def parseForm (get : Int → Option Bytes) (fuel : Nat) (s : Bytes) : Option (Option (List Field)) :=
  match searchWith (reKeyArr b!"/Fields") s with
  | none => some none
  | some a => (refsLoop (parseField get fuel) (findAll reRef2 0 a)).map some

/-! ### Names and lookup -/

/-- forms/acroform/extract.go:67-75 – `GetFullName` of a field below a parent with the full name `parent`. -/
def joinName (parent t : Bytes) : Bytes := if parent ≠ [] then parent ++ b!"." ++ t else t

/-- forms/acroform/extract.go:78-92 – `FindFieldByName` (top-level fields have no parent): the field and its full
name. -/
def findField : List Field → Bytes → Option (Field × Bytes)
  | [], _ => none
  | f :: fs, name =>
    if f.attrs.t = name then some (f, f.attrs.t)
    else match f.kids.find? (fun k => joinName f.attrs.t k.attrs.t = name ∨ k.attrs.t = name) with
      | some k => some (k, joinName f.attrs.t k.attrs.t)
      | none => findField fs name

/-- forms/acroform/extract.go:55-61 – the values of the kids of one field. -/
def kidValues (parent : Bytes) (m : Map Bytes FVal) (ks : List Field) : Map Bytes FVal :=
  ks.foldl (fun m k => if joinName parent k.attrs.t ≠ [] ∧ k.attrs.v ≠ .none then m.set (joinName parent k.attrs.t) k.attrs.v
    else m) m

/-- forms/acroform/extract.go:45-64 – `GetFieldValues`. -/
def fieldValues (fs : List Field) : Map Bytes FVal :=
  fs.foldl (fun m f => kidValues f.attrs.t (if f.attrs.t ≠ [] ∧ f.attrs.v ≠ .none then m.set f.attrs.t f.attrs.v else m) f.kids) []

/-! ### Validation -/

/-- The errors of forms/acroform/validation.go. -/
inductive VErr where
  | required (name : Bytes)
  | tooLong (name : Bytes) (max : Nat)
  | notRadioOption (name : Bytes)
  | notOption (name : Bytes)
  | unknownField (name : Bytes)
  | missing (name : Bytes)
deriving DecidableEq, Repr

/-- `value == nil || value == ""`. -/
def isEmpty : Val → Bool
  | .nil => true
  | .str [] => true
  | _ => false

/-- forms/acroform/validation.go:62-85 – `validateTextField`. -/
def validateText (a : Attrs) (name : Bytes) (v : Val) : Option VErr :=
  if a.maxLen > 0 ∧ (fmtV v).length > a.maxLen then some (.tooLong name a.maxLen) else none

/-- forms/acroform/validation.go:88-124 – `validateButtonField`. -/
def validateButton (a : Attrs) (name : Bytes) (v : Val) : Option VErr :=
  if a.ff &&& 0x8000 ≠ 0 ∧ fmtV v ≠ b!"Yes" ∧ fmtV v ≠ b!"On" ∧ fmtV v ≠ b!"Off" ∧ fmtV v ≠ b!"No" then none
  else if a.ff &&& 0x10000 ≠ 0 ∧ a.opt ≠ [] ∧ fmtV v ∉ a.opt then some (.notRadioOption name)
  else none

/-- forms/acroform/validation.go:127-154 – `validateChoiceField`. -/
def validateChoice (a : Attrs) (name : Bytes) (v : Val) : Option VErr :=
  if a.opt = [] then none else if fmtV v ∈ a.opt then none else some (.notOption name)

/-- forms/acroform/validation.go:157-171 – `validateSignatureField`. -/
def validateSignature (a : Attrs) (name : Bytes) (v : Val) : Option VErr :=
  if isEmpty v ∧ a.ff &&& 2 ≠ 0 then some (.required name) else none

/-- forms/acroform/validation.go:24-59 – `ValidateField` for a field with the full name `name`. -/
def validateField (a : Attrs) (name : Bytes) (v : Val) : Option VErr :=
  if a.ff &&& 2 ≠ 0 ∧ isEmpty v then some (.required name)
  else if a.ft = b!"Tx" then validateText a name v
  else if a.ft = b!"Btn" then validateButton a name v
  else if a.ft = b!"Ch" then validateChoice a name v
  else if a.ft = b!"Sig" then validateSignature a name v
  else none

/-- forms/acroform/validation.go:177-187 – the errors of the given values. -/
def validateData (fs : List Field) (data : List (Bytes × Val)) : List VErr :=
  data.flatMap fun d => match findField fs d.1 with
    | none => [.unknownField d.1]
    | some (f, name) => (validateField f.attrs name d.2).toList

/-- forms/acroform/validation.go:191-215 – the required fields that are missing. -/
def missingFields (fs : List Field) (data : List (Bytes × Val)) : List VErr :=
  fs.flatMap fun f =>
    (if f.attrs.ff &&& 2 ≠ 0 ∧ f.attrs.t ∉ data.map (·.1) then [VErr.missing f.attrs.t] else []) ++
    f.kids.flatMap fun k =>
      if k.attrs.ff &&& 2 ≠ 0 ∧ joinName f.attrs.t k.attrs.t ∉ data.map (·.1) then [VErr.missing (joinName f.attrs.t k.attrs.t)]
      else []

/-- forms/acroform/validation.go:174-219 – `ValidateFormData`; `data` lists the map in the order of its iteration. -/
def validateFormData (fs : List Field) (data : List (Bytes × Val)) : List VErr :=
  validateData fs data ++ missingFields fs data

/-! ### Field types -/

/-- types/form_types.go – the response types used here. -/
inductive RType where
  | text | checkbox | radio | button | select | signature | unknown
deriving DecidableEq, Repr

/-- forms/acroform/parser.go:387-414 – `mapFieldTypeWithFlags`. -/
def mapFieldType (ft : Bytes) (flags : Nat) : RType :=
  if ft = b!"Tx" then .text
  else if ft = b!"Btn" then
    if flags &&& 0x8000 ≠ 0 then .checkbox else if flags &&& 0x10000 ≠ 0 then .radio else .button
  else if ft = b!"Ch" then .select
  else if ft = b!"Sig" then .signature
  else .unknown

/-! ### Building fields -/

/-- forms/acroform/writer.go:20-32 – `FieldDef`; the rectangle is its rendered text (four numbers `%.2f`, separated by
spaces), `[]` when it has fewer than four numbers. -/
structure FieldDef where
  name : Bytes
  type : Bytes
  value : Val := .nil
  dflt : Val := .nil
  rect : Bytes := []
  flags : Nat := 0
  options : List Bytes := []
  maxLen : Nat := 0
deriving DecidableEq, Repr

/-- forms/acroform/writer.go:43-99 – the four constructors with flags: AddTextField/AddButton (0), AddCheckbox,
AddRadioButton, AddChoiceField. -/
def textField (name rect : Bytes) : FieldDef := { name := name, type := b!"Tx", rect := rect }
/-- forms/acroform/writer.go:55-65. -/
def checkbox (name rect : Bytes) : FieldDef := { name := name, type := b!"Btn", rect := rect, flags := 0x8000 }
/-- forms/acroform/writer.go:68-78. -/
def radioButton (name rect : Bytes) : FieldDef := { name := name, type := b!"Btn", rect := rect, flags := 0x10000 }
/-- forms/acroform/writer.go:81-91. -/
def choiceField (name rect : Bytes) (opts : List Bytes) : FieldDef :=
  { name := name, type := b!"Ch", rect := rect, options := opts }
/-- forms/acroform/writer.go:94-103. -/
def button (name rect : Bytes) : FieldDef := { name := name, type := b!"Btn", rect := rect }

/-- forms/acroform/writer.go:118-126 – `SetRequired`. -/
def setRequired (f : FieldDef) (on : Bool) : FieldDef :=
  { f with flags := if on then f.flags ||| 2 else if f.flags &&& 2 ≠ 0 then f.flags - 2 else f.flags }

/-- forms/acroform/writer.go:202-207 – the options. -/
def optionTexts : List Bytes → Bytes
  | [] => []
  | [o] => b!"(" ++ escapeFieldValue o ++ b!")"
  | o :: os => b!"(" ++ escapeFieldValue o ++ b!") " ++ optionTexts os

/-- forms/acroform/writer.go:163-222 – the dictionary `createFieldObject` writes. -/
def fieldText (f : FieldDef) : Bytes :=
  b!"<< /FT /" ++ f.type ++
  (if f.name ≠ [] then b!" /T (" ++ escapeFieldValue f.name ++ b!")" else []) ++
  (if f.rect ≠ [] then b!" /Rect [" ++ f.rect ++ b!"]" else []) ++
  (if f.flags ≠ 0 then b!" /Ff " ++ natDec f.flags else []) ++
  (if f.value ≠ .nil then b!" /V (" ++ escapeFieldValue (formatFieldValue f.value f.type) ++ b!")" else []) ++
  (if f.dflt ≠ .nil then b!" /DV (" ++ escapeFieldValue (formatFieldValue f.dflt f.type) ++ b!")" else []) ++
  (if f.maxLen > 0 then b!" /MaxLen " ++ natDec f.maxLen else []) ++
  (if f.options ≠ [] then b!" /Opt [" ++ optionTexts f.options ++ b!"]" else []) ++
  b!" >>"

/-- forms/acroform/writer.go:153-156 – the AcroForm dictionary. -/
def formText (nums : List Int) : Bytes :=
  b!"<< /Fields [" ++ Writer.joinSp (nums.map Writer.ref) ++ b!"] /NeedAppearances true >>"

/-- forms/acroform/writer.go:141-160 – `Build` as operations of the writer (`AddObject` for every field, then for the
form); `none` = "no fields to build". -/
def buildTexts (fs : List FieldDef) (firstNum : Int) : Option (List Bytes) :=
  if fs = [] then none
  else some (fs.map fieldText ++ [formText ((List.range fs.length).map fun (i : Nat) => firstNum + (i : Int))])

/-! ### Filling -/

/-- A letter, digit or underscore: the characters of a group name in a replacement template. -/
def tplWord (c : UInt8) : Bool := reWord c

/-- package regexp, `extract`: the group name after a `$`, and the rest of the template. -/
def tplName (s : Bytes) : Option (Bytes × Bytes) :=
  match s with
  | 123 :: r =>
    if r.takeWhile tplWord = [] then none
    else match r.dropWhile tplWord with
      | 125 :: rest => some (r.takeWhile tplWord, rest)
      | _ => none
  | r => if r.takeWhile tplWord = [] then none else some (r.takeWhile tplWord, r.dropWhile tplWord)

/-- package regexp, `expand` for an expression without groups (as used by `ReplaceAllString`): `$$` is a dollar sign, `$0`
the whole match, any other `$name` nothing.  (ASCII templates.)  `fuel` is at least the length of the template. -/
def expand (whole : Bytes) : Nat → Bytes → Bytes
  | 0, _ => []
  | _ + 1, [] => []
  | fuel + 1, c :: r =>
    if c ≠ 36 then c :: expand whole fuel r
    else match r with
      | 36 :: r => 36 :: expand whole fuel r
      | r => match tplName r with
        | none => 36 :: expand whole fuel r
        | some (name, rest) => (if name = b!"0" then whole else []) ++ expand whole fuel rest

/-- forms/acroform/replace.go:69, fill_streams.go:180 – `/V\s*(?:\([^)]*\)|/[^\s]+|\[[^\]]*\])` anchored: the rest. -/
def reV (s : Bytes) : Option Bytes :=
  (reLit b!"/V" s).bind fun r =>
  match reSp0 r with
  | 40 :: r => if (41 : UInt8) ∈ r then some ((r.dropWhile (· ≠ 41)).drop 1) else none
  | 47 :: r => if r.takeWhile (fun c => !reSpace c) = [] then none else some (r.dropWhile fun c => !reSpace c)
  | 91 :: r => if (93 : UInt8) ∈ r then some ((r.dropWhile (· ≠ 93)).drop 1) else none
  | _ => none

/-- forms/acroform/replace.go:70, fill_streams.go:181 – the new entry. -/
def newV (v : Val) (ft : Bytes) : Bytes := b!"/V (" ++ escapeFieldValue (formatFieldValue v ft) ++ b!")"

/-- Insert an entry before the last `>>`; `none` when there is none (forms/acroform/replace.go:78-82,
fill_streams.go:187-191, actions.go:74-78, appearance.go:203-207, writer.go:295-300). -/
def insertBeforeEnd (s entry : Bytes) : Option Bytes :=
  (lastIndex b!">>" s).map fun i => s.take i ++ entry ++ s.drop i

/-- forms/acroform/fill_streams.go:175-197 – `updateFieldContent`; forms/acroform/replace.go:65-83 is the same. -/
def setValue (s : Bytes) (v : Val) (ft : Bytes) : Option Bytes :=
  if (searchWith reV s).isSome then
    some (replaceRe reV (fun m => expand m (newV v ft).length (newV v ft)) 0 s)
  else insertBeforeEnd s (newV v ft ++ b!" ")

/-- forms/acroform/replace.go:19 – `%d\s+%d\s+obj` anchored: the rest. -/
def reObjGen (n g : Int) (s : Bytes) : Option Bytes :=
  (reLit (itoa n) s).bind fun s => (reSp1 s).bind fun s => (reLit (itoa g) s).bind fun s => (reSp1 s).bind fun s =>
  reLit b!"obj" s

/-- forms/acroform/replace.go:15-54 – `ReplaceFieldObject`. -/
def replaceObject (pdf : Bytes) (n g : Int) (new : Bytes) : Option Bytes :=
  (searchWith (reObjGen n g) pdf).bind fun rest =>
  (index b!"endobj" rest).map fun e =>
    pdf.take (pdf.length - rest.length) ++ b!"\n" ++ new ++ b!"\nendobj\n" ++ rest.drop (e + 6)

/-- forms/acroform/replace.go:57-87 – `FillFieldValue`; `get` is parse.GetObject. -/
def fillFieldValue (get : Bytes → Int → Res Bytes) (pdf : Bytes) (a : Attrs) (v : Val) : Res Bytes :=
  (get pdf a.num).bind fun s =>
  (Res.ofOption (setValue s v a.ft)).bind fun s' => Res.ofOption (replaceObject pdf a.num a.gen s')

/-! ### Object streams -/

/-- forms/acroform/stream_rebuild.go:211-215 – the entries: at most `n` pairs of header fields. -/
def hdrEntries (n : Nat) (hdr : Bytes) : List (Int × Int) := (headerPairs (fields hdr)).take n

/-- forms/acroform/stream_rebuild.go:218-232 – the objects of the stream, one map entry after the other; slicing outside
the data panics. -/
def streamObjects (first : Int) (data : Bytes) : List (Int × Int) → Map Int Bytes → Res (Map Int Bytes)
  | [], m => .ok m
  | e :: es, m =>
    let lo := first + e.2
    let hi := match es with | nx :: _ => first + nx.2 | [] => (data.length : Int)
    if 0 ≤ lo ∧ lo ≤ hi ∧ hi ≤ (data.length : Int) then
      streamObjects first data es (m.set e.1 (trimRight ((data.take hi.toNat).drop lo.toNat)))
    else .panic

/-- forms/acroform/stream_rebuild.go:244-251 – the new data and the new header. -/
def renderObjects (objs : Map Int Bytes) : Nat → List (Int × Int) → Bytes × Bytes
  | _, [] => ([], [])
  | off, e :: es =>
    let d := (objs.get e.1).getD []
    let r := renderObjects objs (off + d.length + 1) es
    (d ++ b!"\n" ++ r.1, itoa e.1 ++ b!" " ++ natDec off ++ b!" " ++ r.2)

/-- forms/acroform/stream_rebuild.go:190-254 – `rebuildStreamContent`: new stream data and new header. -/
def rebuildContent (n first : Nat) (data : Bytes) (updates : Map Int Bytes) : Res (Bytes × Bytes) :=
  (sliceTo data first).bind fun hdr =>
  (streamObjects first data (hdrEntries n hdr) []).bind fun objs =>
  .ok (renderObjects (updates.foldl (fun m u => m.set u.1 u.2) objs) 0 (hdrEntries n hdr))

/-- forms/acroform/stream_rebuild.go:257-276 – `formatStreamDict` with all three entries present. -/
def streamDict (n first len : Nat) : Bytes :=
  b!"<< /N " ++ natDec n ++ b!" /First " ++ natDec first ++ b!" /Length " ++ natDec len ++ b!" >>"

/-- forms/acroform/stream_rebuild.go:103-161 – `parseObjectStream` on the object's text, unencrypted: /N, /First and the
decompressed data.  (/N or /First that is missing or too large is an error later, at lines 191-199; it is one here.) -/
def parseObjStm (unz : Bytes → Option Bytes) (s : Bytes) : Res (Nat × Nat × Bytes) :=
  (Res.ofOption (index b!"<<" s)).bind fun ds =>
  (Res.ofOption (index b!">>" (s.drop ds))).bind fun de =>
  let dict := (s.drop ds).take (de + 2)
  (Res.ofOption (index b!"stream" (s.drop (ds + de + 2)))).bind fun k =>
  let data := s.drop (ds + de + 2 + k + 6)
  let data := match data with | 13 :: r => r | 10 :: r => r | d => d
  let data := match data with | 10 :: r => r | d => d
  (Res.ofOption ((searchWith (reKeyNum b!"/Length") dict).bind (atoiMag 9223372036854775807))).bind fun len =>
  (sliceTo data len).bind fun raw =>
  (Res.ofOption (unz raw)).bind fun plain =>
  (Res.ofOption ((searchWith (reKeyNum b!"/N") dict).bind (atoiMag 9223372036854775807))).bind fun n =>
  (Res.ofOption ((searchWith (reKeyNum b!"/First") dict).bind (atoiMag 9223372036854775807))).bind fun first =>
  .ok (n, first, plain)

/-- forms/acroform/stream_rebuild.go:24-100 – `RebuildObjectStream`, unencrypted; `zip` compresses. -/
def rebuildObjectStream (get : Bytes → Int → Res Bytes) (unz : Bytes → Option Bytes) (zip : Bytes → Bytes) (pdf : Bytes)
    (stm : Nat) (updates : Map Int Bytes) : Res Bytes :=
  (get pdf stm).bind fun s =>
  (Res.ofOption (searchSuffix (reObjNum stm) pdf)).bind fun sec =>
  (parseObjStm unz s).bind fun p =>
  (rebuildContent p.1 p.2.1 p.2.2 updates).bind fun r =>
  (Res.ofOption (index b!"stream" sec)).bind fun k =>
  (Res.ofOption (index b!"endstream" (sec.drop k))).bind fun e =>
  .ok (pdf.take (pdf.length - sec.length) ++ natDec stm ++ b!" 0 obj\n" ++
    streamDict p.1 r.2.length (zip r.1).length ++ b!"\nstream\n" ++ zip r.1 ++ b!"\nendstream\nendobj\n" ++
    sec.drop (k + e + 9))

/-! ### Actions and appearances -/

/-- forms/acroform/appearance.go:198, actions.go:134 – `key\s*<<[^>]*>>` anchored: the rest. -/
def reKeyDict (key s : Bytes) : Option Bytes :=
  (reLit key s).bind fun r => (reLit b!"<<" (reSp0 r)).bind fun r => reLit b!">>" (r.dropWhile (· ≠ 62))

/-- forms/acroform/appearance.go:181-212 – `AddAppearanceToField` on the text of the field.  (The replacement text holds
no `$`.) -/
def addAppearance (s : Bytes) (n : Int) : Option Bytes :=
  let entry := b!"/AP << /N " ++ itoa n ++ b!" 0 R >>"
  if contains s b!"/AP" then some (replaceRe (reKeyDict b!"/AP") (fun _ => entry) 0 s)
  else insertBeforeEnd s (entry ++ b!" ")

/-- forms/acroform/actions.go:33-91 – `AddActionToField` on the text of the field, for the text of the action's dictionary
(both branches of the test for an existing action do the same). -/
def addAction (s action : Bytes) : Option Bytes := insertBeforeEnd s (b!"/A " ++ action ++ b!" ")

/-- forms/acroform/actions.go:89-147 – `AddMouseAction` on the text of the field, for the key of the event and the text of
the action's dictionary (`ReplaceAllString` expands `$` in the entry). -/
def addMouseAction (s key action : Bytes) : Option Bytes :=
  let entry := b!"/AA << /" ++ key ++ b!" " ++ action ++ b!" >>"
  if contains s b!"/AA " then some (replaceRe (reKeyDict b!"/AA") (fun m => expand m entry.length entry) 0 s)
  else insertBeforeEnd s (entry ++ b!" ")

/-- forms/acroform/actions.go:45-48, 102-105 – the dictionary of a URI action. -/
def uriAction (uri : Bytes) : Bytes := b!"<< /Type /Action /S /URI /URI (" ++ escapeFieldValue uri ++ b!") >>"

/-- forms/acroform/writer.go:283-304 – `AddAcroFormToCatalog` on the text of the catalog. -/
def addToCatalog (s : Bytes) (n : Int) : Option Bytes :=
  if contains s b!"/AcroForm" then some s
  else insertBeforeEnd s (b!" /AcroForm " ++ itoa n ++ b!" 0 R")

/-- forms/acroform/flatten.go:60-61 – `/AcroForm\s+\d+\s+\d+\s+R` removed everywhere. -/
def flatten (pdf : Bytes) : Bytes :=
  replaceRe (fun s => (reLit b!"/AcroForm" s).bind fun s => (reSp1 s).bind fun s => (reRef2 s).map (·.2)) (fun _ => []) 0 pdf

end Pdfer.Forms
