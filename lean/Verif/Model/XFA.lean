import Verif.Model.Forms

/-! Model of forms/xfa (the XFA streams of a PDF: extraction, update of values, replacement of a stream), core/write/xfa_builder.go
(building a PDF around XFA streams) and core/parse/xfa_parser.go (the fields of an XFA template).

Simplifications: no encryption (`encryptInfo == nil`); `verbose` is off (logging only); the XML decoder of the standard library is not
modelled: the field parser works on its tokens; zlib and deflate are parameters. -/

namespace Pdfer.XFA

open Pdfer.Go Pdfer.Document Pdfer.Forms Pdfer.Incremental

/-! ### Identifiers and types of fields -/

/-- core/parse/xfa_parser.go:199-205 – what becomes of one character of a name (bytes outside ASCII are dropped, as the runes they
belong to are). -/
def idChar (c : UInt8) : Option UInt8 :=
  if reWord c then some c else if c == 32 || c == 45 then some 95 else none

/-- core/parse/xfa_parser.go:196-216 – `sanitizeFieldID`. -/
def sanitizeFieldID (name : Bytes) : Bytes :=
  let id := name.filterMap idChar
  let id := if id = [] then b!"field" else id
  if (id.headD 0 |> isDigit) then b!"field_" ++ id else id

/-- `strings.ToLower` on ASCII letters (the letters outside ASCII are not modelled). -/
def toLower (s : Bytes) : Bytes := s.map fun c => if 65 ≤ c && c ≤ 90 then c + 32 else c

/-- core/parse/xfa_parser.go:166-193 – `mapXFATypeToFieldType`. -/
def mapType (t : Bytes) : Bytes :=
  let l := toLower t
  if l = b!"text" ∨ l = b!"textfield" then b!"text"
  else if l = b!"textarea" ∨ l = b!"textedit" then b!"textarea"
  else if l = b!"radio" ∨ l = b!"radiobutton" then b!"radio"
  else if l = b!"checkbox" ∨ l = b!"checkbutton" then b!"checkbox"
  else if l = b!"select" ∨ l = b!"choice" ∨ l = b!"dropdown" then b!"select"
  else if l = b!"numeric" ∨ l = b!"decimal" ∨ l = b!"integer" then b!"number"
  else if l = b!"date" ∨ l = b!"datefield" then b!"date"
  else if l = b!"email" ∨ l = b!"emailfield" then b!"email"
  else if l = b!"button" then b!"button"
  else if l = b!"signature" ∨ l = b!"signaturefield" then b!"signature"
  else b!"text"

/-! ### The fields of a template -/

/-- A token of the XML decoder: local names only; comments and processing instructions, which the parser ignores, are left out. -/
inductive Tok where
  | start (name : Bytes) (attrs : List (Bytes × Bytes))
  | close (name : Bytes)
  | chars (text : Bytes)
deriving DecidableEq, Repr

/-- types.FormField, as far as the XFA parser fills it. -/
structure XField where
  id : Bytes
  name : Bytes := []
  fullName : Bytes := []
  type : Bytes := b!"text"
  dflt : Option Bytes := none
  required : Bool := false
  readOnly : Bool := false
  layout : Map Bytes Bytes := []
  label : Option Bytes := none
deriving DecidableEq, Repr

/-- core/parse/xfa_parser.go:17-43 – the local variables of the loop. -/
structure PState where
  fields : List XField := []
  index : Nat := 1
  cur : Option XField := none
  name : Bytes := []
  value : Bytes := []
  required : Bytes := []
  label : Bytes := []
  inField : Bool := false
  inValue : Bool := false
  inName : Bool := false
  inLabel : Bool := false

/-- core/parse/xfa_parser.go:71-90 – one attribute of a field element. -/
def attrStep (p : XField × Bytes × Bytes) (a : Bytes × Bytes) : XField × Bytes × Bytes :=
  let (f, name, req) := p
  if a.1 = b!"name" then ({ f with name := a.2, fullName := a.2, id := sanitizeFieldID a.2 }, a.2, req)
  else if a.1 = b!"type" then ({ f with type := mapType a.2 }, name, req)
  else if a.1 = b!"required" then (f, name, a.2)
  else if a.1 = b!"access" then ((if a.2 = b!"readOnly" then { f with readOnly := true } else f), name, req)
  else if a.1 = b!"h" ∨ a.1 = b!"w" ∨ a.1 = b!"x" ∨ a.1 = b!"y" then ({ f with layout := f.layout.set a.1 a.2 }, name, req)
  else (f, name, req)

/-- `fmt.Sprintf("field_%d", i)`. -/
def fieldN (i : Nat) : Bytes := b!"field_" ++ natDec i

/-- core/parse/xfa_parser.go:101-131 – what is done to a field when its element ends. -/
def finish (st : PState) (f : XField) : XField :=
  let f := if f.name = [] then
      (if st.name ≠ [] then { f with name := st.name, fullName := st.name, id := sanitizeFieldID st.name }
       else { f with name := fieldN st.index, fullName := fieldN st.index, id := fieldN st.index })
    else f
  let f := if f.type = [] then { f with type := b!"text" } else f
  let f := if st.value ≠ [] then { f with dflt := some (trimSpace st.value) } else f
  let f := if st.label ≠ [] then { f with label := some (trimSpace st.label) } else f
  { f with required := st.required = b!"1" || toLower st.required = b!"true" || toLower st.required = b!"required" }

/-- core/parse/xfa_parser.go:45-163 – one token. -/
def parseStep (st : PState) : Tok → PState
  | .start n attrs =>
    if n = b!"field" then
      let p := attrs.foldl attrStep ({ id := fieldN st.index }, st.name, st.required)
      { st with inField := true, cur := some p.1, name := p.2.1, required := p.2.2 }
    else if n = b!"value" ∧ st.inField then { st with inValue := true, value := [] }
    else if n = b!"name" ∧ st.inField then { st with inName := true }
    else if n = b!"label" ∧ st.inField then { st with inLabel := true }
    else st
  | .close n =>
    if n = b!"field" then
      { st with fields := match st.cur with | some f => st.fields ++ [finish st f] | none => st.fields
                index := match st.cur with | some _ => st.index + 1 | none => st.index
                inField := false, cur := none, name := [], value := [], required := [], label := [] }
    else if n = b!"value" then
      { st with inValue := false
                cur := match st.cur with
                  | some f => some (if st.value ≠ [] then { f with dflt := some (trimSpace st.value) } else f)
                  | none => none }
    else if n = b!"name" then { st with inName := false }
    else if n = b!"label" then { st with inLabel := false }
    else st
  | .chars t =>
    if st.inValue ∧ st.inField then { st with value := st.value ++ t }
    else if st.inName ∧ st.cur.isSome then
      { st with name := trimSpace t
                cur := st.cur.map fun f => if trimSpace t ≠ [] then { f with name := trimSpace t, fullName := trimSpace t, id := sanitizeFieldID (trimSpace t) } else f }
    else if st.inLabel ∧ st.inField then { st with label := st.label ++ t }
    else st

/-- core/parse/xfa_parser.go:16-163 – `ParseXFAFields`; `toks` are the tokens the decoder delivers before the end or its first error. -/
def parseFields (xml : Bytes) (toks : List Tok) : List XField :=
  if contains xml b!"<field" then (toks.foldl parseStep {}).fields else []

/-! ### Updating values in XFA XML -/

/-- forms/xfa/xfa.go:509-556 – the update of one field; `v` is the value in its `%v` form. -/
def setFieldValue (xml : Bytes) (name v : Bytes) : Bytes :=
  match index (b!"<field name=\"" ++ name ++ b!"\"") xml with
  | none => xml
  | some i =>
    match index b!"</field>" (xml.drop i) with
    | none => xml
    | some e =>
      let sec := (xml.drop i).take e
      match index b!"<value>" sec, index b!"</value>" sec with
      | some a, some b => xml.take (i + a + 7) ++ v ++ xml.drop (i + b)
      | _, _ => xml.take (i + e) ++ b!"<value>" ++ v ++ b!"</value>" ++ xml.drop (i + e)

/-- forms/xfa/xfa.go:505-559 – `UpdateXFAFieldValues`; `data` are the entries of the form data in the order in which Go walks the
map. -/
def updateFieldValues (xml : Bytes) (data : List (Bytes × Val)) : Bytes :=
  data.foldl (fun x e => setFieldValue x e.1 (fmtV e.2)) xml

/-- forms/xfa/xfa.go:474-502 – `UpdateXFAValues`. -/
def updateValues (xml : Bytes) (data : List (Bytes × Val)) : Res Bytes :=
  match index b!"<data" xml with
  | none => .ok (updateFieldValues xml data)
  | some s =>
    match lastIndex b!"</data>" xml with
    | none => .ok (updateFieldValues xml data)
    | some e => (slice xml s (e + 7)).bind fun sec => .ok (xml.take s ++ updateFieldValues sec data ++ xml.drop (e + 7))

/-! ### Replacing a stream -/

/-- Leftmost match with its position. -/
def searchAt {α : Type} (p : Bytes → Option α) : Bytes → Option (Nat × α)
  | [] => (p []).map fun a => (0, a)
  | c :: s => match p (c :: s) with
    | some a => some (0, a)
    | none => (searchAt p s).map fun q => (q.1 + 1, q.2)

/-- A Go byte slice as `append` sees it: the first `len` bytes of the caller's array, or an array of its own. -/
inductive Buf where
  | shared (len : Nat)
  | own (b : Bytes)
deriving DecidableEq, Repr

/-- `append(buf, src...)` on the array `arr` of the caller (from the start of the slice to its capacity): in place if the capacity
suffices, into a fresh array otherwise. -/
def append (arr : Bytes) : Buf → Bytes → Buf × Bytes
  | .own b, src => (.own (b ++ src), arr)
  | .shared l, src =>
    if l + src.length ≤ arr.length then (.shared (l + src.length), arr.take l ++ src ++ arr.drop (l + src.length))
    else (.own (arr.take l ++ src), arr)

/-- The bytes of a slice. -/
def Buf.read (arr : Bytes) : Buf → Bytes
  | .shared l => arr.take l
  | .own b => b

/-- `/Length\s+(\d+)` anchored: how many bytes stand before the digits, and the digits. -/
def reLength (s : Bytes) : Option (Nat × Bytes) :=
  (reLit b!"/Length" s).bind fun r => (reSp1 r).bind fun r => (reNum r).map fun p => (s.length - r.length, p.1)

/-- Where forms/xfa/xfa_utils.go:856-902 cuts the file: the start and the end of the digits of the length, the start and the end of the
stream data. -/
structure Cuts where
  lenStart : Nat
  lenEnd : Nat
  dataStart : Nat
  dataEnd : Nat
deriving DecidableEq, Repr

/-- forms/xfa/xfa_utils.go:856-902 – the search of `ReplaceStreamInPDF` (`none` = error). -/
def replaceCuts (pdf : Bytes) (n : Int) : Option Cuts :=
  (searchAt (reHeader0 n) pdf).bind fun h =>
  let obj := pdf.drop h.1
  (index b!"stream" obj).bind fun k =>
  (searchAt reLength (obj.take k)).bind fun l =>
  let ds := h.1 + k + 6 + ((pdf.drop (h.1 + k + 6)).takeWhile objWs).length
  (index b!"endstream" (pdf.drop ds)).map fun e =>
  { lenStart := h.1 + l.1 + l.2.1, lenEnd := h.1 + l.1 + l.2.1 + l.2.2.length, dataStart := ds, dataEnd := ds + e }

/-- forms/xfa/xfa_utils.go:902-921 – the four appends.  `arr` is the array behind the caller's slice, `len` the length of that slice; the
parts to be copied are read from the array at the moment they are copied.  The result and the array afterwards. -/
def splice (arr : Bytes) (len : Nat) (c : Cuts) (new : Bytes) : Bytes × Bytes :=
  let s1 := append arr (.shared c.lenStart) (natDec new.length)
  let s2 := append s1.2 s1.1 ((s1.2.take c.dataStart).drop c.lenEnd)
  let s3 := append s2.2 s2.1 new
  let s4 := append s3.2 s3.1 ((s3.2.take len).drop c.dataEnd)
  (s4.1.read s4.2, s4.2)

/-- forms/xfa/xfa_utils.go:855-922 – `ReplaceStreamInPDF`: the result and the caller's array afterwards. -/
def replaceStream (arr : Bytes) (len : Nat) (n : Int) (new : Bytes) : Option (Bytes × Bytes) :=
  (replaceCuts (arr.take len) n).map fun c => splice arr len c new

/-! ### Extracting the streams -/

/-- zlib and deflate readers (`none` = an error), and the deflate writer. -/
structure Zip where
  zlib : Bytes → Option Bytes
  flate : Bytes → Option Bytes
  deflate : Bytes → Bytes

/-- forms/xfa/xfa_utils.go:803-830 – `DecompressStream`: the data and whether it was compressed (it never fails). -/
def decompress (zip : Zip) (s : Bytes) : Bytes × Bool :=
  match zip.zlib s with
  | some d => (d, true)
  | none => match zip.flate s with
    | some d => (d, true)
    | none => (s, false)

/-- forms/xfa/xfa.go:47-53 – one end of line after `stream`. -/
def afterStream (s : Bytes) : Bytes :=
  let s := match s with | 13 :: r => r | _ => s
  match s with | 10 :: r => r | _ => s

/-- forms/xfa/xfa.go:19-92 – `extractStreamDataFromObject`.  A length whose sum with the start of the data exceeds an int wraps around
and the slice panics. -/
def streamDataOf (zip : Zip) (obj : Bytes) : Res Bytes :=
  match index b!"stream" obj with
  | none => match index b!"<<" obj with
    | some d => .ok (obj.drop d)
    | none => .ok obj
  | some k =>
    match index b!"endstream" (obj.drop k) with
    | none => .err
    | some e =>
      let data := afterStream (obj.drop (k + 6))
      let start := obj.length - data.length
      let raw : Res Bytes :=
        match searchWith (reKeyNum b!"/Length") (obj.take k) with
        | some ds =>
          if start + atoiClamp ds > 9223372036854775807 then .panic
          else if start + atoiClamp ds ≤ obj.length then .ok (data.take (atoiClamp ds))
          else .ok ((obj.take (k + e)).drop start)
        | none => .ok ((obj.take (k + e)).drop start)
      raw.bind fun s =>
        if contains (obj.take k) b!"/FlateDecode" then .ok (decompress zip s).1 else .ok s

/-- Position of the bracket that closes an array whose depth is `d`. -/
def bracketEnd : Nat → Bytes → Option Nat
  | _, [] => none
  | d, c :: r =>
    if c = 91 then (bracketEnd (d + 1) r).map (· + 1)
    else if c = 93 then (if d ≤ 1 then some 0 else (bracketEnd (d - 1) r).map (· + 1))
    else (bracketEnd d r).map (· + 1)

/-- forms/xfa/xfa_utils.go:533-546 – position of the `>>` that closes the dictionary (text starts at its `<<`, depth 0). -/
def dictClose : Nat → Bytes → Option Nat
  | d, 60 :: 60 :: r => (dictClose (d + 1) r).map (· + 2)
  | d, 62 :: 62 :: r => if d = 1 then some 0 else (dictClose (d - 1) r).map (· + 2)
  | d, _ :: r => (dictClose d r).map (· + 1)
  | _, [] => none

/-- forms/xfa/xfa_utils.go:594-602 – `/XFA` in any mixture of cases. -/
def anyCaseXFA (s : Bytes) : Option Unit :=
  match s with
  | a :: b :: c :: d :: _ =>
    if a = 47 ∧ (b = 88 ∨ b = 120) ∧ (c = 70 ∨ c = 102) ∧ (d = 65 ∨ d = 97) then some () else none
  | _ => none

/-- forms/xfa/xfa_utils.go:521-603 – where the XFA key is. -/
def xfaKey (s : Bytes) : Option Nat :=
  let inDict : Option Nat := (index b!"<<" s).bind fun d =>
    (dictClose 0 (s.drop d)).bind fun e =>
    ((index b!"/XFA" ((s.drop d).take (e + 2))).orElse fun _ => index b!"/xfa" ((s.drop d).take (e + 2))).map (· + d)
  inDict.orElse fun _ => (index b!"/XFA" s).orElse fun _ => (index b!"/xfa" s).orElse fun _ =>
    (index b!"/ XFA" s).orElse fun _ => (searchAt anyCaseXFA s).map (·.1)

/-- forms/xfa/xfa_utils.go:521-649 – `findXFAArrayContent`: the text after the bracket up to and with the closing bracket, which must
be among the next 10000 bytes. -/
def xfaArray (s : Bytes) : Option Bytes :=
  (xfaKey s).bind fun k =>
  (index b!"[" (s.drop k)).bind fun a =>
  let r := s.drop (k + a + 1)
  (bracketEnd 1 (r.take 10000)).map fun e => r.take (e + 1)

/-- forms/xfa/xfa.go:192-219 – the array of an AcroForm inside the catalog: `/XFA\s*\[`, then the closing bracket among 10000 bytes. -/
def xfaInline (pdf : Bytes) : Option Bytes :=
  (searchWith (fun s => (reLit b!"/XFA" s).bind fun r => reLit b!"[" (reSp0 r)) pdf).bind fun r =>
  (bracketEnd 1 (r.take 9999)).map fun e => r.take e

/-- forms/xfa/xfa.go:229 – `\(([^)]+)\)\s*(\d+)\s+(\d+)\s+R` anchored: the name, the digits of the number, the rest. -/
def reStreamRef (s : Bytes) : Option ((Bytes × Bytes) × Bytes) :=
  (reLit b!"(" s).bind fun r =>
  if r.takeWhile (· ≠ 41) = [] then none
  else (reLit b!")" (r.dropWhile (· ≠ 41))).bind fun r2 => (reNum (reSp0 r2)).bind fun p => (reSp1 p.2).bind fun r3 =>
    (reNum r3).bind fun q => (reSp1 q.2).bind fun r4 => (reLit b!"R" r4).map fun r5 => ((r.takeWhile (· ≠ 41), p.1), r5)

/-- forms/xfa/xfa.go:129, :154 – `/AcroForm\s+(\d+)\s+(\d+)\s+R` anchored: the first number. -/
def reAcroForm (s : Bytes) : Option Bytes :=
  (reLit b!"/AcroForm" s).bind fun r => (reSp1 r).bind fun r => (reNum r).bind fun p => (reSp1 p.2).bind fun r =>
  (reNum r).bind fun q => (reSp1 q.2).bind fun r => (reLit b!"R" r).map fun _ => p.1

/-- Start of the line in which position `p` lies. -/
def lineStart (pdf : Bytes) (p : Nat) : Nat := p - ((pdf.take p).reverse.takeWhile fun c => c ≠ 10 ∧ c ≠ 13).length

/-- `pdf[lo:hi]` with `lo = max(0, i-d)` and `hi = min(len, i+u)`. -/
def window (pdf : Bytes) (i : Int) (d u : Nat) : Res (Nat × Bytes) :=
  let lo := max 0 (i - d)
  let hi := min (pdf.length : Int) (i + u)
  if lo ≤ hi then .ok (lo.toNat, (pdf.take hi.toNat).drop lo.toNat) else .panic

/-- forms/xfa/xfa_utils.go:21-153 – `findObjectBoundaries`: the bytes of the object.  The check of the line at :103-119 looks for a text
that is known to be absent when it runs and is left out. -/
def objectBytes (pdf : Bytes) (i : Int) (n : Int) : Res Bytes :=
  let head := itoa n ++ b!" 0 obj"
  let cut (start : Int) : Res Bytes :=
    if start < 0 ∨ start > pdf.length then .panic
    else (Res.ofOption (index b!"endobj" (pdf.drop start.toNat))).bind fun e => .ok ((pdf.drop start.toNat).take (e + 6))
  let near : Res (Option Nat) :=
    if 0 ≤ i ∧ i < pdf.length then (window pdf i 2000 2000).bind fun w => .ok ((index head w.2).map (· + w.1)) else .ok none
  near.bind fun
  | some p => cut (lineStart pdf p)
  | none =>
    match index head pdf with
    | some p => cut (lineStart pdf p)
    | none =>
      (window pdf i 1000 1000).bind fun w =>
      let other : Option Nat := (index (itoa n) w.2).bind fun p =>
        let r := pdf.drop (w.1 + p + (itoa n).length)
        if 10 < r.length then
          (match r with | c :: r' => if objWs c ∧ (b!"0 obj").isPrefixOf (r'.take 9) then some (w.1 + p) else none | [] => none)
        else none
      match other with
      | some p => cut (lineStart pdf p)
      | none =>
        (window pdf i 5000 5000).bind fun w5 =>
        if contains w5.2 b!"obj" then cut i
        else (window pdf i 200 10000).bind fun w6 => .ok w6.2

/-- forms/xfa/xfa_utils.go:704-799 – `extractStreamFromPDF`.  A length whose sum with the start exceeds an int wraps around and the slice
panics. -/
def oldStream (xref : Bytes → Nat → Option (Map Int Int)) (pdf : Bytes) (n : Int) : Res Bytes :=
  (Res.ofOption (findObjectByNumber xref pdf n)).bind fun i =>
  (objectBytes pdf i n).bind fun obj =>
  (Res.ofOption (index b!"obj" obj)).bind fun o =>
  let ds := o + 3 + ((obj.drop (o + 3)).takeWhile objWs).length
  (Res.ofOption (index b!"stream" obj)).bind fun k =>
  (slice obj ds k).bind fun dict =>
  let len := ((searchWith (reKeyNum b!"/Length") dict).map atoiClamp).getD 0
  let data := afterStream (obj.drop (k + 6))
  let start := obj.length - data.length
  if len > 0 ∧ start + len > 9223372036854775807 then .panic
  else if len > 0 ∧ len ≤ data.length then .ok (data.take len)
  else (Res.ofOption (index b!"endstream" data)).bind fun e => .ok (data.take e)

/-- forms/xfa/xfa.go:95-99 – `XFAStreamInfo`. -/
structure Info where
  data : Bytes
  num : Int
  compressed : Bool
deriving DecidableEq, Repr

/-- forms/xfa/xfa.go:285-308 – the names that have a place in `XFAStreams`. -/
def known : List Bytes :=
  [b!"template", b!"datasets", b!"config", b!"localeSet", b!"connectionSet", b!"stylesheet", b!"xmp", b!"signature", b!"sourceSet"]

/-- What the extraction gets from outside: the decompressor of object streams and the cross-reference reader of the old lookup. -/
structure Src where
  unz : Bytes → Option Bytes
  xref : Bytes → Nat → Option (Map Int Int)
  zip : Zip

/-- forms/xfa/xfa.go:243-283 – the data of one stream (`.ok none` = skipped). -/
def streamInfo (src : Src) (pdf : Bytes) (n : Int) : Res (Option Info) :=
  let obj : Res Bytes := match getObject src.unz none pdf n with
    | .err => oldStream src.xref pdf n
    | r => r
  match obj with
  | .panic => .panic
  | .err => .ok none
  | .ok o => match streamDataOf src.zip o with
    | .panic => .panic
    | .err => .ok none
    | .ok d => .ok (some { data := (decompress src.zip d).1, num := n, compressed := (decompress src.zip d).2 })

/-- forms/xfa/xfa.go:236-311 – the loop over the references. -/
def streamLoop (src : Src) (pdf : Bytes) : Map Bytes Info → List (Bytes × Bytes) → Res (Map Bytes Info)
  | m, [] => .ok m
  | m, (name, ds) :: rest =>
    match atoi ds with
    | none => streamLoop src pdf m rest
    | some n => (streamInfo src pdf n).bind fun
      | none => streamLoop src pdf m rest
      | some i => streamLoop src pdf (if name ∈ known then m.set name i else m) rest

/-- forms/xfa/xfa.go:117-314 – `ExtractAllXFAStreams`: the streams by name. -/
def extractAll (src : Src) (pdf : Bytes) : Res (Map Bytes Info) :=
  let content : Res Bytes :=
    (match searchWith reAcroForm pdf with
      | some ds => Res.ofOption (atoi ds)
      | none => if (searchWith (fun s => (reLit b!"/AcroForm" s).bind fun r => reLit b!"<<" (reSp0 r)) pdf).isSome then .ok 0 else .err).bind fun n =>
    if n > 0 then
      (match getObject src.unz none pdf n with
        | .err => (Res.ofOption (findObjectByNumber src.xref pdf n)).bind fun i => objectBytes pdf i n
        | r => r).bind fun obj => Res.ofOption (xfaArray obj)
    else Res.ofOption (xfaInline pdf)
  content.bind fun a =>
  let refs := findAll reStreamRef 0 a
  if refs = [] then .err else streamLoop src pdf [] refs

/-- forms/xfa/xfa.go:318-331 – `FindXFADatasetsStream`. -/
def findDatasets (src : Src) (pdf : Bytes) : Res (Bytes × Int) :=
  (extractAll src pdf).bind fun m => Res.ofOption ((m.get b!"datasets").map fun i => (i.data, i.num))

/-- forms/xfa/xfa.go:424-471 – `UpdateXFAInPDF`: the result and the caller's array afterwards. -/
def updateInPDF (src : Src) (arr : Bytes) (len : Nat) (data : List (Bytes × Val)) : Res (Bytes × Bytes) :=
  (findDatasets src (arr.take len)).bind fun d =>
  let x := decompress src.zip d.1
  (updateValues x.1 data).bind fun u =>
  Res.ofOption (replaceStream arr len d.2 (if x.2 then src.zip.deflate u else u))

/-! ### Building a PDF around XFA streams -/

/-- core/write/xfa_builder.go:35-39 – `XFAStreamData`. -/
structure XStream where
  name : Bytes
  data : Option Bytes
  compress : Bool

/-- core/write/xfa_builder.go:41-86 – the calls `BuildFromXFA` makes on its new writer. -/
def buildOps (ss : List XStream) : List Writer.Op :=
  ss.map (fun s => .addStream (.fresh [(b!"Type", .str b!"/EmbeddedFile")]) s.data s.compress) ++
  [.addObject (some (b!"<</Fields[]/XFA[" ++ (ss.zipIdx.flatMap fun e => b!"(" ++ e.1.name ++ b!")" ++ natDec (e.2 + 1) ++ b!" 0 R") ++ b!"]>>")),
   .addObject (some (b!"<</Type/Catalog/AcroForm " ++ natDec (ss.length + 1) ++ b!" 0 R>>")),
   .setRoot (ss.length + 2)]

/-- core/write/xfa_builder.go:41-86 – `BuildFromXFA`. -/
def buildFromXFA (env : Writer.Env) (ss : List XStream) : Bytes := (Writer.write env (Writer.run env (buildOps ss))).1

/-- forms/xfa/xfa.go:378-421 – the streams `BuildPDFFromXFAStreams` takes, in its order. -/
def taken : List Bytes := [b!"template", b!"datasets", b!"config", b!"localeSet", b!"connectionSet", b!"stylesheet", b!"xmp"]

/-- forms/xfa/xfa.go:371-422 – `BuildPDFFromXFAStreams`. -/
def buildStreams (m : Map Bytes Info) : List XStream :=
  taken.filterMap fun n => (m.get n).bind fun i => if i.data = [] then none else some { name := n, data := some i.data, compress := true }

/-! ### Rebuilding a PDF with new XFA streams -/

/-- core/write/xfa_builder.go:276-303 – the text before the first key and the keys with their values. -/
def dictPairs : Bytes → Bytes × List (Bytes × Bytes)
  | [] => ([], [])
  | c :: r =>
    let p := dictPairs r
    if c = 47 ∧ r.takeWhile reWord ≠ [] then ([], (r.takeWhile reWord, trimSpace (p.1.drop (r.takeWhile reWord).length)) :: p.2)
    else (c :: p.1, p.2)

/-- core/write/xfa_builder.go:265-305 – `parseDictionary`. -/
def parseDictionary (data : Bytes) : Writer.Dict :=
  let s := trimSpace data
  let s := if (b!"<<").isPrefixOf s then s.drop 2 else s
  let s := trimSpace s
  let s := if (b!">>").isSuffixOf s then s.take (s.length - 2) else s
  (dictPairs s).2.foldl (fun d e => d.set e.1 (match atoi e.2 with | some n => .int n | none => .str e.2)) []

/-- core/write/writer.go:21-28 – `PDFObject` as the rebuild uses it. -/
structure RObj where
  content : Bytes
  stream : Option Bytes
  dict : Writer.Dict

/-- core/write/xfa_builder.go:169 – `(\d+)\s+(\d+)\s+obj` anchored: the digits of the number and the rest. -/
def reObjHeader (s : Bytes) : Option (Bytes × Bytes) :=
  (reNum s).bind fun p => (reSp1 p.2).bind fun r => (reNum r).bind fun q => (reSp1 q.2).bind fun r => (reLit b!"obj" r).map fun r => (p.1, r)

/-- core/write/xfa_builder.go:179-228 – one object, from the text after its `obj`. -/
def rebuildObj (after : Bytes) : Res (Option RObj) :=
  match index b!"endobj" after with
  | none => .ok none
  | some e =>
    let c := after.take e
    match index b!"stream" c with
    | none => .ok (some { content := trimSpace c, stream := none, dict := [] })
    | some k =>
      let dict := parseDictionary (c.take k)
      let data := (c.drop (k + 6)).dropWhile isEol
      let start : Int := (c.length - data.length : Nat)
      let stm : Res Bytes := match dict.get b!"Length" with
        | some (.int n) =>
          if start + n > 9223372036854775807 then .panic
          else if start + n ≤ c.length then (if n < 0 then .panic else .ok (data.take n.toNat))
          else .ok (data.take ((index b!"endstream" data).getD data.length))
        | _ => .ok (data.take ((index b!"endstream" data).getD data.length))
      stm.bind fun s => .ok (some { content := trimSpace (c.take k), stream := some s, dict := dict })

/-- core/write/xfa_builder.go:169-228 – the objects found in the text (later ones replace earlier ones). -/
def directObjects : Map Int RObj → List (Bytes × Bytes) → Res (Map Int RObj)
  | m, [] => .ok m
  | m, (ds, after) :: rest => (rebuildObj after).bind fun
    | none => directObjects m rest
    | some o => directObjects (m.set (atoiClamp ds) o) rest

/-- core/write/xfa_builder.go:246-262 – `findStartXRef`. -/
def findStart (pdf : Bytes) : Option Nat :=
  (searchWith (reKeyNum b!"startxref") (pdf.drop (pdf.length - 1024))).bind (atoiMag 9223372036854775807)

/-- core/write/xfa_builder.go:230-242 – the objects of object streams that are not there as direct objects. -/
def streamObjects (unz : Bytes → Option Bytes) (pdf : Bytes) : Map Int RObj → List (Int × Nat × Nat) → Res (Map Int RObj)
  | m, [] => .ok m
  | m, (n, stm, idx) :: rest =>
    if (m.get n).isSome then streamObjects unz pdf m rest
    else match XRefStream.getObjectFromStream unz some pdf n stm idx with
      | .panic => .panic
      | .err => streamObjects unz pdf m rest
      | .ok d => streamObjects unz pdf (m.set n { content := trimSpace d, stream := none, dict := [] }) rest

/-- core/write/xfa_builder.go:165-244 – `parseAllObjects`. -/
def allObjects (unz : Bytes → Option Bytes) (pdf : Bytes) : Res (Map Int RObj) :=
  (directObjects [] (findAll (fun s => (reObjHeader s).map fun p => (p, p.2)) 0 pdf)).bind fun m =>
  match findStart pdf with
  | some (start + 1) =>
    match XRefStream.parseFull unz pdf (start + 1) with
    | .panic => .panic
    | .err => .ok m
    | .ok r => streamObjects unz pdf m (r.objectStreams.map fun e => (e.1, e.2.1, e.2.2))
  | _ => .ok m

/-- core/write/xfa_builder.go:307-338 – a reference in the trailer: `key\s+(\d+)\s+\d+\s+R`, first match in the file, 0 if there is none. -/
def trailerRef (key pdf : Bytes) : Int :=
  ((searchWith (fun s => (reLit key s).bind fun r => (reSp1 r).bind fun r => (reNum r).bind fun p => (reSp1 p.2).bind fun r =>
    (reNum r).bind fun q => (reSp1 q.2).bind fun r => (reLit b!"R" r).map fun _ => p.1) pdf).map fun ds => (atoiClamp ds : Int)).getD 0

/-- core/write/xfa_builder.go:428-442 – `parseXFAArrayContent` (later entries replace earlier ones with the same name). -/
def xfaNames (a : Bytes) : Map Bytes Int :=
  (findAll reStreamRef 0 a).foldl (fun m e => m.set e.1 (atoiClamp e.2)) []

/-- core/write/xfa_builder.go:388-425 – `parseXFAArrayFromContent`.  Without a closing bracket the slice bounds cross and it panics. -/
def xfaMapOf (obj : Bytes) : Res (Map Bytes Int) :=
  (Res.ofOption (index b!"/XFA" obj)).bind fun k =>
  (Res.ofOption (index b!"[" (obj.drop k))).bind fun a =>
  let r := obj.drop (k + a + 1)
  match bracketEnd 1 r with
  | some e => .ok (xfaNames (r.take e))
  | none => .panic

/-- core/write/xfa_builder.go:341-386 – `findXFAStreamMap`. -/
def xfaMap (unz : Bytes → Option Bytes) (pdf : Bytes) : Res (Map Bytes Int) :=
  match searchWith reAcroForm pdf with
  | some ds =>
    (Res.ofOption (atoi ds)).bind fun n => (getObject unz none pdf n).bind xfaMapOf
  | none =>
    (Res.ofOption (searchWith (fun s => (reLit b!"/XFA" s).bind fun r => (reLit b!"[" (reSp0 r)).bind fun r =>
      if (93 : UInt8) ∈ r ∧ r.takeWhile (· ≠ 93) ≠ [] then some (r.takeWhile (· ≠ 93)) else none) pdf)).bind fun a => .ok (xfaNames a)

/-- core/write/xfa_builder.go:113-135 – one new stream. -/
def replaceData (z : Bytes → Bytes) (names : Map Bytes Int) (m : Map Int RObj) (u : Bytes × Bytes) : Map Int RObj :=
  match names.get u.1 with
  | none => m
  | some n => match m.get n with
    | none => m
    | some o => m.set n { o with stream := some (z u.2), dict := (o.dict.set b!"Filter" (.str b!"/FlateDecode")).set b!"Length" (.int (z u.2).length) }

/-- core/write/xfa_builder.go:138-144 – the call for one object; an object of white space only has a nil content and is left out. -/
def rebuildOp (e : Int × RObj) : Option Writer.Op :=
  match e.2.stream with
  | some s => some (.setStream e.1 (.fresh e.2.dict) (some s) false)
  | none => if e.2.content = [] then none else some (.setObject e.1 (some e.2.content))

/-- core/write/xfa_builder.go:88-162 – `BuildFromOriginal`, unencrypted.  `updates` are the new streams in the order in which Go walks the
map; the objects are added in the order of the association list. -/
def rebuild (unz : Bytes → Option Bytes) (env : Writer.Env) (pdf : Bytes) (updates : List (Bytes × Bytes)) : Res Bytes :=
  (allObjects unz pdf).bind fun m =>
  match (match xfaMap unz pdf with | .panic => Res.panic | .err => Res.ok [] | .ok x => Res.ok x) with
  | .panic => .panic
  | .err => .err
  | .ok names =>
    let m := updates.foldl (replaceData env.z names) m
    let root := trailerRef b!"/Root" pdf
    let info := trailerRef b!"/Info" pdf
    let ops := m.filterMap rebuildOp ++ (if root > 0 then [Writer.Op.setRoot root] else []) ++ (if info > 0 then [Writer.Op.setInfo info] else [])
    .ok (Writer.write env (Writer.run env ops)).1

/-- forms/xfa/xfa.go:334-368 – `RebuildPDFFromXFAStreams`. -/
def rebuildStreams (unz : Bytes → Option Bytes) (env : Writer.Env) (pdf : Bytes) (m : Map Bytes Info) : Res Bytes :=
  rebuild unz env pdf (known.filterMap fun n => (m.get n).bind fun i => if i.data = [] then none else some (n, i.data))

end Pdfer.XFA
