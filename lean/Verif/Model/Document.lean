import Verif.Model.Incremental

/-! Model of the byte-perfect documents (core/parse/document.go, core/parse/document_parser.go) and of the
stand-alone object lookup (core/parse/get_object.go:23-133, core/parse/parser.go:102-177).

Simplifications: offsets read from `\d+` are natural numbers; only ASCII white space; decompression and
decryption are parameters; /ID arrays are not modelled (the code never fills them). -/

namespace Pdfer.Document

open Pdfer.Go Pdfer.XRefTable Pdfer.XRefStream Pdfer.Incremental

/-! ### Raw objects -/

/-- core/parse/document.go:34-49 – `PDFRawObject`. -/
structure RawObj where
  number : Int
  generation : Int
  offset : Nat
  endOffset : Nat
  raw : Bytes
  isStream : Bool
  dictStart : Nat
  dictEnd : Nat
  dictRaw : Bytes
  streamStart : Nat
  streamEnd : Nat
  streamRaw : Bytes
  deriving DecidableEq, Repr

/-- core/parse/document_parser.go:425 – `%d\s+%d\s+obj`, anchored. -/
def reHeaderGen (n g : Int) (s : Bytes) : Option Unit :=
  (reLit (itoa n) s).bind fun s => (reSp1 s).bind fun s => (reLit (itoa g) s).bind fun s =>
  (reSp1 s).bind fun s => (reLit b!"obj" s).map fun _ => ()

/-- core/parse/document_parser.go:452-461 – the scan for the end of the dictionary: bytes consumed, starting at
`depth`, with `left` bytes to go before the limit. -/
def dictScan : Nat → Nat → Bytes → Nat
  | 0, _, _ => 0
  | _, 0, _ => 0
  | _, _, [] => 0
  | _, _, [_] => 1
  | d + 1, l + 1, c :: e :: r =>
    if c = 60 ∧ e = 60 then 2 + dictScan (d + 2) (l - 1) r
    else if c = 62 ∧ e = 62 then 2 + dictScan d (l - 1) r
    else 1 + dictScan (d + 1) l (e :: r)

/-- core/parse/document_parser.go:412-512 – `ParseRawObject` (`none` = error). -/
def parseRawObject (pdf : Bytes) (n g : Int) (off : Int) : Option RawObj :=
  if off < 0 ∨ off ≥ pdf.length then none
  else
    let sec := pdf.drop off.toNat
    if !(itoa n ++ b!" " ++ itoa g ++ b!" obj").isPrefixOf sec && (searchWith (reHeaderGen n g) (sec.take 50)).isNone
    then none
    else match index b!"endobj" sec with
    | none => none
    | some e =>
      let raw := sec.take (e + 6)
      let base : RawObj :=
        { number := n, generation := g, offset := off.toNat, endOffset := off.toNat + (e + 6), raw := raw,
          isStream := false, dictStart := 0, dictEnd := 0, dictRaw := [], streamStart := 0, streamEnd := 0, streamRaw := [] }
      match index b!"stream" raw with
      | none => some base
      | some si =>
        let b1 : RawObj := match index b!"<<" raw with
          | none => { base with isStream := true }
          | some ds =>
            let de := ds + 2 + dictScan 1 (si - (ds + 2)) (raw.drop (ds + 2))
            { base with isStream := true, dictStart := ds, dictEnd := de, dictRaw := (raw.take de).drop ds }
        let s0 := si + 6
        let s1 := if raw[s0]? = some 13 then s0 + 1 else s0
        let s2 := if raw[s1]? = some 10 then s1 + 1 else s1
        match index b!"endstream" (raw.drop s2) with
        | none => some b1
        | some k =>
          let e0 := s2 + k
          let e1 := if e0 > s2 ∧ raw[e0 - 1]? = some 10 then e0 - 1 else e0
          let e2 := if e1 > s2 ∧ raw[e1 - 1]? = some 13 then e1 - 1 else e1
          some { b1 with streamStart := s2, streamEnd := e2, streamRaw := (raw.take e2).drop s2 }

/-- core/parse/document.go:280-282 – `isWhitespace`. -/
def isWs (c : UInt8) : Bool := c == 32 || c == 9 || c == 13 || c == 10 || c == 12

/-- core/parse/document.go:185-223 – `PDFRawObject.Content` (`none` = nil).  The first loop stops three bytes
before the end. -/
def content (o : RawObj) : Option Bytes :=
  if o.raw = [] then none
  else
    let start := match index b!"obj" (o.raw.take (o.raw.length - 1)) with
      | none => 0
      | some i => i + 3 + ((o.raw.drop (i + 3)).takeWhile isWs).length
    let stop := match lastIndex b!"endobj" o.raw with
      | none => o.raw.length
      | some i =>
        if i ≤ start then i
        else i - (((o.raw.take i).drop start).reverse.takeWhile isWs).length
    if start ≥ stop then none else some ((o.raw.take stop).drop start)

/-! ### Header -/

/-- core/parse/document.go:12-17 – `PDFHeader`. -/
structure Header where
  version : Bytes
  major : Int
  minor : Int
  raw : Bytes
  deriving DecidableEq, Repr

/-- core/parse/document_parser.go:51-108 – `ParsePDFHeader` (`none` = error). -/
def parseHeader (pdf : Bytes) : Option Header :=
  if pdf.length < 8 ∨ !(b!"%PDF-").isPrefixOf pdf then none
  else
    let version := ((pdf.take 20).drop 5).takeWhile (fun c => !isEol c)
    let parts := split 46 version
    let p1 := 5 + version.length
    let p2 := p1 + ((pdf.drop p1).takeWhile isEol).length
    let p3 := if pdf[p2]? = some 37 then p2 + ((pdf.drop p2).takeWhile (fun c => !isEol c)).length else p2
    let p4 := if pdf[p2]? = some 37 then p3 + ((pdf.drop p3).takeWhile isEol).length else p3
    some { version := version, major := atoiLax (parts.getD 0 []), minor := atoiLax (parts.getD 1 []),
           raw := pdf.take p4 }

/-! ### Cross-reference data -/

/-- core/parse/document.go:75-88 – `XRefEntry`. -/
structure Entry where
  num : Int
  gen : Int
  off : Int
  inUse : Bool
  inStream : Bool
  raw : Bytes
  deriving DecidableEq, Repr

/-- core/parse/document.go:51-62 – `XRefData` (table or stream). -/
structure XRef where
  isTable : Bool
  offset : Nat
  raw : Bytes
  entries : List Entry
  deriving Repr

/-- Loop state of `parseTraditionalXRefRaw`. -/
structure RawSt where
  cur : Int
  inSub : Bool
  entries : List Entry

/-- core/parse/document_parser.go:219-262 – one line.  Unlike the other table readers, a line that is not a
number pair does not advance the object number. -/
def rawStep (st : RawSt) (line : Bytes) : RawSt :=
  let fs := fields line
  let header : Option Int :=
    if fs.length = 2 then
      match atoi (fs.getD 0 []), atoi (fs.getD 1 []) with
      | some first, some _ => some first
      | _, _ => none
    else none
  match header with
  | some first => { st with cur := first, inSub := true }
  | none =>
    if st.inSub && decide (fs.length ≥ 3) then
      match atoi (fs.getD 0 []), atoi (fs.getD 1 []) with
      | some off, some gen =>
        { st with cur := st.cur + 1,
                  entries := st.entries ++ [{ num := st.cur, gen := gen, off := off, inUse := fs.getD 2 [] == b!"n",
                                              inStream := false, raw := trimSpace line }] }
      | _, _ => st
    else st

/-- core/parse/document_parser.go:203-265 – `parseTraditionalXRefRaw`.  (The line "xref" has one field and changes
nothing, so skipping it is not modelled.) -/
def parseTableRaw (pdf : Bytes) (start : Nat) : XRef :=
  let sec := pdf.drop start
  let raw := sec.take ((index b!"trailer" sec).getD (min 10000 sec.length))
  { isTable := true, offset := start, raw := raw,
    entries := ((split 10 raw).foldl rawStep { cur := 0, inSub := false, entries := [] }).entries }

/-- core/parse/document_parser.go:270 – `(\d+)\s+(\d+)\s+obj`, anchored; the groups. -/
def reAnyHeader (s : Bytes) : Option (Bytes × Bytes) :=
  (reNum s).bind fun p => (reSp1 p.2).bind fun s => (reNum s).bind fun q => (reSp1 q.2).bind fun s =>
  (reLit b!"obj" s).map fun _ => (p.1, q.1)

/-- core/parse/document_parser.go:268-313 – `parseXRefStreamRaw`.  The order of the entries is a Go map
iteration; the association-list order is used. -/
def parseStreamRaw (unz : Bytes → Option Bytes) (pdf : Bytes) (start : Nat) : Res XRef :=
  (Res.ofOption (searchWith reAnyHeader ((pdf.drop start).take 100))).bind fun h =>
  (Res.ofOption (parseRawObject pdf (atoiClamp h.1) (atoiClamp h.2) start)).bind fun obj =>
  (parseFull unz pdf start).bind fun r =>
  .ok { isTable := false, offset := start, raw := obj.raw,
        entries := (r.objects.map fun e =>
            { num := e.1, gen := 0, off := e.2, inUse := true, inStream := false, raw := [] }) ++
          (r.objectStreams.map fun e =>
            { num := e.1, gen := 0, off := 0, inUse := true, inStream := true, raw := [] }) }

/-- core/parse/document_parser.go:178-200 – `ParseXRefDataRaw`. -/
def parseXRefRaw (unz : Bytes → Option Bytes) (pdf : Bytes) (start : Nat) : Res XRef :=
  if start ≥ pdf.length then .err
  else if (b!"xref").isPrefixOf (pdf.drop start) then .ok (parseTableRaw pdf start)
  else parseStreamRaw unz pdf start

/-! ### Trailers -/

/-- core/parse/document.go:91-102 – `TrailerData`. -/
structure Trailer where
  offset : Nat
  raw : Bytes
  size : Nat
  root : Bytes
  encrypt : Bytes
  info : Bytes
  prev : Nat
  deriving DecidableEq, Repr

/-- core/parse/document_parser.go:330-345 and :389-403 – the entries found in a text. -/
def trailerOf (offset : Nat) (raw text : Bytes) : Trailer :=
  { offset := offset, raw := raw,
    size := ((searchWith (reKeyNum b!"/Size") text).map atoiClamp).getD 0,
    root := (searchWith (reKeyRef b!"/Root") text).getD [],
    encrypt := (searchWith (reKeyRef b!"/Encrypt") text).getD [],
    info := (searchWith (reKeyRef b!"/Info") text).getD [],
    prev := ((searchWith (reKeyNum b!"/Prev") text).map atoiClamp).getD 0 }

/-- core/parse/document_parser.go:316-409 – `ParseTrailerDataRaw` (`none` = error). -/
def parseTrailerRaw (pdf : Bytes) (start : Nat) : Option Trailer :=
  let sec := pdf.drop start
  if !(b!"xref").isPrefixOf sec then
    let raw := match index b!"<<" sec with
      | none => []
      | some ds => (sec.take (ds + 2 + dictScan 1 sec.length (sec.drop (ds + 2)))).drop ds
    some (trailerOf 0 raw (sec.take 5000))
  else match index b!"trailer" sec with
    | none => none
    | some t =>
      let r := sec.drop t
      let raw := r.take ((index b!"startxref" r).getD r.length)
      some (trailerOf (start + t) raw raw)

/-! ### Documents -/

/-- core/parse/document.go:21-29 – `PDFRevision`. -/
structure Revision where
  number : Nat
  objects : Map Int RawObj
  xref : XRef
  trailer : Option Trailer
  startXRef : Nat
  eofOffset : Nat
  endOffset : Nat

/-- core/parse/document_parser.go:157-172 – the objects of a revision: in use, not in an object stream, offset in
the revision's own part of the file. -/
def revObjects (pdf : Bytes) (prevEnd eof : Nat) (entries : List Entry) : Map Int RawObj :=
  entries.foldl (fun m e =>
    if e.inUse && !e.inStream && decide (e.off ≥ (prevEnd : Int)) && decide (e.off < (eof : Int)) then
      match parseRawObject pdf e.num e.gen e.off with
      | some o => m.set e.num o
      | none => m
    else m) []

/-- core/parse/document_parser.go:111-175 – `parseRevision`; `prevEnd` is computed by the caller. -/
def parseRevision (unz : Bytes → Option Bytes) (pdf : Bytes) (num eof prevEnd : Nat) : Res Revision :=
  (Res.ofOption (searchWith (reKeyNum b!"startxref") ((pdf.take eof).drop (eof - 100)))).bind fun ds =>
  let start := atoiClamp ds
  (parseXRefRaw unz pdf start).bind fun x =>
  match parseTrailerRaw pdf start with
  | none => if x.isTable then .err else
      .ok { number := num, objects := revObjects pdf prevEnd eof x.entries, xref := x, trailer := none, startXRef := start,
            eofOffset := eof, endOffset := eof + 5 + ((pdf.drop (eof + 5)).takeWhile isEol).length }
  | some t =>
      .ok { number := num, objects := revObjects pdf prevEnd eof x.entries, xref := x, trailer := some t,
            startXRef := start, eofOffset := eof,
            endOffset := eof + 5 + ((pdf.drop (eof + 5)).takeWhile isEol).length }

/-- core/parse/document_parser.go:34-43 with :146-154 – the loop over the markers; `prevEnd` is the end of the last
revision kept so far, or of the header. -/
def parseRevisions (unz : Bytes → Option Bytes) (pdf : Bytes) : Nat → Nat → List Nat → Res (List Revision)
  | _, _, [] => .ok []
  | num, prevEnd, eof :: rest =>
    match parseRevision unz pdf num eof prevEnd with
    | .panic => .panic
    | .err => parseRevisions unz pdf (num + 1) prevEnd rest
    | .ok r => (parseRevisions unz pdf (num + 1) r.endOffset rest).bind fun rs => .ok (r :: rs)

/-- core/parse/document.go:6-10 – `PDFDocument`. -/
structure Doc where
  raw : Bytes
  header : Header
  revisions : List Revision

/-- core/parse/document_parser.go:12-49 – `ParsePDFDocument`. -/
def parseDocument (unz : Bytes → Option Bytes) (pdf : Bytes) : Res Doc :=
  if pdf.length < 8 then .err
  else (Res.ofOption (parseHeader pdf)).bind fun h =>
    if findAllEOF pdf = [] then .err
    else (parseRevisions unz pdf 1 h.raw.length (findAllEOF pdf)).bind fun rs =>
      if rs = [] then .err else .ok { raw := pdf, header := h, revisions := rs }

/-- core/parse/document.go:106-125 – `PDFDocument.Bytes`. -/
def Doc.bytes (d : Doc) : Bytes := d.raw

/-- core/parse/document.go:128-136 – `PDFDocument.GetObject` (`none` = nil). -/
def Doc.getObject (d : Doc) (n : Int) : Option RawObj := d.revisions.reverse.findSome? (fun r => r.objects.get n)

/-- core/parse/document.go:139-144 – `GetObjectInRevision`. -/
def Doc.getObjectInRevision (d : Doc) (n : Int) (k : Int) : Option RawObj :=
  if k < 1 ∨ k > d.revisions.length then none
  else (d.revisions[k.toNat - 1]?).bind fun r => r.objects.get n

/-- core/parse/document.go:170-179 – `AllObjects`. -/
def Doc.allObjects (d : Doc) : Map Int RawObj := d.revisions.foldl (fun m r => mergeInto m r.objects) []

/-- core/parse/document.go:160-168 – `ObjectCount`: the size of the set `seen`. -/
def Doc.objectCount (d : Doc) : Nat :=
  (d.revisions.foldl (fun m r => mergeInto m (r.objects.map fun e => (e.1, ()))) ([] : Map Int Unit)).length

/-- core/parse/document.go:247-278 – `PDFRevision.RevisionBytes`: `panic` when the slice bounds are inverted, `err` for
nil.  (`EndOffset` is never 0 for a parsed revision, so that fall-back is not modelled.) -/
def Revision.bytes (r : Revision) (d : Doc) : Res Bytes :=
  let start := r.objects.foldl (fun s e => if e.2.offset < s then e.2.offset else s) r.xref.offset
  if start ≥ d.raw.length ∨ r.endOffset > d.raw.length then .err
  else slice d.raw start r.endOffset

/-! ### Byte-perfect `PDF` -/

/-- core/parse/api.go:137-175 – `parseBytePerfect`: the unified table and the trailer of the last revision. -/
def perfectOf (pdf : Bytes) (crypt : Option Decrypt) (d : Doc) : Pdf :=
  let t : Trailer := (d.revisions.getLast?.bind (·.trailer)).getD ⟨0, [], 0, [], [], [], 0⟩
  ⟨pdf, crypt, d.revisions.foldl (fun m r => mergeInto m (r.objects.map fun e => (e.1, Ref.direct e.2.offset))) [],
    t.root, t.info, t.encrypt, t.size⟩

/-- core/parse/api.go:85-112 – `OpenWithOptions` with `BytePerfect`. -/
def openPerfect (env : Incremental.Env) (pdf : Bytes) : Res (Pdf × Doc) :=
  if pdf.length < 8 then .err
  else (Res.ofOption (env.handleEncryption pdf)).bind fun crypt =>
    (parseDocument env.unz pdf).bind fun d => .ok (perfectOf pdf crypt d, d)

/-- core/parse/api.go:300-313 – `PDF.GetRawObject` (`none` = error). -/
def getRawObject (d : Doc) (n : Int) : Option RawObj := d.revisions.reverse.findSome? (fun r => r.objects.get n)

/-- core/parse/api.go:250-257 – `RevisionCount` in byte-perfect mode. -/
def perfectRevisionCount (d : Doc) : Nat := d.revisions.length

/-! ### Stand-alone lookup -/

/-- core/parse/parser.go:103-149 – `FindObjectByNumber`, unencrypted (`none` = error); `xref` is the table lookup used
when the text search fails. -/
def findObjectByNumber (xref : Bytes → Nat → Option (Map Int Int)) (pdf : Bytes) (n : Int) : Option Int :=
  match index (itoa n ++ b!" 0 obj") pdf with
  | some i => some i
  | none =>
    (searchWith (reKeyNum b!"startxref") pdf).bind fun ds =>
    (atoiMag 9223372036854775807 ds).bind fun start =>
    if start = 0 then none else (xref pdf start).bind fun m => m.get n

/-- core/parse/get_object.go:14-20 – `ObjectLocation`. -/
abbrev Location := Ref

/-- core/parse/get_object.go:89 – `%d\s+0\s+obj`, anchored. -/
def reHeader0 (n : Int) (s : Bytes) : Option Unit :=
  (reLit (itoa n) s).bind fun s => (reSp1 s).bind fun s => (reLit b!"0" s).bind fun s =>
  (reSp1 s).bind fun s => (reLit b!"obj" s).map fun _ => ()

/-- core/parse/get_object.go:89-97 – the search for a header after white space; the offset of the number. -/
def wsScan (n : Int) (pos : Nat) : Bytes → Option Nat
  | [] => none
  | c :: r =>
    if reSpace c && (reHeader0 n r).isSome then some (pos + ((c :: r).takeWhile objWs).length)
    else wsScan n (pos + 1) r

/-- core/parse/get_object.go:89-104 – the fall-back search. -/
def headerSearch (n : Int) (pdf : Bytes) : Option Nat :=
  if (reHeader0 n pdf).isSome then some (pdf.takeWhile objWs).length else wsScan n 0 pdf

/-- core/parse/get_object.go:23-108 – `FindObjectLocation`.  It uses the *first* `startxref` of the file. -/
def findObjectLocation (unz : Bytes → Option Bytes) (pdf : Bytes) (n : Int) : Res Location :=
  (Res.ofOption (searchWith (reKeyNum b!"startxref") pdf)).bind fun ds =>
  (Res.ofOption (atoiMag 9223372036854775807 ds)).bind fun start =>
  if start = 0 ∨ start ≥ pdf.length then .err
  else
    let sec := pdf.drop start
    let found : Res (Option Location) :=
      if contains (sec.take 100) b!"obj" then
        match parseFull unz pdf start with
        | .panic => .panic
        | .err => .ok none
        | .ok r => match r.objectStreams.get n with
          | some e => .ok (some (.inStream e.1 e.2))
          | none => .ok ((r.objects.get n).map fun o => .direct o)
      else if (b!"xref").isPrefixOf sec then
        .ok ((parseTable pdf start).bind fun m => (m.get n).map .direct)
      else .ok none
    found.bind fun
      | some l => .ok l
      | none => Res.ofOption ((headerSearch n pdf).map fun (p : Nat) => .direct p)

/-- core/parse/get_object.go:112-133 – `GetObject`. -/
def getObject (unz : Bytes → Option Bytes) (crypt : Option Decrypt) (pdf : Bytes) (n : Int) : Res Bytes :=
  (findObjectLocation unz pdf n).bind fun
    | .inStream stm idx =>
      getObjectFromStream unz (match crypt with | none => some | some d => d stm 0) pdf n stm idx
    | .direct off => getDirectObject crypt pdf n off

end Pdfer.Document
