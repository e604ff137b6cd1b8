import Verif.Model.GoLib

/-! Model of core/write/writer.go, core/write/xref_stream.go and core/write/object_stream.go:
`PDFWriter` as a state machine.

Simplifications common to the file: `outlinesRef` is empty (the catalog rewriting of
writer.go:174-231 is modelled separately in Verif/Model/Outline.lean); `IsFree` is never set anywhere in
the repository, so the two `if obj.IsFree { continue }` tests are dropped; zlib and encryption are
parameters (`Env`); Go `int` is `Int` without overflow. -/

namespace Pdfer.Writer

open Pdfer.Go

/-- Dynamic value held by a `Dictionary` (core/write/writer.go:31 `map[string]interface{}`).
`other` stands for the values formatted by `strconv.FormatFloat` or `fmt.Sprintf("%v", v)`
(core/write/writer.go:455 and :477): the text itself. -/
inductive PVal where
  | int (n : Int)
  | str (s : Bytes)
  | bytes (b : Bytes)
  | arr (l : List PVal)
  | dict (d : List (Bytes × PVal))
  | other (text : Bytes)

/-- core/write/writer.go:31 – `Dictionary`. -/
abbrev Dict := Map Bytes PVal

/-- Go's `<=` on strings: bytewise lexicographic. -/
def bytesLe : Bytes → Bytes → Bool
  | [], _ => true
  | _ :: _, [] => false
  | a :: as, b :: bs => if a < b then true else if a = b then bytesLe as bs else false

/-- Insertion of one element, used to model `sort.Strings` and `sort.Ints`. -/
def insertBy {α : Type} (le : α → α → Bool) (x : α) : List α → List α
  | [] => [x]
  | y :: ys => if le x y then x :: y :: ys else y :: insertBy le x ys

/-- `sort.Strings` / `sort.Ints` (any sorting algorithm gives the same result on distinct keys). -/
def sortBy {α : Type} (le : α → α → Bool) (l : List α) : List α := l.foldr (insertBy le) []

/-- core/write/writer.go:434-437 – make sure the key starts with '/'. -/
def slashKey (k : Bytes) : Bytes := if (b!"/").isPrefixOf k then k else 47 :: k

/-- core/write/writer.go:425-445 – the sorted entries, each `key SP value SP`. -/
def renderEntries (es : List (Bytes × Bytes)) : Bytes :=
  (sortBy (fun a b => bytesLe a.1 b.1) es).flatMap (fun e => slashKey e.1 ++ b!" " ++ e.2 ++ b!" ")

/-- `strings.Join(items, " ")`. -/
def joinSp : List Bytes → Bytes
  | [] => []
  | [a] => a
  | a :: rest => a ++ b!" " ++ joinSp rest

mutual
/-- core/write/writer.go:449-479 – `formatValue`.  `ord` is the order in which Go's map iteration
delivers the entries of a nested dictionary (unspecified by the language); values are formatted before
sorting instead of after, which gives the same entries. -/
def formatValue (ord : List (Bytes × Bytes) → List (Bytes × Bytes)) : PVal → Bytes
  | .int n => itoa n
  | .str v => if (b!"/").isPrefixOf v || (b!" R").isSuffixOf v then v else b!"(" ++ v ++ b!")"
  | .bytes v => b!"<" ++ hexUpper v ++ b!">"
  | .arr l => b!"[" ++ joinSp (formatItems ord l) ++ b!"]"
  | .dict d => b!"<<" ++ renderEntries (ord (formatEntries ord d)) ++ b!">>"
  | .other t => t
/-- core/write/writer.go:470-472 – the items of an array. -/
def formatItems (ord : List (Bytes × Bytes) → List (Bytes × Bytes)) : List PVal → List Bytes
  | [] => []
  | v :: vs => formatValue ord v :: formatItems ord vs
/-- core/write/writer.go:431-442 – the entries of a dictionary. -/
def formatEntries (ord : List (Bytes × Bytes) → List (Bytes × Bytes)) : List (Bytes × PVal) → List (Bytes × Bytes)
  | [] => []
  | e :: es => formatPair ord e :: formatEntries ord es
/-- core/write/writer.go:432,440 – one entry. -/
def formatPair (ord : List (Bytes × Bytes) → List (Bytes × Bytes)) : Bytes × PVal → Bytes × Bytes
  | (k, v) => (k, formatValue ord v)
end

/-- core/write/writer.go:421-446 – `formatDictionary` with an explicit map-iteration order. -/
def formatDictOrd (ord : List (Bytes × Bytes) → List (Bytes × Bytes)) (d : Dict) : Bytes :=
  formatValue ord (.dict d)

/-- core/write/writer.go:421-446 – `formatDictionary`; by theorem C13 the iteration order is
irrelevant, so the association-list order is used. -/
def formatDictionary (d : Dict) : Bytes := formatDictOrd id d

/-- core/write/writer.go:21-28 – `PDFObject` (Generation is always 0).  A nil slice is `none`; `dict`
is an address in the writer's heap of dictionaries, because Go maps are references shared with the
caller. -/
structure Obj where
  content : Option Bytes
  stream : Option Bytes
  dict : Option Nat

/-- core/write/writer.go:34-46 – `PDFWriter`; `heap` holds the dictionaries handed to stream objects. -/
structure Writer where
  objects : Map Int Obj
  nextObjNum : Int
  rootRef : Bytes
  infoRef : Bytes
  encryptRef : Bytes
  fileID : Bytes
  pdfVersion : Bytes
  useXRefStream : Bool
  useObjectStream : Bool
  heap : List Dict

/-- core/write/writer.go:49-55 – `NewPDFWriter`. -/
def newWriter : Writer :=
  { objects := [], nextObjNum := 1, rootRef := [], infoRef := [], encryptRef := [], fileID := [],
    pdfVersion := b!"1.7", useXRefStream := false, useObjectStream := false, heap := [] }

/-- What is not modelled inside the writer: zlib compression, the encryption of a stream (`none` = no
encryption configured; inner `none` = `encryptStream` returned an error; core/write/writer.go:482-546),
and the unspecified iteration order of the object map. -/
structure Env where
  z : Bytes → Bytes
  crypt : Option (Int → Bytes → Option Bytes)
  order : List Int → List Int

/-- The dictionary argument of a stream call: a map literal or a map already handed in earlier. -/
inductive DictArg where
  | fresh (d : Dict)
  | shared (addr : Nat)

/-- Public mutators of `PDFWriter`. -/
inductive Op where
  | addObject (content : Option Bytes)
  | addStream (d : DictArg) (data : Option Bytes) (compress : Bool)
  | setObject (n : Int) (content : Option Bytes)
  | setStream (n : Int) (d : DictArg) (data : Option Bytes) (compress : Bool)
  | setRoot (n : Int)
  | setInfo (n : Int)
  | setEncryptRef (n : Int)
  | setVersion (v : Bytes)
  | setEncryption (fileID : Bytes)
  | useXRefStream (on : Bool)
  | useObjectStream (on : Bool)
  /-- not a public call: the page builder and the bookmarks set a number aside (core/write/page.go:190-194, bookmarks.go:79-80) -/
  | reserve
  | write

/-- core/write/writer.go:104-114 and :140-150 – optional compression and the update of the
dictionary.  Returns the stream data and the new heap with the dictionary's address. -/
def prepareStream (env : Env) (w : Writer) (d : DictArg) (data : Option Bytes) (compress : Bool) :
    Option Bytes × List Dict × Nat :=
  let dict0 : Dict := match d with | .fresh d => d | .shared a => w.heap.getD a []
  let doZip := compress && decide ((data.getD []).length > 0)
  let streamData := if doZip then some (env.z (data.getD [])) else data
  let dict1 := if doZip then dict0.set b!"Filter" (.str b!"/FlateDecode") else dict0
  let dict2 := dict1.set b!"Length" (.int (streamData.getD []).length)
  match d with
  | .fresh _ => (streamData, w.heap ++ [dict2], w.heap.length)
  | .shared a => (streamData, w.heap.set a dict2, a)

/-- core/write/writer.go:86-97 – `AddObject`. -/
def addObject (w : Writer) (content : Option Bytes) : Writer × Int :=
  ({ w with nextObjNum := w.nextObjNum + 1,
            objects := w.objects.set w.nextObjNum { content := content, stream := none, dict := none } },
   w.nextObjNum)

/-- core/write/writer.go:100-124 – `AddStreamObject`. -/
def addStreamObject (env : Env) (w : Writer) (d : DictArg) (data : Option Bytes) (compress : Bool) :
    Writer × Int :=
  let p := prepareStream env w d data compress
  ({ w with nextObjNum := w.nextObjNum + 1,
            objects := w.objects.set w.nextObjNum { content := none, stream := p.1, dict := some p.2.2 },
            heap := p.2.1 },
   w.nextObjNum)

/-- core/write/writer.go:127-136 – `SetObject`. -/
def setObject (w : Writer) (n : Int) (content : Option Bytes) : Writer :=
  { w with objects := w.objects.set n { content := content, stream := none, dict := none },
           nextObjNum := if n ≥ w.nextObjNum then n + 1 else w.nextObjNum }

/-- core/write/writer.go:139-161 – `SetStreamObject`. -/
def setStreamObject (env : Env) (w : Writer) (n : Int) (d : DictArg) (data : Option Bytes) (compress : Bool) :
    Writer :=
  let p := prepareStream env w d data compress
  { w with objects := w.objects.set n { content := none, stream := p.1, dict := some p.2.2 },
           heap := p.2.1,
           nextObjNum := if n ≥ w.nextObjNum then n + 1 else w.nextObjNum }

/-- core/write/writer.go:164-171, :252-254 – the text `"%d 0 R"`. -/
def ref (n : Int) : Bytes := itoa n ++ b!" 0 R"

/-- core/write/writer.go:563-575 – `GetObject` (`none` = error). -/
def getObject (w : Writer) (n : Int) : Option Bytes :=
  match w.objects.get n with
  | none => none
  | some o => match o.content with
    | some c => some c
    | none => o.stream

/-- core/write/writer.go:303-336 – the text of one object and the (possibly changed) heap. -/
def objText (env : Env) (heap : List Dict) (n : Int) (o : Obj) : Bytes × List Dict :=
  let head := itoa n ++ b!" 0 obj\n"
  match o.stream with
  | some s =>
    let a := o.dict.getD 0
    let d := heap.getD a []
    let (s', heap') := match env.crypt with
      | none => (s, heap)
      | some enc => match enc n s with
        | none => (s, heap)
        | some e => (e, heap.set a (d.set b!"Length" (.int e.length)))
    (head ++ formatDictionary (heap'.getD a []) ++ b!"\nstream\n" ++ s' ++ b!"\nendstream" ++ b!"\nendobj\n",
     heap')
  | none => (head ++ o.content.getD [] ++ b!"\nendobj\n", heap)

/-- core/write/writer.go:286-337 – the loop over the sorted object numbers: the bytes, the recorded
positions and the heap.  `pos` is `buf.Len()`; `skip` are the objects stored in object streams. -/
def writeObjs (env : Env) (skip : Int → Bool) :
    Nat → List Dict → List (Int × Obj) → Bytes × Map Int Nat × List Dict
  | _, heap, [] => ([], [], heap)
  | pos, heap, (n, o) :: rest =>
    if skip n then writeObjs env skip pos heap rest
    else
      let (text, heap1) := objText env heap n o
      let (out, ps, heap2) := writeObjs env skip (pos + text.length) heap1 rest
      (text ++ out, (n, pos) :: ps, heap2)

/-- core/write/writer.go:267-268 – the file header. -/
def header (v : Bytes) : Bytes := b!"%PDF-" ++ v ++ b!"\n" ++ [0x25, 0xE2, 0xE3, 0xCF, 0xD3, 0x0A]

/-- core/write/writer.go:374-383 – the table line of object `i` (`i ≥ 1`). -/
def tableLine (ps : Map Int Nat) (i : Nat) : Bytes :=
  match ps.get (i : Int) with
  | some pos => padDec 10 pos ++ b!" " ++ padDec 5 0 ++ b!" n \n"
  | none => padDec 10 0 ++ b!" " ++ padDec 5 1 ++ b!" f \n"

/-- core/write/writer.go:366-383 – the cross-reference table. -/
def xrefTable (next : Int) (ps : Map Int Nat) : Bytes :=
  b!"xref\n" ++ b!"0 " ++ itoa next ++ b!"\n" ++
  (padDec 10 0 ++ b!" " ++ padDec 5 65535 ++ b!" f \n") ++
  ((List.range (next.toNat - 1)).map (fun k => tableLine ps (k + 1))).flatten

/-- core/write/writer.go:345-364 and :386-405 – the trailer dictionary (the same in both modes). -/
def trailer (w : Writer) : Bytes :=
  b!"trailer\n<<\n" ++ b!"/Size " ++ itoa w.nextObjNum ++ b!"\n" ++
  (if w.rootRef ≠ [] then b!"/Root " ++ w.rootRef ++ b!"\n" else []) ++
  (if w.infoRef ≠ [] then b!"/Info " ++ w.infoRef ++ b!"\n" else []) ++
  (if w.encryptRef ≠ [] then b!"/Encrypt " ++ w.encryptRef ++ b!"\n" else []) ++
  (if w.fileID.length > 0 then b!"/ID [<" ++ hexUpper w.fileID ++ b!"><" ++ hexUpper w.fileID ++ b!">]\n"
   else []) ++
  b!">>\n"

/-- core/write/writer.go:409 – the last lines. -/
def startxref (pos : Nat) : Bytes := b!"startxref\n" ++ natDec pos ++ b!"\n%%EOF\n"

/-! ### Cross-reference streams (core/write/xref_stream.go) -/

/-- core/write/xref_stream.go:165-175 – `calculateBytesNeeded` (fuel: the number itself). -/
def bytesNeededAux : Nat → Nat → Nat
  | 0, _ => 0
  | f + 1, n => if n > 0 then 1 + bytesNeededAux f (n / 256) else 0

/-- core/write/xref_stream.go:165-175 – `calculateBytesNeeded`. -/
def bytesNeeded (n : Nat) : Nat := if n = 0 then 1 else bytesNeededAux n n

/-- core/write/xref_stream.go:178-183 – `writeBigEndian` (the `width` bytes it stores). -/
def bigEndian : Nat → Nat → Bytes
  | 0, _ => []
  | w + 1, v => bigEndian w (v / 256) ++ [UInt8.ofNat (v % 256)]

/-- Largest value of a list (0 for the empty list). -/
def maxOf (l : List Nat) : Nat := l.foldl max 0

/-- An entry of the map returned by `createObjectStreams` (core/write/object_stream.go:19-22). -/
structure StmRef where
  streamObjNum : Int
  index : Nat
  deriving DecidableEq

/-- core/write/xref_stream.go:25-63 – the field widths `w2`, `w3` (`w1` is 1). -/
def xrefWidths (bufLen : Nat) (ps : Map Int Nat) (stm : Map Int StmRef) : Nat × Nat :=
  let maxOffset := max (maxOf (ps.map (·.2))) (bufLen + 200)
  let maxStm := maxOf (stm.map (fun e => e.2.streamObjNum.toNat))
  let maxIdx := maxOf (stm.map (fun e => e.2.index))
  let w2 := if maxStm > maxOffset then bytesNeeded maxStm else bytesNeeded maxOffset
  let w3 := bytesNeeded maxIdx
  (w2, if w3 < 1 then 1 else w3)

/-- core/write/xref_stream.go:77-106 – the entry of object `i ≥ 1`. -/
def xrefEntry (w2 w3 : Nat) (ps : Map Int Nat) (stm : Map Int StmRef) (i : Nat) : Bytes :=
  match stm.get (i : Int) with
  | some r => 2 :: (bigEndian w2 r.streamObjNum.toNat ++ bigEndian w3 r.index)
  | none => match ps.get (i : Int) with
    | some pos => 1 :: (bigEndian w2 pos ++ List.replicate w3 0)
    | none => 0 :: (List.replicate w2 0 ++ List.replicate w3 0)

/-- core/write/xref_stream.go:67-122 – the uncompressed stream data: object 0, the objects, the
cross-reference stream itself. -/
def xrefStreamData (next : Int) (bufLen : Nat) (ps : Map Int Nat) (stm : Map Int StmRef) : Bytes :=
  let w2 := (xrefWidths bufLen ps stm).1
  let w3 := (xrefWidths bufLen ps stm).2
  List.replicate (1 + w2 + w3) 0 ++
  ((List.range (next.toNat - 1)).map (fun k => xrefEntry w2 w3 ps stm (k + 1))).flatten ++
  (1 :: (bigEndian w2 bufLen ++ List.replicate w3 0))

/-- core/write/xref_stream.go:137-143 – the dictionary of the cross-reference stream. -/
def xrefStreamDict (next : Int) (w2 w3 : Nat) (compressed : Bytes) : Dict :=
  [(b!"/Type", .str b!"/XRef"), (b!"/Size", .int (next + 1)), (b!"/W", .arr [.int 1, .int w2, .int w3]),
   (b!"/Filter", .str b!"/FlateDecode"), (b!"/Length", .int compressed.length)]

/-- core/write/xref_stream.go:12-162 – `writeXRefStream`: the bytes written at position `bufLen`
(the new object counter is `next + 1`). -/
def xrefStreamObj (env : Env) (next : Int) (bufLen : Nat) (ps : Map Int Nat) (stm : Map Int StmRef) : Bytes :=
  let ws := xrefWidths bufLen ps stm
  let compressed := env.z (xrefStreamData next bufLen ps stm)
  itoa next ++ b!" 0 obj\n" ++ formatDictionary (xrefStreamDict next ws.1 ws.2 compressed) ++
  b!"\nstream\n" ++ compressed ++ b!"\nendstream\nendobj\n"

/-! ### Object streams (core/write/object_stream.go) -/

/-- core/write/object_stream.go:28-38 – eligible objects in map-iteration order. -/
def eligible (env : Env) (w : Writer) : List (Int × Bytes) :=
  (env.order w.objects.keys).filterMap (fun n =>
    match w.objects.get n with
    | some o => if o.stream.isNone then o.content.map (fun c => (n, c)) else none
    | none => none)

/-- core/write/object_stream.go:69-76 – offsets relative to the start of the data (one separator each). -/
def offsetsFrom : Nat → List Bytes → List Nat
  | _, [] => []
  | o, c :: cs => o :: offsetsFrom (o + c.length + 1) cs

/-- core/write/object_stream.go:79-86 – the header text `"num off num off ..."`.  The trailing space
is what `strings.TrimSpace` removes. -/
def stmHeader (infos : List (Int × Nat)) : Bytes :=
  joinSp (infos.map (fun e => itoa e.1 ++ b!" " ++ natDec e.2))

/-- core/write/object_stream.go:66-131 – the header that is written (offsets shifted by the length of
the *first* header plus one), and the whole uncompressed stream. -/
def objStreamPlain (objs : List (Int × Bytes)) : Bytes × Bytes :=
  let offs := offsetsFrom 0 (objs.map (·.2))
  let nums := objs.map (·.1)
  let firstHeader := stmHeader (nums.zip offs)
  let shifted := offs.map (· + (firstHeader.length + 1))
  let hdr := stmHeader (nums.zip shifted)
  (hdr, hdr ++ b!" " ++ joinSp (objs.map (·.2)))

/-- core/write/object_stream.go:145-151 – the dictionary of the object stream. -/
def objStreamDict (n first : Nat) (compressed : Bytes) : Dict :=
  [(b!"/Type", .str b!"/ObjStm"), (b!"/N", .int n), (b!"/First", .int first),
   (b!"/Filter", .str b!"/FlateDecode"), (b!"/Length", .int compressed.length)]

/-- core/write/object_stream.go:19-165 – `createObjectStreams`: the writer after it and the map from
object numbers to their place. -/
def createObjectStreams (env : Env) (w : Writer) : Writer × Map Int StmRef :=
  if !w.useObjectStream then (w, [])
  else
    let objs := eligible env w
    if objs = [] then (w, [])
    else
      let n := w.nextObjNum
      let p := objStreamPlain objs
      let compressed := env.z p.2
      let d := objStreamDict objs.length p.1.length compressed
      ({ w with nextObjNum := n + 1,
                heap := w.heap ++ [d],
                objects := w.objects.set n { content := none, stream := some compressed, dict := some w.heap.length } },
       objs.zipIdx.map (fun e => (e.1.1, { streamObjNum := n, index := e.2 })))

/-- core/write/writer.go:279-283 – the objects in the order of `sort.Ints`. -/
def sortedObjs (env : Env) (w : Writer) : List (Int × Obj) :=
  (sortBy (fun a b => decide (a ≤ b)) (env.order w.objects.keys)).filterMap
    (fun n => (w.objects.get n).map (fun o => (n, o)))

/-- core/write/writer.go:257-414 – `Write`: the bytes and the writer afterwards. -/
def write (env : Env) (w0 : Writer) : Bytes × Writer :=
  let (w, stm) := createObjectStreams env w0
  let hdr := header w.pdfVersion
  let (body, ps, heap') :=
    writeObjs env (fun n => (stm.get n).isSome) hdr.length w.heap (sortedObjs env w)
  let pos := hdr.length + body.length
  if w.useXRefStream then
    let x := xrefStreamObj env w.nextObjNum pos ps stm
    let w' := { w with nextObjNum := w.nextObjNum + 1, heap := heap' }
    (hdr ++ body ++ x ++ trailer w' ++ startxref pos, w')
  else
    (hdr ++ body ++ xrefTable w.nextObjNum ps ++ trailer w ++ startxref pos, { w with heap := heap' })

/-- core/write/writer.go – one public call; the second component is the returned object number. -/
def step (env : Env) (w : Writer) : Op → Writer × Option Int
  | .addObject c => let r := addObject w c; (r.1, some r.2)
  | .addStream d data compress => let r := addStreamObject env w d data compress; (r.1, some r.2)
  | .setObject n c => (setObject w n c, none)
  | .setStream n d data compress => (setStreamObject env w n d data compress, none)
  | .setRoot n => ({ w with rootRef := ref n }, none)                         -- :164-166
  | .setInfo n => ({ w with infoRef := ref n }, none)                         -- :169-171
  | .setEncryptRef n => ({ w with encryptRef := ref n }, none)                -- :252-254
  | .setVersion v => ({ w with pdfVersion := v }, none)                       -- :58-60
  | .setEncryption fid => ({ w with fileID := fid }, none)                    -- :63-66 (key in `Env`)
  | .useXRefStream on => ({ w with useXRefStream := on }, none)               -- :70-72
  | .useObjectStream on =>                                                    -- :77-83
    ({ w with useObjectStream := on, useXRefStream := if on then true else w.useXRefStream }, none)
  | .reserve => ({ w with nextObjNum := w.nextObjNum + 1 }, none)
  | .write => ((write env w).2, none)                                         -- :257-414, :549-555

/-- A history of calls on a new writer. -/
def run (env : Env) (ops : List Op) : Writer := ops.foldl (fun w op => (step env w op).1) newWriter

end Pdfer.Writer
