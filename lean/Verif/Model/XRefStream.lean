import Verif.Model.Writer

/-! Model of the readers of cross-reference streams and object streams (core/parse/object_stream.go).
The decompressor is a parameter: `unz` is "zlib, or raw deflate if that fails, or an error". -/

namespace Pdfer.XRefStream

open Pdfer.Go

/-- core/parse/object_stream.go:18-29 – `XRefResult`: offsets of plain objects and places of compressed
ones. -/
structure XRefResult where
  objects : Map Int Nat
  objectStreams : Map Int (Nat × Nat)
  deriving DecidableEq, Repr

/-- core/parse/object_stream.go:205-220 – a big-endian field.  Simplified: unbounded (in Go the value wraps
at 64 bits, which needs a field of 8 bytes or more). -/
def fieldVal (bs : Bytes) : Nat := bs.foldl (fun v b => 256 * v + b.toNat) 0

/-- core/parse/object_stream.go:222-239 – the effect of one entry. -/
def addEntry (r : XRefResult) (objNum : Int) (typ f2 f3 : Nat) : XRefResult :=
  if typ = 1 then
    if f2 > 0 then { r with objects := r.objects.set objNum f2 } else r
  else if typ = 2 then { r with objectStreams := r.objectStreams.set objNum (f2, f3) }
  else r

/-- core/parse/object_stream.go:199-242 – the inner loop over one subsection: `count` objects starting at
`objNum`, reading from `data` (the bytes from the current entry on); the loop stops when less than an
entry is left.  Returns the remaining bytes. -/
def subLoop (w1 w2 w3 : Nat) : Nat → Int → Bytes → XRefResult → Bytes × XRefResult
  | 0, _, data, r => (data, r)
  | count + 1, objNum, data, r =>
    if data.length < w1 + w2 + w3 then (data, r)
    else
      let r' := addEntry r objNum (fieldVal (data.take w1)) (fieldVal ((data.drop w1).take w2))
        (fieldVal ((data.drop (w1 + w2)).take w3))
      subLoop w1 w2 w3 count (objNum + 1) (data.drop (w1 + w2 + w3)) r'

/-- core/parse/object_stream.go:196-243 – the loop over the subsections. -/
def parseEntries (w1 w2 w3 : Nat) : List (Int × Int) → Bytes → XRefResult → XRefResult
  | [], _, r => r
  | (first, count) :: subs, data, r =>
    let p := subLoop w1 w2 w3 count.toNat first data r
    parseEntries w1 w2 w3 subs p.1 p.2

/-- core/parse/object_stream.go:79 – `/W\s*\[\s*(\d+)\s+(\d+)\s+(\d+)\s*\]`, anchored. -/
def reW (s : Bytes) : Option (Nat × Nat × Nat) :=
  (reLit b!"/W" s).bind fun s => (reLit b!"[" (reSp0 s)).bind fun s =>
  (reNum (reSp0 s)).bind fun p1 => (reSp1 p1.2).bind fun s => (reNum s).bind fun p2 =>
  (reSp1 p2.2).bind fun s => (reNum s).bind fun p3 => (reLit b!"]" (reSp0 p3.2)).map fun _ =>
  (atoiClamp p1.1, atoiClamp p2.1, atoiClamp p3.1)

/-- core/parse/object_stream.go:90 – `/Index\s*\[\s*([^\]]+)\]`, anchored.  Returns the white-space
separated fields of the group (the code applies `strings.Fields` to it). -/
def reIndex (s : Bytes) : Option (List Bytes) :=
  (reLit b!"/Index" s).bind fun s => (reLit b!"[" (reSp0 s)).bind fun s =>
  if s.takeWhile (· ≠ 93) = [] then none
  else (reLit b!"]" (s.dropWhile (· ≠ 93))).map fun _ => fields (s.takeWhile (· ≠ 93))

/-- core/parse/object_stream.go:96-100 – pairs of fields. -/
def indexPairs : List Bytes → List (Int × Int)
  | a :: b :: r => (atoiLax a, atoiLax b) :: indexPairs r
  | _ => []

/-- core/parse/object_stream.go:42 – `(\d+)\s+0\s+obj`, anchored at the first digit of a match. -/
def reObj (s : Bytes) : Option Unit :=
  (reNum s).bind fun p => (reSp1 p.2).bind fun s => (reLit b!"0" s).bind fun s =>
  (reSp1 s).bind fun s => (reLit b!"obj" s).map fun _ => ()

/-- core/parse/object_stream.go:141 – `/DecodeParms\s*<<([^>]+)>>`, anchored; the group. -/
def reDecodeParms (s : Bytes) : Option Bytes :=
  (reLit b!"/DecodeParms" s).bind fun s => (reLit b!"<<" (reSp0 s)).bind fun s =>
  if s.takeWhile (· ≠ 62) = [] then none
  else (reLit b!">>" (s.dropWhile (· ≠ 62))).map fun _ => s.takeWhile (· ≠ 62)

/-! ### PNG predictors -/

/-- core/parse/object_stream.go:172-179 – filter 1 (Sub): add the decoded byte to the left. -/
def subRow : UInt8 → Bytes → Bytes
  | _, [] => []
  | left, b :: bs => (b + left) :: subRow (b + left) bs

/-- core/parse/object_stream.go:168-187 – one row. -/
def predRow (filter : UInt8) (prev row : Bytes) : Bytes :=
  if filter = 1 then subRow 0 row
  else if filter = 2 then List.zipWith (· + ·) row prev
  else row

/-- core/parse/object_stream.go:160-190 – the loop over the rows (`rows` of them). -/
def predRows (columns : Nat) : Nat → Bytes → Bytes → Bytes
  | 0, _, _ => []
  | rows + 1, prev, data =>
    match data with
    | [] => []
    | f :: r =>
      let row := predRow f prev (r.take columns)
      row ++ predRows columns rows row (r.drop columns)

/-- core/parse/object_stream.go:152-191 – the predictor applied to the decompressed data. -/
def unpredict (columns : Nat) (data : Bytes) : Bytes :=
  predRows columns (data.length / (columns + 1)) (List.replicate columns 0) data

/-- core/parse/object_stream.go:140-193 – apply the predictor if the dictionary asks for it. -/
def applyPredictor (window data : Bytes) : Bytes :=
  match searchWith reDecodeParms window with
  | none => data
  | some parms =>
    match searchWith (reKeyNum b!"/Predictor") parms, searchWith (reKeyNum b!"/Columns") parms with
    | some p, some c =>
      if 10 ≤ atoiClamp p ∧ atoiClamp p ≤ 15 then unpredict (atoiClamp c) data else data
    | _, _ => data

/-- core/parse/object_stream.go:109 – white space skipped after the keyword `stream`. -/
def streamWs (c : UInt8) : Bool := c == 13 || c == 10 || c == 32 || c == 9

/-- core/parse/object_stream.go:32-251 – `ParseXRefStreamFull`.  `startXRef` is assumed non-negative. -/
def parseFull (unz : Bytes → Option Bytes) (pdf : Bytes) (start : Nat) : Res XRefResult :=
  (sliceFrom pdf start).bind fun sec =>
  let win := sec.take 500
  -- :42-57: the object header; only its presence is checked
  (match searchWith reObj win with
    | some _ => Res.ok ()
    | none =>
      (slice pdf (if start > 100 then start - 100 else 0) (start + 500)).bind fun s =>
        Res.ofOption (searchWith reObj s)).bind fun _ =>
  (Res.ofOption (index b!"<<" sec)).bind fun dictStart =>
  (sliceFrom win dictStart).bind fun d =>
  (Res.ofOption (searchWith (reKeyNum b!"/Size") d)).bind fun size =>
  (Res.ofOption (searchWith reW d)).bind fun w =>
  let subs : List (Int × Int) := match searchWith reIndex d with
    | some fs => indexPairs fs
    | none => [(0, (atoiClamp size : Int))]
  (Res.ofOption (index b!"stream" (sec.drop dictStart))).bind fun k =>
  let after := (sec.drop (dictStart + k + 6)).dropWhile streamWs
  (Res.ofOption (index b!"endstream" after)).bind fun e =>
  (Res.ofOption (unz (after.take e))).bind fun plain =>
  let data := applyPredictor win plain
  if w.1 + w.2.1 + w.2.2 = 0 then Res.err
  else Res.ok (parseEntries w.1 w.2.1 w.2.2 subs data { objects := [], objectStreams := [] })

/-! ### Object streams -/

/-- core/parse/object_stream.go:270 – `%d\s+0\s+obj`, anchored.  Not anchored at a digit boundary: the
expression for object 5 also matches inside `15 0 obj`. -/
def reObjNum (n : Nat) (s : Bytes) : Option Unit :=
  (reLit (natDec n) s).bind fun s => (reSp1 s).bind fun s => (reLit b!"0" s).bind fun s =>
  (reSp1 s).bind fun s => (reLit b!"obj" s).map fun _ => ()

/-- The suffix at the leftmost match. -/
def searchSuffix (p : Bytes → Option Unit) : Bytes → Option Bytes
  | [] => (p []).map fun _ => []
  | b :: s => match p (b :: s) with
    | some _ => some (b :: s)
    | none => searchSuffix p s

/-- core/parse/object_stream.go:384-388 – the header pairs (object number, offset). -/
def headerPairs : List Bytes → List (Int × Int)
  | a :: b :: r => (atoiLax a, atoiLax b) :: headerPairs r
  | _ => []

/-- core/parse/object_stream.go:432 – `bytes.TrimRight(data, " \t\r\n")`. -/
def trimRight (bs : Bytes) : Bytes := (bs.reverse.dropWhile streamWs).reverse

/-- core/parse/object_stream.go:413-434 – the slice `[lo:hi]` of the decompressed stream with the checks
the code makes.  Slicing with a bound above the length is taken to panic (the capacity of the buffer
`io.ReadAll` returns can be larger than its length, in which case Go returns stale bytes instead). -/
def cut (plain : Bytes) (lo hi : Int) : Res Bytes :=
  if lo ≥ (plain.length : Int) ∨ hi > (plain.length : Int) then .err
  else if 0 ≤ lo ∧ lo ≤ hi then .ok (trimRight ((plain.take hi.toNat).drop lo.toNat))
  else .panic

/-- core/parse/object_stream.go:379-441 – extraction from the decompressed stream: header, entry, slice. -/
def extract (first : Nat) (plain : Bytes) (objNum : Int) (idx : Nat) : Res Bytes :=
  (sliceTo plain first).bind fun hdr =>
  let entries := headerPairs (fields hdr)
  match entries[idx]? with
  | none => .err
  | some e =>
    match (if e.1 = objNum then some e else entries.find? (fun x => x.1 = objNum)) with
    | none => .err
    | some t =>
      match entries[idx + 1]? with
      | some nx => cut plain (first + t.2) (first + nx.2)
      | none => cut plain (first + t.2) plain.length

/-- core/parse/object_stream.go:320-326 – skip one end-of-line marker. -/
def skipEol (s : Bytes) : Bytes :=
  let s1 := match s with | 13 :: r => r | _ => s
  match s1 with | 10 :: r => r | _ => s1

/-- core/parse/object_stream.go:265-443 – `GetObjectFromStream`; `dec` decrypts the stream data (identity
without encryption). -/
def getObjectFromStream (unz : Bytes → Option Bytes) (dec : Bytes → Option Bytes) (pdf : Bytes)
    (objNum : Int) (stm : Nat) (idx : Nat) : Res Bytes :=
  (Res.ofOption (searchSuffix (reObjNum stm) pdf)).bind fun sec =>
  (Res.ofOption (index b!"<<" sec)).bind fun ds =>
  (Res.ofOption (index b!">>" (sec.drop ds))).bind fun de =>
  (Res.ofOption (searchWith (reKeyNum b!"/Length") ((sec.drop ds).take (de + 2)))).bind fun len =>
  (Res.ofOption (index b!"stream" (sec.drop ds))).bind fun k =>
  let data := skipEol (sec.drop (ds + k + 6))
  if atoiClamp len > data.length then Res.err
  else
    (Res.ofOption (dec (data.take (atoiClamp len)))).bind fun d =>
    (Res.ofOption (unz d)).bind fun plain =>
    let dict := (sec.drop ds).take k
    (Res.ofOption (searchWith (reKeyNum b!"/N") dict)).bind fun _ =>
    (Res.ofOption (searchWith (reKeyNum b!"/First") dict)).bind fun first =>
    extract (atoiClamp first) plain objNum idx

end Pdfer.XRefStream
