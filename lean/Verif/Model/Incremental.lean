import Verif.Model.XRefTable
import Verif.Model.XRefStream

/-! Model of core/parse/incremental.go (revisions and the /Prev chain), of the standard mode of
core/parse/api.go (`Open`, `GetObject`) and of `GetDirectObject` (core/parse/get_object.go).

Simplifications: file offsets are natural numbers (they come from `\d+`, so they are never negative);
decompression and decryption are parameters. -/

namespace Pdfer.Incremental

open Pdfer.Go Pdfer.XRefTable Pdfer.XRefStream

/-! ### Revisions -/

/-- core/parse/incremental.go:462-469 – the scan for the marker, with `skip` bytes still to be jumped over
after a hit (`pos = pos + idx + len(pattern)`). -/
def eofScan : Nat → Nat → Bytes → List Nat
  | _, _, [] => []
  | pos, skip + 1, _ :: r => eofScan (pos + 1) skip r
  | pos, 0, c :: r =>
    if (b!"%%EOF").isPrefixOf (c :: r) then pos :: eofScan (pos + 1) 4 r else eofScan (pos + 1) 0 r

/-- core/parse/incremental.go:458-472 – `FindAllEOFMarkers`. -/
def findAllEOF (pdf : Bytes) : List Nat := eofScan 0 0 pdf

/-- core/parse/incremental.go:475-477 – `CountRevisions`. -/
def countRevisions (pdf : Bytes) : Nat := (findAllEOF pdf).length

/-- core/parse/incremental.go:508-516 – `GetRevisionBoundaries` (the offsets are already sorted). -/
def boundaries (pdf : Bytes) : List Nat := (findAllEOF pdf).map (· + 5)

/-- core/parse/incremental.go:533 – end-of-line bytes swallowed after a revision. -/
def isEol (c : UInt8) : Bool := c == 13 || c == 10

/-- core/parse/incremental.go:520-538 – `ExtractRevision` (`none` = error). -/
def extractRevision (pdf : Bytes) (k : Int) : Option Bytes :=
  if k < 1 ∨ k > (boundaries pdf).length then none
  else
    let e := min ((boundaries pdf).getD (k.toNat - 1) 0) pdf.length
    some (pdf.take (e + ((pdf.drop e).takeWhile isEol).length))

/-! ### The chain of cross-reference sections -/

/-- core/parse/incremental.go:90-129 – `findLastStartXRef`: the *first* `startxref` in the 100 bytes before
the last `%%EOF`. -/
def findLastStartXRef (pdf : Bytes) : Option Nat :=
  match (findAllEOF pdf).getLast? with
  | none => none
  | some e =>
    match searchWith (reKeyNum b!"startxref") ((pdf.take e).drop (e - 100)) with
    | none => none
    | some ds => (atoiMag 9223372036854775807 ds)

/-- core/parse/incremental.go:205-219 – the scan for the matching `>>`: the number of bytes consumed. -/
def scanDict : Nat → Bytes → Nat
  | _, [] => 0
  | _, [_] => 1
  | depth, c :: d :: r =>
    if c = 60 ∧ d = 60 then 2 + scanDict (depth + 1) r
    else if c = 62 ∧ d = 62 then (if depth = 1 then 2 else 2 + scanDict (depth - 1) r)
    else 1 + scanDict depth (d :: r)

/-- core/parse/incremental.go:194-221 and :345-370 – the text of the trailer dictionary of a traditional
section. -/
def trailerDict (sec : Bytes) : Option Bytes :=
  (index b!"trailer" sec).bind fun t =>
  let r := sec.drop (t + 7)
  (index b!"<<" r).map fun d =>
  let r2 := r.drop d
  r2.take (2 + scanDict 1 (r2.drop 2))

/-- core/parse/incremental.go:184-250 – `findPrevOffset` (`none` = error). -/
def findPrevOffset (pdf : Bytes) (start : Nat) : Option Nat :=
  if start ≥ pdf.length then none
  else
    let sec := pdf.drop start
    let text : Option Bytes :=
      if (b!"xref").isPrefixOf sec then trailerDict sec
      else match index b!"stream" sec with
        | some k => some (sec.take k)
        | none => some (sec.take (min 2000 sec.length))
    text.bind fun t => (searchWith (reKeyNum b!"/Prev") t).bind (atoiMag 9223372036854775807)

/-- core/parse/incremental.go:138-154 – the loop collecting the offsets, for at most `fuel` rounds
(`none` = not finished).  `acc` holds the offsets found so far, newest last; the result is the reversed
list (:157-159), oldest first. -/
def prevChain (pdf : Bytes) : Nat → List Nat → Nat → List Nat → Option (List Nat)
  | 0, _, _, _ => none
  | fuel + 1, visited, cur, acc =>
    if cur > 0 ∧ cur ∉ visited then
      match findPrevOffset pdf cur with
      | none => some acc
      | some prev =>
        if prev > 0 ∧ prev < pdf.length then prevChain pdf fuel (cur :: visited) prev (prev :: acc)
        else some acc
    else some acc

/-- core/parse/incremental.go:132-159 – the offsets of all sections, oldest first.  The fuel suffices for
every input (theorem C26). -/
def chainOffsets (pdf : Bytes) (start : Nat) : Option (List Nat) :=
  prevChain pdf (pdf.length + 2) [] start [start]

/-- core/parse/incremental.go:13-22 – `xrefSection` (without Prev and StartXRef). -/
structure Section where
  objects : Map Int Int
  streams : Map Int (Nat × Nat)
  root : Bytes
  info : Bytes
  encrypt : Bytes
  size : Nat

/-- core/parse/incremental.go:372 – `key\s+(\d+\s+\d+\s+R)`, anchored; the group. -/
def reKeyRef (key s : Bytes) : Option Bytes :=
  (reLit key s).bind fun s => (reSp1 s).bind fun s => (reNum s).bind fun p => (reSp1 p.2).bind fun s1 =>
  (reNum s1).bind fun q => (reSp1 q.2).bind fun s2 => (reLit b!"R" s2).map fun s3 =>
  s.take (s.length - s3.length)

/-- core/parse/incremental.go:372-386 – trailer entries found in a text. -/
def withTrailer (objects : Map Int Int) (streams : Map Int (Nat × Nat)) (t : Bytes) : Section :=
  { objects := objects, streams := streams,
    root := (searchWith (reKeyRef b!"/Root") t).getD [],
    info := (searchWith (reKeyRef b!"/Info") t).getD [],
    encrypt := (searchWith (reKeyRef b!"/Encrypt") t).getD [],
    size := ((searchWith (reKeyNum b!"/Size") t).map atoiClamp).getD 0 }

/-- core/parse/incremental.go:270 – `^\d+\s+\d+\s+obj`. -/
def reAnyObj (s : Bytes) : Option Unit :=
  (reNum s).bind fun p => (reSp1 p.2).bind fun s => (reNum s).bind fun q => (reSp1 q.2).bind fun s =>
  (reLit b!"obj" s).map fun _ => ()

/-- core/parse/incremental.go:253-435 – `parsexrefSection`, `parseTraditionalxrefSection` and
`parseXRefStreamSection`.  `ParseXRefStreamFull` can panic (C17). -/
def parseXRefSection (unz : Bytes → Option Bytes) (pdf : Bytes) (start : Nat) : Res Section :=
  if start ≥ pdf.length then .err
  else
    let sec := pdf.drop start
    if (b!"xref").isPrefixOf sec then
      .ok (withTrailer (parseSection pdf start) [] ((trailerDict sec).getD []))
    else if (reAnyObj (sec.take 5000)).isSome || contains (sec.take 100) b!"obj" then
      (parseFull unz pdf start).bind fun r =>
        .ok (withTrailer (r.objects.map (fun e => (e.1, (e.2 : Int)))) r.objectStreams (sec.take 2000))
    else .err

/-- core/parse/incremental.go:166-175 – the sections that parse, oldest first. -/
def parseSections (unz : Bytes → Option Bytes) (pdf : Bytes) : List Nat → Res (List Section)
  | [] => .ok []
  | o :: os =>
    match parseXRefSection unz pdf o with
    | .panic => .panic
    | .err => parseSections unz pdf os
    | .ok s => (parseSections unz pdf os).bind fun ss => .ok (s :: ss)

/-- core/parse/incremental.go:45-63 and :132-181 – `parse` up to the merge: the sections, oldest first. -/
def readSections (unz : Bytes → Option Bytes) (pdf : Bytes) : Res (List Section) :=
  (Res.ofOption (findLastStartXRef pdf)).bind fun start =>
  (Res.ofOption (chainOffsets pdf start)).bind fun offs =>
  (parseSections unz pdf offs).bind fun ss => if ss = [] then .err else .ok ss

/-- `for k, v := range src { dst[k] = v }`. -/
def mergeInto {ν : Type} (dst src : Map Int ν) : Map Int ν := src.foldl (fun m e => m.set e.1 e.2) dst

/-- core/parse/incremental.go:437-455 – `mergeSections`, the plain objects. -/
def mergedObjs (ss : List Section) : Map Int Int := ss.foldl (fun m s => mergeInto m s.objects) []

/-- core/parse/incremental.go:437-455 – `mergeSections`, the compressed objects. -/
def mergedStreams (ss : List Section) : Map Int (Nat × Nat) := ss.foldl (fun m s => mergeInto m s.streams) []

/-! ### Open -/

/-- core/parse/api.go:60-67 – `ObjectRef`. -/
inductive Ref where
  | direct (offset : Int)
  | inStream (stm idx : Nat)
  deriving DecidableEq, Repr

/-- Decryption of one object (`encrypt.DecryptObject` with the key fixed): object number, generation, data. -/
abbrev Decrypt := Int → Nat → Bytes → Option Bytes

/-- core/parse/api.go:19-27 – `PDF` in standard mode. -/
structure Pdf where
  raw : Bytes
  crypt : Option Decrypt
  refs : Map Int Ref
  root : Bytes
  info : Bytes
  encrypt : Bytes
  size : Nat

/-- What is not modelled inside `Open`: decompression, the handling of encryption
(core/parse/api.go:115-134: `none` = error, `some none` = not encrypted) and the fall-back reader used
when no section can be read (api.go:183-201). -/
structure Env where
  unz : Bytes → Option Bytes
  handleEncryption : Bytes → Option (Option Decrypt)
  fallback : Bytes → Res Pdf

/-- core/parse/api.go:205-224 – the unified table: plain objects, then compressed ones on top. -/
def refsOf (ss : List Section) : Map Int Ref :=
  mergeInto (mergeInto [] ((mergedObjs ss).map fun e => (e.1, Ref.direct e.2)))
    ((mergedStreams ss).map fun e => (e.1, Ref.inStream e.2.1 e.2.2))

/-- core/parse/api.go:178-238 – `parseStandard` after the sections have been read. -/
def pdfOf (pdf : Bytes) (crypt : Option Decrypt) (ss : List Section) : Pdf :=
  match ss.getLast? with
  | none => { raw := pdf, crypt := crypt, refs := refsOf ss, root := [], info := [], encrypt := [], size := 0 }
  | some s =>
    { raw := pdf, crypt := crypt, refs := refsOf ss, root := s.root, info := s.info, encrypt := s.encrypt,
      size := s.size }

/-- core/parse/api.go:78-112 – `Open` (standard mode). -/
def openPdf (env : Env) (pdf : Bytes) : Res Pdf :=
  if pdf.length < 8 then .err
  else (Res.ofOption (env.handleEncryption pdf)).bind fun crypt =>
    match readSections env.unz pdf with
    | .ok ss => .ok (pdfOf pdf crypt ss)
    | .err => env.fallback pdf
    | .panic => .panic

/-- core/parse/api.go:275-278 – `HasObject`. -/
def hasObject (p : Pdf) (n : Int) : Bool := (p.refs.get n).isSome

/-- core/parse/api.go:266-272 – `Objects` (in some order). -/
def objects (p : Pdf) : List Int := p.refs.keys

/-- core/parse/api.go:260-262 – `ObjectCount`. -/
def objectCount (p : Pdf) : Nat := p.refs.length

/-- core/parse/api.go:250-257 – `RevisionCount` in standard mode. -/
def revisionCount (p : Pdf) : Nat := countRevisions p.raw

/-! ### Direct objects -/

/-- core/parse/get_object.go:143 – `^%d\s+(\d+)\s+obj`; the group. -/
def reHeader (n : Int) (s : Bytes) : Option Bytes :=
  (reLit (itoa n) s).bind fun s => (reSp1 s).bind fun s => (reNum s).bind fun p => (reSp1 p.2).bind fun s =>
  (reLit b!"obj" s).map fun _ => p.1

/-- core/parse/get_object.go:193 – white space after the keyword `obj`. -/
def objWs (c : UInt8) : Bool := c == 32 || c == 10 || c == 13 || c == 9

/-- core/parse/get_object.go:143-171 – the header: the bytes the object is read from, and its generation. -/
def locate (pdf : Bytes) (n : Int) (off : Nat) : Bytes × Nat :=
  let data := pdf.drop off
  match reHeader n (data.take 50) with
  | some g => (data, atoiClamp g)
  | none =>
    let area := (pdf.take (off + 100)).drop (off - 100)
    match searchSuffix (fun s => (reHeader n s).map fun _ => ()) area with
    | none => (data, 0)
    | some suf =>
      let data' := pdf.drop (off - 100 + (area.length - suf.length))
      (data', ((reHeader n (data'.take 50)).map atoiClamp).getD 0)

/-- core/parse/get_object.go:236 – `lengthPattern.ReplaceAll`: every `/Length\s+\d+` is replaced.  `skip`
bytes of a match are still to be passed over. -/
def replaceLength (new : Bytes) : Nat → Bytes → Bytes
  | _, [] => []
  | skip + 1, _ :: r => replaceLength new skip r
  | 0, c :: r =>
    match ((reLit b!"/Length" (c :: r)).bind fun s => (reSp1 s).bind fun s => (reNum s).map (·.2)) with
    | some rest => new ++ replaceLength new (r.length - rest.length) r
    | none => c :: replaceLength new 0 r

/-- core/parse/get_object.go:211-256 – the decryption of a stream object; `content` runs to the end of
`endstream`. -/
def decryptStream (d : Decrypt) (n : Int) (gen : Nat) (content : Bytes) (streamStart : Nat) : Bytes :=
  let dict := content.take streamStart
  let len := ((searchWith (reKeyNum b!"/Length") dict).map atoiClamp).getD 0
  let after := skipEol (content.drop (streamStart + 6))
  let data :=
    if len > 0 ∧ len ≤ after.length then after.take len
    else match index b!"endstream" after with
      | some k => after.take k
      | none => after
  match d n gen data with
  | none => content
  | some plain =>
    replaceLength (b!"/Length " ++ natDec plain.length) 0 dict ++ b!"stream\n" ++ plain ++ b!"\nendstream"

/-- core/parse/get_object.go:173-258 – the content of the object, from the bytes at its header.  Re-slicing
`content` past its end (missing `endstream`) reaches into the following bytes of the file. -/
def objContent (crypt : Option Decrypt) (n : Int) (gen : Nat) (data : Bytes) : Res Bytes :=
  (Res.ofOption (index b!"endobj" data)).bind fun e =>
  let body := data.take e
  let content := match index b!"obj" body with
    | none => body
    | some k => (body.drop (k + 3)).dropWhile objWs
  match index b!"stream" content with
  | none =>
    match crypt with
    | none => .ok content
    | some d => .ok ((d n gen content).getD content)
  | some streamStart =>
    let endPos := ((index b!"endstream" content).getD content.length) + 9
    (sliceTo (data.drop (e - content.length)) endPos).bind fun content' =>
    match crypt with
    | none => .ok content'
    | some d => .ok (decryptStream d n gen content' streamStart)

/-- core/parse/get_object.go:135-274 – `GetDirectObject`. -/
def getDirectObject (crypt : Option Decrypt) (pdf : Bytes) (n : Int) (off : Int) : Res Bytes :=
  if off < 0 ∨ off ≥ pdf.length then .err
  else
    let l := locate pdf n off.toNat
    (objContent crypt n l.2 l.1).bind fun content =>
    .ok (itoa n ++ b!" " ++ natDec l.2 ++ b!" obj\n" ++ content ++
      (if (b!"\n").isSuffixOf content then [] else b!"\n") ++ b!"endobj")

/-- core/parse/api.go:282-296 – `PDF.GetObject`. -/
def getObject (env : Env) (p : Pdf) (n : Int) : Res Bytes :=
  match p.refs.get n with
  | none => .err
  | some (.inStream stm idx) =>
    getObjectFromStream env.unz (match p.crypt with | none => some | some d => d stm 0) p.raw n stm idx
  | some (.direct off) => getDirectObject p.crypt p.raw n off

end Pdfer.Incremental
