import Verif.Model.Document

/-! Model of the reader `Open` falls back to when no cross-reference section can be read: `ParsePDFTrailer` and
`ParseCrossReferenceTableWithEncryption` (core/parse/parser.go), `ParseXRefStreamWithEncryption`
(core/parse/xref_stream.go), core/parse/api.go:182-201. -/

namespace Pdfer.Fallback

open Pdfer.Go Pdfer.XRefStream Pdfer.XRefTable Pdfer.Incremental

/-- core/parse/parser.go:21 – `trailer\s*<<` anchored: the rest. -/
def reTrailer (s : Bytes) : Option Bytes := (reLit b!"trailer" s).bind fun r => reLit b!"<<" (reSp0 r)

/-- core/parse/parser.go:26-33 – the last match: the text behind it.  (Matches cannot overlap, so the last one found from
the left is the last position where the expression matches.) -/
def lastTrailer : Bytes → Option Bytes
  | [] => none
  | c :: r => match lastTrailer r with
    | some t => some t
    | none => reTrailer (c :: r)

/-- core/parse/parser.go:44-60 – the end of the dictionary, at most 5000 bytes away: the number of bytes up to and
including the closing `>>` (`none`: not found). -/
def dictEnd : Nat → Nat → Bytes → Option Nat
  | 0, _, _ => none
  | _ + 1, _, [] => none
  | _ + 1, _, [_] => none
  | w + 1, depth, c :: d :: r =>
    if c = 60 ∧ d = 60 then (dictEnd (w - 1) (depth + 1) r).map (· + 2)
    else if c = 62 ∧ d = 62 then (if depth = 1 then some 2 else (dictEnd (w - 1) (depth - 1) r).map (· + 2))
    else (dictEnd w depth (d :: r)).map (· + 1)

/-- core/parse/parser.go:70-89 – `key\s+(\d+)\s+(\d+)\s+R` anchored: the whole match (`rootMatch[0]`), with the key. -/
def reKeyWhole (key s : Bytes) : Option Bytes := (reKeyRef key s).bind fun _ =>
  (reLit key s).bind fun r => (reSp1 r).bind fun r => (reNum r).bind fun p => (reSp1 p.2).bind fun r1 =>
  (reNum r1).bind fun q => (reSp1 q.2).bind fun r2 => (reLit b!"R" r2).map fun r3 => s.take (s.length - r3.length)

/-- core/parse/document.go:287-292 – `PDFTrailer`. -/
structure Trailer where
  root : Bytes
  info : Bytes
  encrypt : Bytes
  start : Nat
deriving DecidableEq, Repr

/-- core/parse/parser.go:15-100 – `ParsePDFTrailer` (`none` = error).  A start that does not fit 64 bits stays 0. -/
def parsePDFTrailer (pdf : Bytes) : Option Trailer :=
  (lastTrailer pdf).bind fun t => (dictEnd 5000 1 t).map fun e =>
  { root := (searchWith (reKeyWhole b!"/Root") (t.take e)).getD [],
    info := (searchWith (reKeyWhole b!"/Info") (t.take e)).getD [],
    encrypt := (searchWith (reKeyWhole b!"/Encrypt") (t.take e)).getD [],
    start := ((searchWith (reKeyNum b!"startxref") pdf).bind (atoiMag 9223372036854775807)).getD 0 }

/-- core/parse/xref_stream.go:176-197 – the effect of one entry; `len` is the length of the file. -/
def oldEntry (len : Nat) (m : Map Int Int) (objNum : Int) (typ off : Nat) : Map Int Int :=
  if typ = 1 then (if off > 0 then m.set objNum off else m)
  else if typ = 0 then (if off > 100 ∧ off < len then m.set objNum off else m)
  else m

/-- core/parse/xref_stream.go:157-200 – the inner loop over one subsection (fields are unbounded, as in `fieldVal`). -/
def oldSub (len w1 w2 w3 : Nat) : Nat → Int → Bytes → Map Int Int → Bytes × Map Int Int
  | 0, _, data, m => (data, m)
  | count + 1, objNum, data, m =>
    if data.length < w1 + w2 + w3 then (data, m)
    else oldSub len w1 w2 w3 count (objNum + 1) (data.drop (w1 + w2 + w3))
      (oldEntry len m objNum (fieldVal (data.take w1)) (fieldVal ((data.drop w1).take w2)))

/-- core/parse/xref_stream.go:156-201 – the loop over the subsections. -/
def oldEntries (len w1 w2 w3 : Nat) : List (Int × Int) → Bytes → Map Int Int → Map Int Int
  | [], _, m => m
  | (first, count) :: subs, data, m =>
    let p := oldSub len w1 w2 w3 count.toNat first data m
    oldEntries len w1 w2 w3 subs p.1 p.2

/-- core/parse/xref_stream.go:24-209 – `ParseXRefStreamWithEncryption` (`unz`: zlib or else raw deflate); predictors are
not undone. -/
def oldXRefStream (unz : Bytes → Option Bytes) (pdf : Bytes) (start : Nat) : Res (Map Int Int) :=
  (sliceFrom pdf start).bind fun sec =>
  let win := sec.take 500
  (match searchWith reObj win with
    | some _ => Res.ok ()
    | none =>
      (slice pdf (if start > 100 then start - 100 else 0) (start + 500)).bind fun s =>
        Res.ofOption (searchWith reObj s)).bind fun _ =>
  (Res.ofOption (index b!"<<" sec)).bind fun dictStart =>
  (sliceFrom win dictStart).bind fun d =>
  (Res.ofOption (searchWith (reKeyNum b!"/Size") d)).bind fun size =>
  (Res.ofOption (searchWith reW d)).bind fun w =>
  let subs : List (Int × Int) := match searchWith reIndex d with
    | some fs => indexPairs fs
    | none => [(0, (atoiClamp size : Int))]
  (Res.ofOption (index b!"stream" (sec.drop dictStart))).bind fun k =>
  let after := (sec.drop (dictStart + k + 6)).dropWhile streamWs
  (Res.ofOption (index b!"endstream" after)).bind fun e =>
  (Res.ofOption (unz (after.take e))).bind fun plain =>
  if w.1 + w.2.1 + w.2.2 = 0 then Res.err
  else
    let m := oldEntries pdf.length w.1 w.2.1 w.2.2 subs plain []
    if m = [] then Res.err else Res.ok m

/-- core/parse/parser.go:159-177 – `ParseCrossReferenceTableWithEncryption`. -/
def crossRefTable (unz : Bytes → Option Bytes) (pdf : Bytes) (start : Nat) : Res (Map Int Int) :=
  if start = 0 ∨ start ≥ pdf.length then .err
  else
    let win := (pdf.drop start).take 5000
    if contains win b!"/Type/XRef" || contains win b!"/W[" then oldXRefStream unz pdf start
    else Res.ofOption (parseTable pdf start)

/-- core/parse/api.go:183-201 – the fall-back; an error of the table is ignored.  (`encrypt` is what `handleEncryption`
found; it does not matter here.) -/
def fallback (unz : Bytes → Option Bytes) (pdf : Bytes) : Res Pdf :=
  (Res.ofOption (parsePDFTrailer pdf)).bind fun t =>
  match crossRefTable unz pdf t.start with
  | .panic => .panic
  | .err => .ok { raw := pdf, crypt := none, refs := [], root := t.root, info := t.info, encrypt := t.encrypt, size := 0 }
  | .ok m => .ok { raw := pdf, crypt := none, refs := m.map fun e => (e.1, .direct e.2), root := t.root, info := t.info,
                   encrypt := t.encrypt, size := 0 }

/-- The environment of `Open` with the fall-back it has, for unencrypted files. -/
def realEnv (unz : Bytes → Option Bytes) : Incremental.Env :=
  { unz := unz, handleEncryption := fun _ => some none, fallback := fallback unz }

end Pdfer.Fallback
