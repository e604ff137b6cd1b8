import Verif.Model.Strings

/-! resources/font: reading TrueType fonts, subsets, widths and the ToUnicode map. -/

namespace Pdfer.Font

open Pdfer.Go Pdfer.Strings

/-! ### Go byte slices with their capacity

Re-slicing a Go slice is checked against the capacity, not the length: a table read from a font file is a window of the
file, and reading behind its end gives the bytes of the next table. -/

/-- A Go `[]byte`: the memory up to the capacity, and the length. -/
structure Slice where
  mem : Bytes
  len : Nat
  deriving DecidableEq, Repr

/-- The contents. -/
def Slice.data (s : Slice) : Bytes := s.mem.take s.len

/-- A slice whose capacity is its length. -/
def exact (b : Bytes) : Slice := ⟨b, b.length⟩

/-- `s[i:j]`: a panic unless `i ≤ j ≤ cap(s)`. -/
def Slice.sub (s : Slice) (i j : Nat) : Res Slice :=
  if i ≤ j ∧ j ≤ s.mem.length then .ok ⟨s.mem.drop i, j - i⟩ else .panic

/-- `s[i:]`, that is `s[i:len(s)]`. -/
def Slice.from (s : Slice) (i : Nat) : Res Slice := s.sub i s.len

/-- Value of bytes in big-endian order. -/
def beVal (b : Bytes) : Nat := b.foldl (fun v c => v * 256 + c.toNat) 0

/-- `binary.BigEndian.Uint16(s[i : i+2])`. -/
def Slice.be16 (s : Slice) (i : Nat) : Res Nat := (s.sub i (i + 2)).bind fun t => .ok (beVal t.data)

/-- `binary.BigEndian.Uint32(s[i : i+4])`. -/
def Slice.be32 (s : Slice) (i : Nat) : Res Nat := (s.sub i (i + 4)).bind fun t => .ok (beVal t.data)

/-- `int16(u)` of a 16-bit number. -/
def int16 (u : Nat) : Int := if u < 32768 then u else (u : Int) - 65536

/-- `rune(u)` of a 32-bit number (a rune is an int32). -/
def rune32 (u : Nat) : Int := if u < 2147483648 then u else (u : Int) - 4294967296

/-! ### The table directory and the tables read by ParseTTF -/

/-- resources/font/font.go:87-114 – the loop over the table directory.  The end of a table is computed with uint32. -/
def readDir (data : Slice) : Nat → Nat → Map Bytes Slice → Res (Map Bytes Slice)
  | 0, _, m => .ok m
  | k + 1, off, m =>
    if data.len < off + 16 then .err
    else (data.sub off (off + 4)).bind fun tag => (data.be32 (off + 8)).bind fun tOff => (data.be32 (off + 12)).bind fun tLen =>
      if data.len < tOff + tLen then .err
      else (data.sub tOff ((tOff + tLen) % 4294967296)).bind fun t => readDir data k (off + 16) (m.set tag.data t)

/-- A required table with its least length (the checks at the start of parseHead, parseMaxp, parseHhea, parseName and
parsePost). -/
def table (m : Map Bytes Slice) (tag : Bytes) (least : Nat) : Res Slice :=
  match m.get tag with
  | none => .err
  | some t => if t.len < least then .err else .ok t

/-- The names read from the font. -/
structure Names where
  family : Bytes
  full : Bytes
  postScript : Bytes
  deriving DecidableEq, Repr

/-- UTF-16BE pairs as 16-bit numbers. -/
def pairs16 : Bytes → List Nat
  | a :: b :: r => (a.toNat * 256 + b.toNat) :: pairs16 r
  | _ => []

/-- resources/font/font.go:203-216 – the text of a name record (`string(runes)` replaces surrogates). -/
def nameText (platform : Nat) (d : Bytes) : Bytes :=
  if platform = 3 then (if d.length % 2 = 0 then (pairs16 d).flatMap writeRune else []) else d

/-- resources/font/font.go:218-231 – the first non-empty text of each kind stays. -/
def setName (n : Names) (nameID : Nat) (s : Bytes) : Names :=
  if nameID = 1 then (if n.family = [] then { n with family := s } else n)
  else if nameID = 4 then (if n.full = [] then { n with full := s } else n)
  else if nameID = 6 then (if n.postScript = [] then { n with postScript := s } else n)
  else n

/-- resources/font/font.go:187-235 – the loop over the name records; the positions are added with uint16. -/
def nameLoop (name : Slice) (strOff : Nat) : Nat → Nat → Names → Res Names
  | 0, _, n => .ok n
  | k + 1, off, n =>
    if name.len < off + 12 then .ok n
    else (name.be16 off).bind fun platform => (name.be16 (off + 6)).bind fun nameID =>
      (name.be16 (off + 8)).bind fun length => (name.be16 (off + 10)).bind fun start =>
      if (platform = 3 ∨ platform = 0) ∧ strOff + start + length ≤ name.len then
        (name.sub ((strOff + start) % 65536) ((strOff + start + length) % 65536)).bind fun d =>
          nameLoop name strOff k (off + 12) (setName n nameID (nameText platform d.data))
      else nameLoop name strOff k (off + 12) n

/-- A parsed font (`TTF`).  Simplified: of the post table only whether the italic angle is zero is kept (a float32 in the
code). -/
structure TTF where
  tables : Map Bytes Slice
  numGlyphs : Nat
  unitsPerEm : Nat
  ascent : Int
  descent : Int
  capHeight : Int
  xHeight : Int
  italic : Bool
  fixedPitch : Bool
  names : Names
  deriving DecidableEq, Repr

/-- resources/font/font.go:238-245 – `FontName`. -/
def TTF.fontName (t : TTF) : Bytes :=
  if t.names.postScript ≠ [] then t.names.postScript else if t.names.full ≠ [] then t.names.full else t.names.family

/-- resources/font/font.go:267-271 – cap height and x-height of the OS/2 table. -/
def os2 (m : Map Bytes Slice) : Res (Int × Int) :=
  match m.get b!"OS/2" with
  | some t => if 88 ≤ t.len then (t.be16 68).bind fun c => (t.be16 70).bind fun x => .ok (int16 c, int16 x) else .ok (0, 0)
  | none => .ok (0, 0)

/-- resources/font/font.go:79-83 – the signature check. -/
def signatureOk (data : Slice) : Res Bool := (data.be32 0).bind fun s => .ok (s = 0x00010000 || s = 0x4F54544F)

/-- resources/font/font.go:70-134 – `ParseTTF`; lines 137-277 – the five parse functions it calls. -/
def parseTTF (data : Slice) : Res TTF :=
  if data.len < 12 then .err
  else (signatureOk data).bind fun sig => if sig = false then .err
  else (data.be16 4).bind fun n => (readDir data n 12 []).bind fun m =>
    (table m b!"head" 54).bind fun head => (head.be16 18).bind fun upem =>
    (table m b!"maxp" 6).bind fun maxp => (maxp.be16 4).bind fun glyphs =>
    (table m b!"hhea" 36).bind fun hhea => (hhea.be16 4).bind fun asc => (hhea.be16 6).bind fun desc =>
    (table m b!"name" 6).bind fun name => (name.be16 2).bind fun count => (name.be16 4).bind fun strOff =>
    (nameLoop name strOff count 6 ⟨[], [], []⟩).bind fun names =>
    (table m b!"post" 32).bind fun post => (post.be32 4).bind fun angle => (post.be32 12).bind fun fixed =>
    (os2 m).bind fun o =>
    .ok { tables := m, numGlyphs := glyphs, unitsPerEm := upem, ascent := int16 asc, descent := int16 desc,
          capHeight := o.1, xHeight := o.2, italic := angle ≠ 0, fixedPitch := fixed ≠ 0, names := names }

/-- resources/font/font.go:51-67 – `NewFont`: whether it accepts the data. -/
def newFontOk (data : Slice) : Res Unit :=
  if data.len < 12 then .err else (signatureOk data).bind fun sig => if sig then .ok () else .err

/-! ### The subset -/

/-- resources/font/font.go:280-288 – `AddRune`. -/
def addRune (subset : List Int) (r : Int) : List Int := if r ∈ subset then subset else subset ++ [r]

/-- resources/font/font.go:291-297 – `AddString`; `isPrint` is `unicode.IsPrint`. -/
def addString (isPrint : Int → Bool) (subset : List Int) (s : Bytes) : List Int :=
  ((runes s).map Int.ofNat).foldl (fun acc r => if isPrint r || r == 32 then addRune acc r else acc) subset

/-! ### The character map

Each loop takes a number of steps; `none` is the outcome of a loop that is not finished after that many. -/

/-- resources/font/font.go:356-377 – the loop that looks for a platform 3 subtable. -/
def pickWin (data : Slice) : Nat → Nat → Option Nat → Res (Option Nat)
  | 0, _, best => .ok best
  | k + 1, off, best =>
    if data.len < off + 8 then .ok best
    else (data.be16 off).bind fun p => (data.be16 (off + 2)).bind fun e => (data.be32 (off + 4)).bind fun o =>
      pickWin data k (off + 8)
        (if p = 3 ∧ (e = 1 ∨ e = 10) then (if best = none ∨ e = 10 then some o else best) else best)

/-- resources/font/font.go:379-400 – the loop that looks for a platform 0 subtable. -/
def pickUni (data : Slice) : Nat → Nat → Res (Option Nat)
  | 0, _ => .ok none
  | k + 1, off =>
    if data.len < off + 8 then .ok none
    else (data.be16 off).bind fun p => (data.be32 (off + 4)).bind fun o =>
      if p = 0 then .ok (some o) else pickUni data k (off + 8)

/-- resources/font/font.go:458-473 – the glyph of a code in a segment of a format 4 subtable; `slot` is the position of the
segment's range offset.  The addition of the delta is int16, that is modulo 65536. -/
def glyph4 (data : Slice) (slot start delta rangeOff code : Nat) : Res Nat :=
  if rangeOff = 0 then .ok ((code + delta) % 65536)
  else
    let at_ := slot + rangeOff + (code - start) * 2
    if at_ + 2 ≤ data.len then (data.be16 at_).bind fun g => .ok (if g ≠ 0 then (g + delta) % 65536 else 0)
    else .ok 0

/-- resources/font/font.go:455-478 – the loop over the codes of a segment (a uint16 counter). -/
def codes4 (data : Slice) (slot start stop delta rangeOff : Nat) : Nat → Nat → Map Int Nat → Option (Res (Map Int Nat))
  | 0, _, _ => none
  | f + 1, code, m =>
    if code ≤ stop ∧ code ≠ 65535 then
      match glyph4 data slot start delta rangeOff code with
      | .ok g => codes4 data slot start stop delta rangeOff f ((code + 1) % 65536) (if g ≠ 0 then m.set code g else m)
      | .err => some .err
      | .panic => some .panic
    else some (.ok m)

/-- resources/font/font.go:445-479 – the loop over the segments. -/
def segs4 (data : Slice) (fuel segCount : Nat) : Nat → Nat → Map Int Nat → Option (Res (Map Int Nat))
  | 0, _, m => some (.ok m)
  | k + 1, i, m =>
    let startOff := 16 + segCount * 2
    let deltaOff := startOff + segCount * 2
    let rangeOffOff := deltaOff + segCount * 2
    match (data.be16 (startOff + i * 2)).bind fun start => (data.be16 (14 + i * 2)).bind fun stop =>
        (data.be16 (deltaOff + i * 2)).bind fun delta => (data.be16 (rangeOffOff + i * 2)).bind fun ro =>
          .ok (start, stop, delta, ro) with
    | .ok (start, stop, delta, ro) =>
      if stop = 65535 ∧ start = 65535 then some (.ok m)
      else match codes4 data (rangeOffOff + i * 2) start stop delta ro fuel start m with
        | some (.ok m') => segs4 data fuel segCount k (i + 1) m'
        | r => r
    | .err => some .err
    | .panic => some .panic

/-- resources/font/font.go:424-482 – `parseCmapFormat4`. -/
def cmap4 (fuel : Nat) (data : Slice) : Option (Res (Map Int Nat)) :=
  if data.len < 14 then some .err
  else match (data.be16 2).bind fun length => (data.be16 6).bind fun sc => .ok (length, sc / 2) with
    | .ok (length, segCount) => if data.len < length then some .err else segs4 data fuel segCount segCount 0 []
    | .err => some .err
    | .panic => some .panic

/-- resources/font/font.go:508-511 – the loop over the codes of a group (a uint32 counter). -/
def codes12 (start stop gid : Nat) : Nat → Nat → Map Int Nat → Option (Map Int Nat)
  | 0, _, _ => none
  | f + 1, code, m =>
    if code ≤ stop then
      codes12 start stop gid f ((code + 1) % 4294967296) (m.set (rune32 code) ((gid + (code - start)) % 65536))
    else some m

/-- resources/font/font.go:499-514 – the loop over the groups. -/
def groups12 (data : Slice) (fuel : Nat) : Nat → Nat → Map Int Nat → Option (Res (Map Int Nat))
  | 0, _, m => some (.ok m)
  | k + 1, off, m =>
    if data.len < off + 12 then some (.ok m)
    else match (data.be32 off).bind fun start => (data.be32 (off + 4)).bind fun stop =>
        (data.be32 (off + 8)).bind fun gid => .ok (start, stop, gid) with
      | .ok (start, stop, gid) =>
        match codes12 start stop gid fuel start m with
        | some m' => groups12 data fuel k (off + 12) m'
        | none => none
      | .err => some .err
      | .panic => some .panic

/-- resources/font/font.go:485-517 – `parseCmapFormat12`. -/
def cmap12 (fuel : Nat) (data : Slice) : Option (Res (Map Int Nat)) :=
  if data.len < 16 then some .err
  else match (data.be32 4).bind fun length => (data.be32 12).bind fun n => .ok (length, n) with
    | .ok (length, n) => if data.len < length then some .err else groups12 data fuel n 16 []
    | .err => some .err
    | .panic => some .panic

/-- resources/font/font.go:336-405 – the subtable `parseCmap` chooses. -/
def subtable (data : Slice) : Res Slice :=
  if data.len < 4 then .err
  else (data.be16 0).bind fun version => if version ≠ 0 then .err
  else (data.be16 2).bind fun n => (pickWin data n 4 none).bind fun w =>
    (match w with
      | some o => Res.ok (some o)
      | none => pickUni data n 4).bind fun best =>
    match best with
    | none => .err
    | some o => (data.from o).bind fun sub => if sub.len < 2 then .err else .ok sub

/-- resources/font/font.go:336-421 – `parseCmap`: the characters and their glyphs. -/
def parseCmap (fuel : Nat) (data : Slice) : Option (Res (Map Int Nat)) :=
  match (subtable data).bind fun sub => (sub.be16 0).bind fun f => .ok (sub, f) with
  | .ok (sub, f) => if f = 12 then cmap12 fuel sub else cmap4 fuel sub
  | .err => some .err
  | .panic => some .panic

/-- The characters and glyphs of a font file: `ParseTTF`, the cmap table, `parseCmap` (the first part of
`GetSubsetGlyphs`). -/
def glyphMap (fuel : Nat) (data : Slice) : Option (Res (Map Int Nat)) :=
  match (parseTTF data).bind fun t => Res.ofOption (t.tables.get b!"cmap") with
  | .ok c => parseCmap fuel c
  | .err => some .err
  | .panic => some .panic

/-- resources/font/font.go:318-320 – the glyph of a character, if it is mapped. -/
def addGlyph (gm : Map Int Nat) (s : Map Nat Unit) (r : Int) : Map Nat Unit :=
  match gm.get r with
  | some g => s.set g ()
  | none => s

/-- resources/font/font.go:313-321 – the glyphs of a subset: glyph 0 and those of the mapped characters. -/
def glyphSet (gm : Map Int Nat) (subset : List Int) : Map Nat Unit := subset.foldl (addGlyph gm) [(0, ())]

/-- resources/font/font.go:314-332 – the sorted list of the set; `order` is the order in which the map is visited. -/
def glyphList (order : List Nat → List Nat) (gm : Map Int Nat) (subset : List Int) : List Nat :=
  Writer.sortBy (fun a b => decide (a ≤ b)) (order (glyphSet gm subset).keys)

/-- resources/font/font.go:300-333 – `GetSubsetGlyphs`. -/
def subsetGlyphs (fuel : Nat) (order : List Nat → List Nat) (data : Slice) (subset : List Int) : Option (Res (List Nat)) :=
  (glyphMap fuel data).map fun r => r.bind fun gm => .ok (glyphList order gm subset)

/-- resources/font/font.go:546-552 – the width of a glyph: the position is computed with uint16. -/
def width (hmtx : Slice) (unitsPerEm gid : Nat) : Res Nat :=
  if gid * 4 + 2 ≤ hmtx.len then
    (hmtx.sub (gid * 4 % 65536) ((gid * 4 + 2) % 65536)).bind fun t => .ok (beVal t.data)
  else .ok unitsPerEm

/-- resources/font/font.go:544-553 – the widths of a list of glyphs. -/
def widthList (hmtx : Slice) (unitsPerEm : Nat) : List Nat → Res (List Nat)
  | [] => .ok []
  | g :: gs => (width hmtx unitsPerEm g).bind fun w => (widthList hmtx unitsPerEm gs).bind fun ws => .ok (w :: ws)

/-- resources/font/font.go:529-556 – `GetWidths`. -/
def getWidths (fuel : Nat) (order : List Nat → List Nat) (data : Slice) (subset : List Int) : Option (Res (List Nat)) :=
  (subsetGlyphs fuel order data subset).map fun r => (parseTTF data).bind fun t => r.bind fun gs =>
    (Res.ofOption (t.tables.get b!"hmtx")).bind fun h => widthList h t.unitsPerEm gs

/-! ### The objects written for an embedded font -/

/-- `%0kX` of a number that is not negative. -/
def hexPad (k n : Nat) : Bytes := List.replicate (k - (hexAux n n).length) 48 ++ hexAux n n

/-- `%04X` of a rune. -/
def hexRune (r : Int) : Bytes :=
  if 0 ≤ r then hexPad 4 r.toNat else b!"-" ++ hexPad 3 (-r).toNat

/-- resources/font/pdf.go:167-170 – the characters of a glyph, in the order in which the map is visited. -/
def unicodesOf (visited : List (Int × Nat)) (gid : Nat) : List Int := (visited.filter (fun e => e.2 = gid)).map (·.1)

/-- resources/font/pdf.go:195-201 – one entry. -/
def bfLine (visited : List (Int × Nat)) (gid : Nat) : Bytes :=
  b!"<" ++ hexPad 2 gid ++ b!"> <" ++
    (match unicodesOf visited gid with
      | u :: _ => hexRune u
      | [] => b!"0020") ++ b!">\n"

/-- resources/font/pdf.go:173-187 – the fixed text before the entries. -/
def cmapHead : Bytes :=
  b!"/CIDInit /ProcSet findresource begin\n12 dict begin\nbegincmap\n/CIDSystemInfo\n<< /Registry (Adobe)\n   /Ordering (UCS)\n   /Supplement 0\n>> def\n/CMapName /Adobe-Identity-UCS def\n/CMapVersion 1.0 def\n/CMapType 2 def\n1 begincodespacerange\n<00> <FF>\nendcodespacerange\n"

/-- resources/font/pdf.go:206-209 – the fixed text after the entries. -/
def cmapTail : Bytes := b!"endcmap\nCMapName currentdict /CMap defineresource pop\nend\nend\n"

/-- resources/font/pdf.go:147-212 – `createToUnicodeCMapData` for a font whose character map is `gm`; `visit` is the order in
which the map is visited. -/
def toUnicodeData (visit : Map Int Nat → List (Int × Nat)) (gm : Map Int Nat) (glyphs : List Nat) : Bytes :=
  cmapHead ++ natDec glyphs.length ++ b!" beginbfchar\n" ++ glyphs.flatMap (bfLine (visit gm)) ++ b!"endbfchar\n" ++ cmapTail

/-- `strings.Join(texts, " ")` as the width array is written. -/
def joinSp : List Bytes → Bytes
  | [] => []
  | [a] => a
  | a :: r => a ++ b!" " ++ joinSp r

/-- resources/font/pdf.go:93-125 – `createFontDict`. -/
def fontDict (fontName prefix_ : Bytes) (descriptor toUnicode : Int) (glyphs : List Nat) (widths : List Nat) : Bytes :=
  b!"<<\n/Type /Font\n/Subtype /TrueType\n/BaseFont /" ++ escapeName (prefix_ ++ fontName) ++ b!"\n/FirstChar 0\n/LastChar " ++
    itoa ((glyphs.length : Int) - 1) ++ b!"\n/Widths [" ++ joinSp (widths.map natDec) ++ b!"]\n/FontDescriptor " ++ itoa descriptor ++
    b!" 0 R\n/ToUnicode " ++ itoa toUnicode ++ b!" 0 R\n>>"

/-- resources/font/pdf.go:215-236 – `getFontFlags`. -/
def fontFlags (t : TTF) : Nat := (if t.fixedPitch then 1 else 0) + 32 + (if t.italic then 64 else 0)

end Pdfer.Font
