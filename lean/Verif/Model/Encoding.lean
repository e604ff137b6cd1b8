import Verif.Model.EncTables
import Verif.Model.Forms

/-! content/extract/encoding.go and the font part of resources.go: from character codes to text. -/

namespace Pdfer.Enc

open Pdfer.Go Pdfer.Strings Pdfer.Manipulate

/-- content/extract/encoding.go:10-22 – `FontDecoder` (the name is only used for messages). -/
structure Decoder where
  toU : Map Int Int
  diff : Map Int Int
  base : Map Int Int
  deriving DecidableEq, Repr

/-- content/extract/encoding.go:25-32 – `NewFontDecoder`. -/
def Decoder.new : Decoder := ⟨[], [], []⟩

/-- content/extract/encoding.go:35-50 – `SetBaseEncoding`. -/
def setBase (d : Decoder) (name : Bytes) : Decoder :=
  let n := if (b!"/").isPrefixOf name then name.drop 1 else name
  if n = b!"WinAnsiEncoding" then { d with base := winAnsi }
  else if n = b!"MacRomanEncoding" then { d with base := macRoman }
  else if n = b!"StandardEncoding" then { d with base := standard }
  else if n = b!"MacExpertEncoding" then { d with base := macExpert }
  else d

/-- `strings.Builder.WriteRune` for any rune. -/
def writeRuneI (r : Int) : Bytes := if 0 ≤ r then writeRune r.toNat else [0xEF, 0xBF, 0xBD]

/-- content/extract/encoding.go:68-82 – the character of a one-byte code. -/
def byteChar (d : Decoder) (code : Int) : Int :=
  match d.toU.get code with
  | some u => u
  | none => match d.diff.get code with
    | some u => u
    | none => match d.base.get code with
      | some u => u
      | none => code

/-- content/extract/encoding.go:65-88 – `Decode`. -/
def decode (d : Decoder) (data : Bytes) : Bytes := data.flatMap fun b => writeRuneI (byteChar d b.toNat)

/-- Value of a hexadecimal digit. -/
def hexDig (c : UInt8) : Option Nat :=
  if 48 ≤ c ∧ c ≤ 57 then some (c.toNat - 48)
  else if 65 ≤ c ∧ c ≤ 70 then some (c.toNat - 55)
  else if 97 ≤ c ∧ c ≤ 102 then some (c.toNat - 87)
  else none

/-- A hexadecimal digit. -/
def isHex (c : UInt8) : Bool := (hexDig c).isSome

/-- Value of a list of hexadecimal digits. -/
def hexVal (bs : Bytes) : Nat := bs.foldl (fun v c => v * 16 + (hexDig c).getD 0) 0

/-- The digits of `strconv.ParseInt(s, 16, 32)`: at least one, only hexadecimal digits, magnitude at most `limit`. -/
def hexMag (limit : Nat) (bs : Bytes) : Option Nat :=
  if bs = [] then none else if bs.all isHex then (if hexVal bs ≤ limit then some (hexVal bs) else none) else none

/-- `strconv.ParseInt(s, 16, 32)`. -/
def parseHex : Bytes → Option Int
  | 43 :: r => (hexMag 2147483647 r).map Int.ofNat
  | 45 :: r => (hexMag 2147483648 r).map (fun n => - Int.ofNat n)
  | r => (hexMag 2147483647 r).map Int.ofNat

/-- content/extract/encoding.go:147-164 – `lookupCode`. -/
def lookupCode (d : Decoder) (code : Int) : Int :=
  match d.toU.get code with
  | some u => u
  | none => match d.diff.get code with
    | some u => u
    | none => match (if code < 256 then d.base.get code else none) with
      | some u => u
      | none => if code < 65536 then code else 63

/-- content/extract/encoding.go:137-144 – `has2ByteMapping`. -/
def has2Byte (d : Decoder) : Bool := d.toU.keys.any (fun c => decide (255 < c))

/-- Pieces of two bytes (the text has an even length). -/
def chunks2 : Bytes → List Bytes
  | a :: b :: r => [a, b] :: chunks2 r
  | _ => []

/-- Pieces of four bytes, the last one possibly shorter. -/
def chunks4 : Bytes → List Bytes
  | a :: b :: c :: d :: r => [a, b, c, d] :: chunks4 r
  | [] => []
  | r => [r]

/-- content/extract/encoding.go:92-102 – the hexadecimal text without brackets, spaces and line ends, padded to an even
length. -/
def hexClean (s : Bytes) : Bytes :=
  let s := if (b!"<").isPrefixOf s then s.drop 1 else s
  let s := if (b!">").isSuffixOf s then s.take (s.length - 1) else s
  let s := s.filter (fun c => c ≠ 32 ∧ c ≠ 10 ∧ c ≠ 13)
  if s.length % 2 ≠ 0 then s ++ b!"0" else s

/-- content/extract/encoding.go:114-122,127-129 – the text of one code (nothing when the digits are no number). -/
def codeText (d : Decoder) (p : Bytes) : Bytes :=
  match parseHex p with
  | some v => writeRuneI (lookupCode d v)
  | none => []

/-- content/extract/encoding.go:91-134 – `DecodeHex`. -/
def decodeHex (d : Decoder) (s : Bytes) : Bytes :=
  let h := hexClean s
  (if has2Byte d && 4 ≤ h.length then chunks4 h else chunks2 h).flatMap (codeText d)

/-! ### ToUnicode maps -/

/-- content/extract/encoding.go:170,178 – `beg\s*([\s\S]*?)\s*end` anchored: the group and the rest. -/
def reBlock (beg end_ s : Bytes) : Option (Bytes × Bytes) :=
  (reLit beg s).bind fun r =>
    let r := reSp0 r
    (index end_ r).map fun i => (((r.take i).reverse.dropWhile reSpace).reverse, r.drop (i + end_.length))

/-- `<([0-9A-Fa-f]+)>` anchored: the group and the rest. -/
def reHexTok (s : Bytes) : Option (Bytes × Bytes) :=
  (reLit b!"<" s).bind fun r =>
    if r.takeWhile isHex = [] then none else (reLit b!">" (r.dropWhile isHex)).map fun t => (r.takeWhile isHex, t)

/-- content/extract/encoding.go:188 – `<hex>\s*<hex>` anchored. -/
def rePair (s : Bytes) : Option ((Bytes × Bytes) × Bytes) :=
  (reHexTok s).bind fun a => (reHexTok (reSp0 a.2)).map fun b => ((a.1, b.1), b.2)

/-- content/extract/encoding.go:212 – `<hex>\s*<hex>\s*<hex>` anchored. -/
def reTriple (s : Bytes) : Option ((Bytes × Bytes × Bytes) × Bytes) :=
  (rePair s).bind fun a => (reHexTok (reSp0 a.2)).map fun b => ((a.1.1, a.1.2, b.1), b.2)

/-- content/extract/encoding.go:227 – `<hex>\s*<hex>\s*\[([^\]]+)\]` anchored. -/
def reRangeArr (s : Bytes) : Option ((Bytes × Bytes × Bytes) × Bytes) :=
  (rePair s).bind fun a => (reLit b!"[" (reSp0 a.2)).bind fun r =>
    if r.takeWhile (· ≠ 93) = [] then none
    else (reLit b!"]" (r.dropWhile (· ≠ 93))).map fun t => ((a.1.1, a.1.2, r.takeWhile (· ≠ 93)), t)

/-- content/extract/encoding.go:253-281 – `hexToUnicodeRunes` (of hexadecimal digits). -/
def hexRunes (h : Bytes) : List Int :=
  if h.length = 4 ∨ h.length = 2 then (parseHex h).toList
  else if 4 < h.length then (chunks4 h).filterMap parseHex
  else []

/-- content/extract/encoding.go:190-205 – one pair of a bfchar section (only the first character is kept). -/
def setChar (m : Map Int Int) (p : Bytes × Bytes) : Map Int Int :=
  match parseHex p.1 with
  | none => m
  | some c => match hexRunes p.2 with
    | [] => m
    | u :: _ => m.set c u

/-- content/extract/encoding.go:186-206 – `parseBfcharBlock`. -/
def bfchar (m : Map Int Int) (block : Bytes) : Map Int Int := (Forms.findAll rePair 0 block).foldl setChar m

/-- `rune(x)` of an int64: the low 32 bits. -/
def rune64 (x : Int) : Int := Int.bmod x 4294967296

/-- content/extract/encoding.go:221-223 – the loop of a simple range. -/
def setRange (m : Map Int Int) (lo hi dst : Int) : Map Int Int :=
  (List.range (hi - lo + 1).toNat).foldl (fun m (i : Nat) => m.set (lo + i) (rune64 (dst + i))) m

/-- content/extract/encoding.go:214-224 – one simple range. -/
def setTriple (m : Map Int Int) (p : Bytes × Bytes × Bytes) : Map Int Int :=
  match parseHex p.1, parseHex p.2.1, parseHex p.2.2 with
  | some lo, some hi, some dst => setRange m lo hi dst
  | _, _, _ => m

/-- content/extract/encoding.go:238-247 – the loop over the elements of an array. -/
def arrLoop (hi : Int) : Int → List Bytes → Map Int Int → Map Int Int
  | _, [], m => m
  | code, e :: es, m =>
    if hi < code then m
    else arrLoop hi (code + 1) es (match hexRunes e with
      | [] => m
      | u :: _ => m.set code u)

/-- content/extract/encoding.go:229-248 – one range with an array. -/
def setArr (m : Map Int Int) (p : Bytes × Bytes × Bytes) : Map Int Int :=
  match parseHex p.1, parseHex p.2.1 with
  | some lo, some hi => arrLoop hi lo (Forms.findAll reHexTok 0 p.2.2) m
  | _, _ => m

/-- content/extract/encoding.go:209-249 – `parseBfrangeBlock`. -/
def bfrange (m : Map Int Int) (block : Bytes) : Map Int Int :=
  (Forms.findAll reRangeArr 0 block).foldl setArr ((Forms.findAll reTriple 0 block).foldl setTriple m)

/-- content/extract/encoding.go:167-183 – `ParseToUnicodeCMap`. -/
def parseToUnicode (d : Decoder) (cmap : Bytes) : Decoder :=
  let m := (Forms.findAll (reBlock b!"beginbfchar" b!"endbfchar") 0 cmap).foldl bfchar d.toU
  { d with toU := (Forms.findAll (reBlock b!"beginbfrange" b!"endbfrange") 0 cmap).foldl bfrange m }

/-! ### Differences -/

/-- content/extract/encoding.go:313-334 – `glyphNameToUnicode` (0 = unknown). -/
def glyphUnicode (name : Bytes) : Int :=
  match glyphNames.get name with
  | some u => u
  | none =>
    match (if (b!"uni").isPrefixOf name ∧ name.length = 7 then parseHex (name.drop 3) else none) with
    | some v => v
    | none =>
      match (if (b!"u").isPrefixOf name ∧ (name.length = 5 ∨ name.length = 6) then parseHex (name.drop 1) else none) with
      | some v => v
      | none => 0

/-- content/extract/encoding.go:53-57 – `SetDifferences`. -/
def setDiff (m : Map Int Int) (code : Int) (name : Bytes) : Map Int Int :=
  if glyphUnicode name ≠ 0 then m.set code (glyphUnicode name) else m

/-- content/extract/encoding.go:295-309 – the loop over the tokens. -/
def diffLoop : Int → List Bytes → Map Int Int → Map Int Int
  | _, [], m => m
  | code, t :: ts, m =>
    if (b!"/").isPrefixOf t then diffLoop (code + 1) ts (setDiff m code (t.drop 1))
    else diffLoop ((atoi t).getD code) ts m

/-- content/extract/encoding.go:285-310 – `ParseDifferencesArray`. -/
def parseDifferences (d : Decoder) (s : Bytes) : Decoder :=
  let s := trimSpace s
  let s := if (b!"[").isPrefixOf s then s.drop 1 else s
  let s := if (b!"]").isSuffixOf s then s.take (s.length - 1) else s
  { d with diff := diffLoop 0 (fields s) d.diff }

/-! ### Building a decoder from the font object -/

/-- content/extract/resources.go:532-543 – the text up to the bracket that closes the first one. -/
def bracketEnd : Nat → Bytes → Option Bytes
  | _, [] => none
  | depth, c :: r =>
    if c = 91 then (bracketEnd (depth + 1) r).map (c :: ·)
    else if c = 93 then (if depth = 1 then some [c] else (bracketEnd (depth - 1) r).map (c :: ·))
    else (bracketEnd depth r).map (c :: ·)

/-- content/extract/resources.go:517-547 – `extractDifferencesArray`. -/
def differencesText (s : Bytes) : Bytes :=
  match index b!"/Differences" s with
  | none => []
  | some i => match index b!"[" (s.drop i) with
    | none => []
    | some j => ((bracketEnd 1 (s.drop (i + j + 1))).map (91 :: ·)).getD []

/-- content/extract/resources.go:562-578, content/extract/pages.go:254-266 – the bytes after the word `stream` and its line
end. -/
def afterStream (s : Bytes) : Option Bytes :=
  (index b!"stream" s).map fun i =>
    let r := s.drop (i + 6)
    let r := if r.head?.any (fun c => c == 13 || c == 10) then r.drop 1 else r
    if r.head?.any (· == 10) then r.drop 1 else r

/-- content/extract/resources.go:550-599 – `extractStreamData` of an object's text; `unz` is `parse.DecodeFlateDecode`. -/
def streamData (unz : Bytes → Option Bytes) (s : Bytes) : Bytes :=
  match afterStream s with
  | none => []
  | some r => match index b!"endstream" r with
    | none => []
    | some j => if contains s b!"/FlateDecode" then (unz (r.take j)).getD (r.take j) else r.take j

/-- content/extract/resources.go:602-616 – `isStandard14Font`. -/
def isStandard14 (name : Bytes) : Bool :=
  let n := if (b!"/").isPrefixOf name then name.drop 1 else name
  [b!"Courier", b!"Courier-Bold", b!"Courier-BoldOblique", b!"Courier-Oblique", b!"Helvetica", b!"Helvetica-Bold",
    b!"Helvetica-BoldOblique", b!"Helvetica-Oblique", b!"Times-Roman", b!"Times-Bold", b!"Times-BoldItalic", b!"Times-Italic",
    b!"Symbol", b!"ZapfDingbats"].contains n

/-- content/extract/resources.go:448-451,470-473 – apply a differences text unless it is empty. -/
def applyDiffs (d : Decoder) (s : Bytes) : Decoder := if differencesText s = [] then d else parseDifferences d (differencesText s)

/-- content/extract/resources.go:427-467 – the base encoding. -/
def baseDecoder (get : Int → Option Bytes) (font : Bytes) : Decoder :=
  let enc := xDictValue font b!"/Encoding"
  if enc ≠ [] then
    if (b!"/").isPrefixOf enc then setBase .new enc
    else match (parseObjectRef enc).bind get with
      | none => .new
      | some e =>
        applyDiffs (if xDictValue e b!"/BaseEncoding" ≠ [] then setBase .new (xDictValue e b!"/BaseEncoding") else .new) e
  else if isStandard14 (xDictValue font b!"/BaseFont") ∨ xDictValue font b!"/Subtype" = b!"/Type1" ∨
      xDictValue font b!"/Subtype" = b!"/TrueType" then setBase .new b!"StandardEncoding"
  else .new

/-- content/extract/resources.go:415-513 – `extractFontDecoder` for the text of the font object; `get` reads an object.
(The descendant font of a Type0 font is read only for messages.) -/
def fontDecoder (get : Int → Option Bytes) (unz : Bytes → Option Bytes) (font : Bytes) : Decoder :=
  let d := applyDiffs (baseDecoder get font) font
  let ref := xDictValue font b!"/ToUnicode"
  match (if ref = [] then none else parseObjectRef ref) with
  | none => d
  | some n => match get n with
    | none => d
    | some s => if streamData unz s = [] then d else parseToUnicode d (streamData unz s)

end Pdfer.Enc
