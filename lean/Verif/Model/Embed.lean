import Verif.Model.Font

/-! resources/font/pdf.go: the objects written for an embedded font, and core/write/page.go `AddEmbeddedFont`, which hands the
document's writer to it. -/

namespace Pdfer.Embed

open Pdfer.Go Pdfer.Strings Pdfer.Font Pdfer.Writer

/-- What is not modelled: the writer's parameters, the steps given to the loops over the character map, the orders in which Go visits
its maps, MD5 and the text of the italic angle (a float32, `%.4f`). -/
structure FEnv where
  wenv : Writer.Env
  fuel : Nat
  order : List Nat → List Nat
  visit : Map Int Nat → List (Int × Nat)
  md5 : Bytes → Bytes
  angle : TTF → Bytes

/-- resources/font/font.go:14-22 – `Font`, the fields that matter here. -/
structure FontFace where
  data : Bytes
  subset : List Int
  fontID : Bytes

/-- resources/font/pdf.go:13-20 – `FontObjects`. -/
structure FontObjects where
  fontDict : Int
  descriptor : Int
  fontFile : Int
  toUnicode : Int
  resource : Bytes
  subsetPrefix : Bytes
deriving DecidableEq, Repr

/-- One byte as two lower-case digits (`hex.EncodeToString`). -/
def hexLow (b : UInt8) : Bytes :=
  [b / 16, b % 16].map fun d => if d < 10 then 48 + d else 87 + d

/-- resources/font/pdf.go:31-35 – the identification of the font and the prefix made of it. -/
def fontIdOf (env : FEnv) (f : FontFace) (t : TTF) : Bytes :=
  if f.fontID = [] then ((env.md5 t.fontName).take 6).flatMap hexLow else f.fontID

/-- resources/font/pdf.go:128-157 – `createFontDescriptor`. -/
def descriptorText (env : FEnv) (t : TTF) (fileNum : Int) : Bytes :=
  b!"<<\n/Type /FontDescriptor\n/FontName /" ++ escapeName t.fontName ++ b!"\n/FontFamily (" ++ escapeFieldValue t.names.family ++
    b!")\n/Flags " ++ natDec (fontFlags t) ++ b!"\n/FontBBox [-100 -100 " ++ natDec (t.unitsPerEm + 100) ++ b!" " ++
    natDec (t.unitsPerEm + 100) ++ b!"]\n/ItalicAngle " ++ env.angle t ++ b!"\n/Ascent " ++ itoa t.ascent ++ b!"\n/Descent " ++
    itoa t.descent ++ b!"\n/CapHeight " ++ itoa t.capHeight ++ b!"\n/StemV 80\n/FontFile2 " ++ itoa fileNum ++ b!" 0 R\n>>"

/-- resources/font/pdf.go:56-59 – the dictionary of the font file (the keys already have their slash). -/
def fileDict (data : Bytes) : Dict := [(b!"/Length1", .int data.length), (b!"/Length", .int data.length)]

/-- resources/font/pdf.go:68-76 – the dictionary of the ToUnicode map.  The value of /CIDSystemInfo is a `map[string]interface{}`, not a
`Dictionary`, so `formatValue` (core/write/writer.go:476-477) prints it with `%v`. -/
def cmapDict : Dict :=
  [(b!"/Type", .str b!"/CMap"), (b!"/CMapName", .str b!"/Adobe-Identity-UCS"),
    (b!"/CIDSystemInfo", .other b!"map[/Ordering:(UCS) /Registry:(Adobe) /Supplement:0]")]

/-- resources/font/pdf.go:160-212 – `createToUnicodeCMapData` (an unreadable character map: a stub). -/
def toUnicodeText (env : FEnv) (data : Bytes) (glyphs : List Nat) : Option (Res Bytes) :=
  (glyphMap env.fuel (exact data)).map fun r => match r with
    | .ok gm => .ok (toUnicodeData env.visit gm glyphs)
    | .err => .ok b!"<<\n/Type /CMap\n>>"
    | .panic => .panic

/-- resources/font/pdf.go:54-99 – the four objects, once the font is read. -/
def addObjects (env : FEnv) (w : Writer) (f : FontFace) (t : TTF) (glyphs widths : List Nat) (cmap : Bytes) : Writer × FontObjects :=
  let file := addStreamObject env.wenv w (.fresh (fileDict f.data)) (some f.data) true
  let desc := addObject file.1 (some (descriptorText env t file.2))
  let tou := addStreamObject env.wenv desc.1 (.fresh cmapDict) (some cmap) false
  let dict := addObject tou.1 (some (fontDict t.fontName (fontIdOf env f t ++ b!"+") desc.2 tou.2 glyphs widths))
  (dict.1, { fontDict := dict.2, descriptor := desc.2, fontFile := file.2, toUnicode := tou.2,
             resource := b!"F" ++ itoa dict.1.nextObjNum, subsetPrefix := fontIdOf env f t ++ b!"+" })

/-- resources/font/pdf.go:24-99 – `ToPDFObjects` (`none`: it does not return within the steps). -/
def toPDFObjects (env : FEnv) (w : Writer) (f : FontFace) : Option (Res (Writer × FontObjects)) :=
  match parseTTF (exact f.data) with
  | .err => some .err
  | .panic => some .panic
  | .ok t =>
    (subsetGlyphs env.fuel env.order (exact f.data) f.subset).bind fun rg =>
    (getWidths env.fuel env.order (exact f.data) f.subset).bind fun rw =>
    match rg with
    | .err => some .err
    | .panic => some .panic
    | .ok glyphs => match rw with
      | .err => some .err
      | .panic => some .panic
      | .ok widths => (toUnicodeText env f.data glyphs).map fun rc => rc.bind fun cmap =>
          .ok (addObjects env w f t glyphs widths cmap)

end Pdfer.Embed
