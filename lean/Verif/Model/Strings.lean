import Verif.Model.Writer

/-! Model of the string and name escaping in core/write/content.go, core/write/metadata.go,
forms/acroform/replace.go, forms/acroform/writer.go and resources/font/pdf.go, of the unescaping in
content/extract/metadata.go, and of writing and reading the Info dictionary. -/

namespace Pdfer.Strings

open Pdfer.Go

/-! ### Go strings as sequences of runes -/

/-- A continuation byte 10xxxxxx. -/
def isCont (b : UInt8) : Bool := 0x80 ≤ b && b ≤ 0xBF

/-- Range of the second byte after the first byte `b` (package unicode/utf8, `acceptRanges`). -/
def secondOk (b c : UInt8) : Bool :=
  if b == 0xE0 then 0xA0 ≤ c && c ≤ 0xBF
  else if b == 0xED then 0x80 ≤ c && c ≤ 0x9F
  else if b == 0xF0 then 0x90 ≤ c && c ≤ 0xBF
  else if b == 0xF4 then 0x80 ≤ c && c ≤ 0x8F
  else isCont c

/-- `utf8.DecodeRuneInString`: the code point and the number of bytes; (U+FFFD, 1) on malformed input. -/
def decodeRune (b : UInt8) (rest : Bytes) : Nat × Nat :=
  if b < 0x80 then (b.toNat, 1)
  else if 0xC2 ≤ b && b ≤ 0xDF then
    match rest with
    | c :: _ => if isCont c then ((b.toNat - 0xC0) * 64 + (c.toNat - 0x80), 2) else (0xFFFD, 1)
    | [] => (0xFFFD, 1)
  else if 0xE0 ≤ b && b ≤ 0xEF then
    match rest with
    | c :: d :: _ =>
      if secondOk b c && isCont d then
        ((b.toNat - 0xE0) * 4096 + (c.toNat - 0x80) * 64 + (d.toNat - 0x80), 3)
      else (0xFFFD, 1)
    | _ => (0xFFFD, 1)
  else if 0xF0 ≤ b && b ≤ 0xF4 then
    match rest with
    | c :: d :: e :: _ =>
      if secondOk b c && isCont d && isCont e then
        ((b.toNat - 0xF0) * 262144 + (c.toNat - 0x80) * 4096 + (d.toNat - 0x80) * 64 + (e.toNat - 0x80), 4)
      else (0xFFFD, 1)
    | _ => (0xFFFD, 1)
  else (0xFFFD, 1)

/-- `for _, r := range s`: the runes of a string; `skip` counts the remaining bytes of the current rune. -/
def runesFrom : Nat → Bytes → List Nat
  | _, [] => []
  | k + 1, _ :: s => runesFrom k s
  | 0, b :: s => (decodeRune b s).1 :: runesFrom ((decodeRune b s).2 - 1) s

/-- `for _, r := range s`. -/
def runes (s : Bytes) : List Nat := runesFrom 0 s

/-- `Buffer.WriteRune`: UTF-8, surrogates and values above U+10FFFF as U+FFFD. -/
def writeRune (r : Nat) : Bytes :=
  if r < 0x80 then [UInt8.ofNat r]
  else if r < 0x800 then [UInt8.ofNat (0xC0 + r / 64), UInt8.ofNat (0x80 + r % 64)]
  else if (0xD800 ≤ r ∧ r < 0xE000) ∨ 0x10FFFF < r then [0xEF, 0xBF, 0xBD]
  else if r < 0x10000 then
    [UInt8.ofNat (0xE0 + r / 4096), UInt8.ofNat (0x80 + r / 64 % 64), UInt8.ofNat (0x80 + r % 64)]
  else [UInt8.ofNat (0xF0 + r / 262144), UInt8.ofNat (0x80 + r / 4096 % 64), UInt8.ofNat (0x80 + r / 64 % 64),
    UInt8.ofNat (0x80 + r % 64)]

/-- Octal digits, at least one (fuel: at least the number of digits). -/
def octAux : Nat → Nat → Bytes
  | 0, n => [digit (n % 8)]
  | f + 1, n => if n < 8 then [digit n] else octAux f (n / 8) ++ [digit (n % 8)]

/-- `%03o`. -/
def oct3 (n : Nat) : Bytes := List.replicate (3 - (octAux n n).length) 48 ++ octAux n n

/-- Hexadecimal digits, upper case, at least one. -/
def hexAux : Nat → Nat → Bytes
  | 0, n => [hexUp (n % 16)]
  | f + 1, n => if n < 16 then [hexUp n] else hexAux f (n / 16) ++ [hexUp (n % 16)]

/-- `%02X`. -/
def hex2 (n : Nat) : Bytes := List.replicate (2 - (hexAux n n).length) 48 ++ hexAux n n

/-! ### Escaping -/

/-- core/write/content.go:329-343 – one rune of `escapePDFString`. -/
def escRune (r : Nat) : Bytes :=
  if r = 40 then b!"\\(" else if r = 41 then b!"\\)" else if r = 92 then b!"\\\\"
  else if r = 10 then b!"\\n" else if r = 13 then b!"\\r" else if r = 9 then b!"\\t"
  else writeRune r

/-- core/write/content.go:325-346 – `escapePDFString`. -/
def escapePDFString (s : Bytes) : Bytes := (runes s).flatMap escRune

/-- `strings.ReplaceAll` for a non-empty pattern; `skip` counts the bytes of the current match still to be
dropped. -/
def replaceFrom (pat rep : Bytes) : Nat → Bytes → Bytes
  | _, [] => []
  | k + 1, _ :: s => replaceFrom pat rep k s
  | 0, c :: s =>
    if pat.isPrefixOf (c :: s) then rep ++ replaceFrom pat rep (pat.length - 1) s
    else c :: replaceFrom pat rep 0 s

/-- `strings.ReplaceAll(s, pat, rep)`. -/
def replaceAll (s pat rep : Bytes) : Bytes := replaceFrom pat rep 0 s

/-- core/write/metadata.go:104-113 – `escapePDFStringForMetadata`. -/
def escapeMeta (s : Bytes) : Bytes :=
  let s := replaceAll s b!"\\" b!"\\\\"
  let s := replaceAll s b!"(" b!"\\("
  let s := replaceAll s b!")" b!"\\)"
  let s := replaceAll s b!"\r" b!"\\r"
  let s := replaceAll s b!"\n" b!"\\n"
  replaceAll s b!"\t" b!"\\t"

/-- forms/acroform/replace.go:117-136, forms/acroform/writer.go:258-277 and
resources/font/pdf.go:271-290 – one rune; the three switch statements are the same. -/
def escRuneOct (r : Nat) : Bytes :=
  if r = 92 then b!"\\\\" else if r = 40 then b!"\\(" else if r = 41 then b!"\\)"
  else if r = 10 then b!"\\n" else if r = 13 then b!"\\r" else if r = 9 then b!"\\t"
  else if 127 < r then b!"\\" ++ oct3 r
  else writeRune r

/-- forms/acroform/replace.go:114-139 – `escapeFieldValue`; forms/acroform/writer.go:255-280 –
`escapeFieldValueForWriter`; resources/font/pdf.go:268-293 – `escapeString`. -/
def escapeFieldValue (s : Bytes) : Bytes := (runes s).flatMap escRuneOct

/-- resources/font/pdf.go:256-262 – one rune of `escapeName`. -/
def escNameRune (r : Nat) : Bytes :=
  if r = 32 ∨ r = 35 ∨ r = 47 ∨ r = 40 ∨ r = 41 ∨ r = 60 ∨ r = 62 ∨ r = 91 ∨ r = 93 ∨ r = 123 ∨ r = 125 ∨ r = 37 then
    b!"#" ++ hex2 r
  else if 127 < r then b!"#" ++ hex2 r
  else writeRune r

/-- resources/font/pdf.go:253-265 – `escapeName`. -/
def escapeName (s : Bytes) : Bytes := (runes s).flatMap escNameRune

/-! ### Unescaping -/

/-- content/extract/metadata.go:130-139 – `unescapePDFString`. -/
def unescapePDFString (s : Bytes) : Bytes :=
  let s := replaceAll s b!"\\n" b!"\n"
  let s := replaceAll s b!"\\r" b!"\r"
  let s := replaceAll s b!"\\t" b!"\t"
  let s := replaceAll s b!"\\(" b!"("
  let s := replaceAll s b!"\\)" b!")"
  replaceAll s b!"\\\\" b!"\\"

/-! ### The Info dictionary -/

/-- types.DocumentMetadata, the fields core/write/metadata.go uses. -/
structure Metadata where
  title : Bytes := []
  author : Bytes := []
  subject : Bytes := []
  keywords : Bytes := []
  creator : Bytes := []
  producer : Bytes := []
  creationDate : Bytes := []
  modDate : Bytes := []
  custom : Map Bytes Bytes := []

/-- core/write/metadata.go:118-181 – `formatPDFDate`; `norm` stands for parsing the date (or taking the
current time) and printing its fields. -/
def formatPDFDate (norm : Bytes → Bytes) (d : Bytes) : Bytes :=
  if d = [] then []
  else if (b!"D:").isPrefixOf d then escapePDFString d
  else escapeMeta (norm d)

/-- `if v != "" { dict[key] = escapePDFStringForMetadata(v) }`. -/
def putText (key v : Bytes) (d : Writer.Dict) : Writer.Dict :=
  if v = [] then d else d.set key (.str (escapeMeta v))

/-- `if v != "" { dict[key] = formatPDFDate(v) }`. -/
def putDate (norm : Bytes → Bytes) (key v : Bytes) (d : Writer.Dict) : Writer.Dict :=
  if v = [] then d else d.set key (.str (formatPDFDate norm v))

/-- core/write/metadata.go:51-60 – the custom fields (in some map order). -/
def putCustom (cs : List (Bytes × Bytes)) (d : Writer.Dict) : Writer.Dict :=
  cs.foldl (fun d e => if e.1 ≠ [] ∧ e.2 ≠ [] then d.set (Writer.slashKey e.1) (.str (escapeMeta e.2)) else d) d

/-- core/write/metadata.go:18-60 – the dictionary `SetMetadata` builds; `now` is `time.Now()` as text. -/
def infoDict (norm : Bytes → Bytes) (now : Bytes) (m : Metadata) : Writer.Dict :=
  let d : Writer.Dict := []
  let d := putText b!"/Title" m.title d
  let d := putText b!"/Author" m.author d
  let d := putText b!"/Subject" m.subject d
  let d := putText b!"/Keywords" m.keywords d
  let d := putText b!"/Creator" m.creator d
  let d := putText b!"/Producer" m.producer d
  let d := putDate norm b!"/CreationDate" m.creationDate d
  let d := putDate norm b!"/ModDate" m.modDate d
  let d := if m.modDate = [] then d.set b!"/ModDate" (.str (formatPDFDate norm now)) else d
  putCustom m.custom d

/-- core/write/metadata.go:62-63 – the text of the Info object `SetMetadata` adds. -/
def infoText (norm : Bytes → Bytes) (now : Bytes) (m : Metadata) : Bytes :=
  Writer.formatDictionary (infoDict norm now m)

/-- content/extract/metadata.go:60-67 – the regular expression `/Key\s*\(([^)]*)\)`, anchored: the group. -/
def reInfo (key s : Bytes) : Option Bytes :=
  (reLit key s).bind (fun r => (reLit b!"(" (reSp0 r)).bind (fun r =>
    if (41 : UInt8) ∈ r then some (r.takeWhile (· ≠ 41)) else none))

/-- content/extract/metadata.go:82-90 – the value `parseInfoDict` assigns to the field with this key
(`none`: the field is left as it was). -/
def readInfo (key s : Bytes) : Option Bytes := (searchWith (reInfo key) s).map unescapePDFString

end Pdfer.Strings
