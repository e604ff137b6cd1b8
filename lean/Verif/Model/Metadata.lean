import Verif.Model.Document
import Verif.Model.Strings
import Verif.Model.Manipulate
import Verif.Model.Forms
import Verif.Model.Incremental

/-! Model of core/write/metadata.go (with the reading of dates by Go's `time.Parse`) and content/extract/metadata.go:15-120: storing metadata and
reading it back. -/

namespace Pdfer.Metadata

open Pdfer.Go Pdfer.Strings Pdfer.Writer

/-! ### Dates -/

/-- What core/write/metadata.go:155-163 asks of a `time.Time`: the local fields and the offset of its zone in seconds. -/
structure DateTime where
  year : Nat
  month : Nat
  day : Nat
  hour : Nat
  min : Nat
  sec : Nat
  offset : Int
  deriving DecidableEq, Repr

/-- Go's `time.getnum`: a number of two digits, or of one when not `fixed`. -/
def getnum (fixed : Bool) : Bytes → Option (Nat × Bytes)
  | a :: c :: s =>
    if isDigit a then
      if isDigit c then some ((a.toNat - 48) * 10 + (c.toNat - 48), s)
      else if fixed then none else some (a.toNat - 48, c :: s)
    else none
  | [a] => if isDigit a && !fixed then some (a.toNat - 48, []) else none
  | [] => none

/-- Go's `time.parse` on `2006`: four digits. -/
def getYear (s : Bytes) : Option (Nat × Bytes) :=
  if 4 ≤ s.length ∧ (s.take 4).all isDigit then some (digitsVal (s.take 4), s.drop 4) else none

/-- Go's `time.skip` on one byte of the layout that is not a space. -/
def skipByte (c : UInt8) (s : Bytes) : Option Bytes := reLit [c] s

/-- Go's `time.skip` on a space of the layout: all spaces there are. -/
def skipSpaces (s : Bytes) : Option Bytes :=
  match s with
  | [] => some []
  | c :: _ => if c = 32 then some (s.dropWhile (· = 32)) else none

/-- Go's `time.parse`, after the seconds: a fraction that the layout does not have is passed over. -/
def skipFraction (s : Bytes) : Bytes :=
  match s with
  | c :: d :: r => if (c = 46 ∨ c = 44) ∧ isDigit d then r.dropWhile isDigit else s
  | _ => s

/-- Go's `time.parse` on `2006-01-02`. -/
def getDay (s : Bytes) : Option ((Nat × Nat × Nat) × Bytes) :=
  (getYear s).bind fun (y, s) => (skipByte 45 s).bind fun s =>
  (getnum true s).bind fun (mo, s) => if mo = 0 ∨ 12 < mo then none else (skipByte 45 s).bind fun s =>
  (getnum true s).map fun (d, s) => ((y, mo, d), s)

/-- Go's `time.parse` on `15:04:05`: the hour may have one digit. -/
def getClock (s : Bytes) : Option ((Nat × Nat × Nat) × Bytes) :=
  (getnum false s).bind fun (h, s) => if 24 ≤ h then none else (skipByte 58 s).bind fun s =>
  (getnum true s).bind fun (m, s) => if 60 ≤ m then none else (skipByte 58 s).bind fun s =>
  (getnum true s).bind fun (x, s) => if 60 ≤ x then none else some ((h, m, x), skipFraction s)

/-- Go's `time.parse` on `Z07:00`: the letter Z, or a sign, two digits, a colon and two digits. -/
def getZone (s : Bytes) : Option (Int × Bytes) :=
  match s with
  | 90 :: s => some (0, s)
  | sign :: a :: c :: 58 :: d :: e :: s =>
    (getnum true [a, c]).bind fun (hr, _) => (getnum true [d, e]).bind fun (mm, _) =>
    if 24 < hr ∨ 60 < mm then none
    else if sign = 43 then some (((hr * 60 + mm) * 60 : Nat), s)
    else if sign = 45 then some (-((hr * 60 + mm) * 60 : Nat), s)
    else none
  | _ => none

/-- Go's `time.daysIn`. -/
def daysIn (month year : Nat) : Nat :=
  if month = 2 then (if year % 4 = 0 ∧ (year % 100 ≠ 0 ∨ year % 400 = 0) then 29 else 28)
  else if month = 4 ∨ month = 6 ∨ month = 9 ∨ month = 11 then 30 else 31

/-- Go's `time.parse`, the end: nothing may be left, and the day must exist in its month. -/
def endDate (d c : Nat × Nat × Nat) (off : Int) (s : Bytes) : Option DateTime :=
  if s ≠ [] then none
  else if d.2.2 < 1 ∨ daysIn d.2.1 d.1 < d.2.2 then none
  else some ⟨d.1, d.2.1, d.2.2, c.1, c.2.1, c.2.2, off⟩

/-- core/write/metadata.go:135-141 – the layouts `2006-01-02T15:04:05Z07:00` (twice), `2006-01-02T15:04:05`, `2006-01-02 15:04:05` and
`2006-01-02`; core/write/metadata.go:143-148 – the first that fits (the fast path for RFC 3339 gives the same as the general one). -/
def parseDate (s : Bytes) : Option DateTime :=
  (getDay s).bind fun (d, s) =>
  ((skipByte 84 s).bind fun s => (getClock s).bind fun (c, s) => (getZone s).bind fun (z, s) => endDate d c z s).or
  (((skipByte 84 s).bind fun s => (getClock s).bind fun (c, s) => endDate d c 0 s).or
  (((skipSpaces s).bind fun s => (getClock s).bind fun (c, s) => endDate d c 0 s).or
   (endDate d (0, 0, 0) 0 s)))

/-- `%02d` of a whole number: at least two characters, counting the sign. -/
def pad2 (n : Int) : Bytes := if n < 0 then b!"-" ++ padDec 1 n.natAbs else padDec 2 n.natAbs

/-- core/write/metadata.go:166-175 – the zone; Go's `/` and `%` round towards zero. -/
def zoneText (offset : Int) : Bytes :=
  let hours := offset.tdiv 3600
  let mins := (offset.tmod 3600).tdiv 60
  if hours ≥ 0 then b!"+" ++ pad2 hours ++ b!"'" ++ pad2 mins
  else b!"-" ++ pad2 (-hours) ++ b!"'" ++ pad2 (-mins)

/-- core/write/metadata.go:154-178 – the date as text. -/
def dateText (t : DateTime) : Bytes :=
  b!"D:" ++ padDec 4 t.year ++ padDec 2 t.month ++ padDec 2 t.day ++ padDec 2 t.hour ++ padDec 2 t.min ++ padDec 2 t.sec ++ zoneText t.offset

/-- core/write/metadata.go:131-178 – a date that is not in PDF format: read, or else the current time `now`. -/
def normDate (now : DateTime) (s : Bytes) : Bytes := dateText ((parseDate s).getD now)

/-! ### Storing -/

/-- core/write/metadata.go:13-68 – `SetMetadata` (not nil); `now` is the current time, `nowText` the same in RFC 3339. -/
def setMetadata (now : DateTime) (nowText : Bytes) (w : Writer) (m : Strings.Metadata) : Writer × Int :=
  let r := addObject w (some (infoText (normDate now) nowText m))
  ({ r.1 with infoRef := ref r.2 }, r.2)

/-- ASCII lower case (`strings.ToLower` on ASCII text; outside ASCII it also takes the Kelvin sign to k, which is not modelled). -/
def lower (s : Bytes) : Bytes := s.map fun c => if 65 ≤ c && c ≤ 90 then c + 32 else c

/-- core/write/metadata.go:76-98, :189-209 – one field. -/
def putField (m : Strings.Metadata) (key value : Bytes) : Strings.Metadata :=
  let k := lower key
  if k = b!"title" then { m with title := value }
  else if k = b!"author" then { m with author := value }
  else if k = b!"subject" then { m with subject := value }
  else if k = b!"keywords" then { m with keywords := value }
  else if k = b!"creator" then { m with creator := value }
  else if k = b!"producer" then { m with producer := value }
  else if k = b!"creationdate" ∨ k = b!"creation_date" then { m with creationDate := value }
  else if k = b!"moddate" ∨ k = b!"mod_date" then { m with modDate := value }
  else { m with custom := m.custom.set key value }

/-- core/write/metadata.go:184-213 – `NewMetadataFromFields`, the entries in the order in which Go walks the map. -/
def fromFields (fields : List (Bytes × Bytes)) : Strings.Metadata := fields.foldl (fun m e => putField m e.1 e.2) {}

/-- core/write/metadata.go:71-101 – `SetMetadataFields`. -/
def setMetadataFields (now : DateTime) (nowText : Bytes) (w : Writer) (fields : List (Bytes × Bytes)) : Writer × Int :=
  setMetadata now nowText w (fromFields fields)

/-! ### Reading -/

/-- `[A-Za-z0-9_]`. -/
def isWord (c : UInt8) : Bool := (65 ≤ c && c ≤ 90) || (97 ≤ c && c ≤ 122) || isDigit c || c = 95

/-- content/extract/metadata.go:94 – `/([A-Za-z0-9_]+)\s*\(([^)]*)\)`, anchored: the groups and the rest. -/
def reCustom (s : Bytes) : Option ((Bytes × Bytes) × Bytes) :=
  (reLit b!"/" s).bind fun s =>
    if s.takeWhile isWord = [] then none
    else (Forms.reParen (reSp0 (s.dropWhile isWord))).map fun g => ((s.takeWhile isWord, g.1), g.2)

/-- content/extract/metadata.go:95-104 – the names that are no custom fields. -/
def standardNames : List Bytes :=
  [b!"Title", b!"Author", b!"Subject", b!"Keywords", b!"Creator", b!"Producer", b!"CreationDate", b!"ModDate"]

/-- content/extract/metadata.go:106-119 – the custom fields. -/
def readCustom (s : Bytes) : Map Bytes Bytes :=
  (Forms.findAll reCustom 0 s).foldl (fun m e => if e.1 ∈ standardNames then m else m.set e.1 (unescapePDFString e.2)) []

/-- content/extract/metadata.go:57-120 – `parseInfoDict` on empty metadata (each expression sets its own field, so the order in which Go walks
the map of expressions does not matter). -/
def parseInfo (s : Bytes) : Strings.Metadata :=
  let get (key : Bytes) := (readInfo key s).getD []
  { title := get b!"/Title", author := get b!"/Author", subject := get b!"/Subject", keywords := get b!"/Keywords", creator := get b!"/Creator",
    producer := get b!"/Producer", creationDate := get b!"/CreationDate", modDate := get b!"/ModDate", custom := readCustom s }

/-- types.DocumentMetadata as content/extract/metadata.go:15-42 fills it. -/
structure Extracted where
  version : Bytes
  pageCount : Nat
  encrypted : Bool
  info : Strings.Metadata

/-- content/extract/metadata.go:15-42 – `ExtractMetadata`; core/parse/api.go:240-250 – `Version`, :262-264 – `ObjectCount`.  The search in the raw
bytes (content/extract/metadata.go:124-127) does nothing. -/
def extractMetadata (env : Incremental.Env) (pdf : Incremental.Pdf) : Res Extracted :=
  let base (i : Strings.Metadata) : Extracted :=
    ⟨match Document.parseHeader pdf.raw with | some h => h.version | none => b!"unknown", pdf.refs.length, pdf.crypt.isSome, i⟩
  match Manipulate.parseObjectRef pdf.info with
  | none => .ok (base {})
  | some n => match Incremental.getObject env pdf n with
    | .ok t => .ok (base (parseInfo t))
    | .err => .ok (base {})
    | .panic => .panic

end Pdfer.Metadata
