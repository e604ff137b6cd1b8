import Verif.Model.Encoding

/-! core/write/content.go (building content streams) and content/extract/content_stream.go (reading them). -/

namespace Pdfer.Content

open Pdfer.Go Pdfer.Strings Pdfer.Enc

/-- The floating-point operations the reader uses.  Simplified: numbers are of an abstract type, so nothing is claimed about
rounding. -/
structure Floats (F : Type) where
  zero : F
  one : F
  add : F → F → F
  /-- `y - size * 1.2` -/
  nextLine : F → F → F
  /-- `strconv.ParseFloat` of a text of digits, dots and minus signs (`none` = error) -/
  parse : Bytes → Option F

/-- content/extract/content_stream.go:332-343 – `textState` (the flag inText is never read). -/
structure TextState (F : Type) where
  font : Bytes
  size : F
  x : F
  y : F
  charSp : F
  wordSp : F
  rise : F
  matrix : List F
  decoder : Option Decoder

/-- types.TextElement; the estimated width is left out. -/
structure Elem (F : Type) where
  text : Bytes
  x : F
  y : F
  font : Bytes
  size : F
  charSp : F
  wordSp : F
  rise : F
  matrix : List F
  deriving DecidableEq, Repr

/-- types.Graphic: a rectangle with its corners, or a line. -/
inductive Graphic (F : Type) where
  | rect (fill stroke : List F) (lineWidth x y x' y' : F)
  | line (stroke : List F) (lineWidth : F)
  deriving DecidableEq, Repr

/-- types.ImageRef: the name and the transformation matrix (position and size are entries of it). -/
structure ImageRef (F : Type) where
  id : Bytes
  transform : List F
  deriving DecidableEq, Repr

/-- The local variables of `parseContentStreamWithDecoders`. -/
structure State (F : Type) where
  t : TextState F
  lineWidth : F
  fill : List F
  stroke : List F
  ctm : List F
  stack : List (List F)
  texts : List (Elem F)
  graphics : List (Graphic F)
  images : List (ImageRef F)

/-- content/extract/content_stream.go:19-48 – the initial values. -/
def State.init {F : Type} (fl : Floats F) : State F :=
  let id := [fl.one, fl.zero, fl.zero, fl.one, fl.zero, fl.zero]
  { t := ⟨[], fl.zero, fl.zero, fl.zero, fl.zero, fl.zero, fl.zero, id, none⟩, lineWidth := fl.one,
    fill := [fl.zero, fl.zero, fl.zero], stroke := [fl.zero, fl.zero, fl.zero], ctm := id, stack := [], texts := [], graphics := [],
    images := [] }

/-- `[\d\.\-]`. -/
def isNumC (c : UInt8) : Bool := isDigit c || c == 46 || c == 45

/-- `[/\w]`. -/
def isNameC (c : UInt8) : Bool := c == 47 || isDigit c || (65 ≤ c && c ≤ 90) || (97 ≤ c && c ≤ 122) || c == 95

/-- `([\d\.\-]+)\s+` repeated `k` times, anchored: the groups and the rest. -/
def reNums : Nat → Bytes → Option (List Bytes × Bytes)
  | 0, s => some ([], s)
  | k + 1, s =>
    if s.takeWhile isNumC = [] then none
    else (reSp1 (s.dropWhile isNumC)).bind fun r => (reNums k r).map fun p => (s.takeWhile isNumC :: p.1, p.2)

/-- `k` numbers and an operator: `^([\d\.\-]+)\s+…op`. -/
def reOp (k : Nat) (op s : Bytes) : Option (List Bytes) :=
  (reNums k s).bind fun p => (reLit op p.2).map fun _ => p.1

/-- content/extract/content_stream.go:93 – `^([/\w]+)\s+([\d\.\-]+)\s+Tf`. -/
def reFont (s : Bytes) : Option (Bytes × Bytes) :=
  if s.takeWhile isNameC = [] then none
  else (reSp1 (s.dropWhile isNameC)).bind fun r => (reNums 1 r).bind fun p => (reLit b!"Tf" p.2).map fun _ =>
    (s.takeWhile isNameC, p.1.headD [])

/-- content/extract/content_stream.go:297 – `^([/\w]+)\s+Do`. -/
def reDo (s : Bytes) : Option Bytes :=
  if s.takeWhile isNameC = [] then none
  else (reSp1 (s.dropWhile isNameC)).bind fun r => (reLit b!"Do" r).map fun _ => s.takeWhile isNameC

/-- content/extract/content_stream.go:130,147 – `^\(([^)]*)\)\s+op`. -/
def reShow (op s : Bytes) : Option Bytes :=
  (Forms.reParen s).bind fun p => (reSp1 p.2).bind fun r => (reLit op r).map fun _ => p.1

/-- content/extract/content_stream.go:138,156 – `^<([0-9A-Fa-f\s]*)>\s+op`. -/
def reShowHex (op s : Bytes) : Option Bytes :=
  (reLit b!"<" s).bind fun r => (reLit b!">" (r.dropWhile (fun c => isHex c || reSpace c))).bind fun q =>
    (reSp1 q).bind fun q => (reLit op q).map fun _ => r.takeWhile (fun c => isHex c || reSpace c)

/-- content/extract/content_stream.go:165 – `^\[([^\]]+)\]\s+TJ`. -/
def reShowArr (s : Bytes) : Option Bytes :=
  (reLit b!"[" s).bind fun r =>
    if r.takeWhile (· ≠ 93) = [] then none
    else (reLit b!"]" (r.dropWhile (· ≠ 93))).bind fun q => (reSp1 q).bind fun q => (reLit b!"TJ" q).map fun _ =>
      r.takeWhile (· ≠ 93)

/-- content/extract/content_stream.go:476-480 – one byte as a character. -/
def latinPair (p : Bytes) : Bytes :=
  match parseHex p with
  | some v => writeRuneI v
  | none => []

/-- content/extract/content_stream.go:466-483 – `decodeHexToLatin1`. -/
def hexLatin1 (s : Bytes) : Bytes :=
  let s := s.filter (fun c => c ≠ 32 ∧ c ≠ 10 ∧ c ≠ 13)
  let s := if s.length % 2 ≠ 0 then s ++ b!"0" else s
  (chunks2 s).flatMap latinPair

/-- content/extract/content_stream.go:449-463 – `decodeTextWithFont` for a literal string (already unescaped). -/
def decodeLit (d : Option Decoder) (raw : Bytes) : Bytes := match d with
  | none => raw
  | some d => decode d raw

/-- content/extract/content_stream.go:449-463 – `decodeTextWithFont` for a hexadecimal string. -/
def decodeHexText (d : Option Decoder) (raw : Bytes) : Bytes := match d with
  | none => hexLatin1 raw
  | some d => decodeHex d raw

/-- Where the scan of an array stands: between elements, in a literal string (its bytes in reverse and the depth of
parentheses), or in a hexadecimal string. -/
inductive Scan where
  | out
  | lit (acc : Bytes) (depth : Nat)
  | hex (acc : Bytes)

/-- content/extract/content_stream.go:391-443 – the loop over a TJ array.  Numbers, white space and unknown characters are
all skipped, so they are one case here. -/
def scanArr (d : Option Decoder) : Scan → Bytes → Bytes
  | _, [] => []
  | .out, c :: r => if c = 40 then scanArr d (.lit [] 1) r else if c = 60 then scanArr d (.hex []) r else scanArr d .out r
  | .lit acc depth, 92 :: e :: r => scanArr d (.lit (e :: 92 :: acc) depth) r
  | .lit acc depth, c :: r =>
    if c = 40 then scanArr d (.lit (c :: acc) (depth + 1)) r
    else if c = 41 then
      if depth = 1 then decodeLit d (unescapePDFString acc.reverse) ++ scanArr d .out r
      else scanArr d (.lit (c :: acc) (depth - 1)) r
    else scanArr d (.lit (c :: acc) depth) r
  | .hex acc, c :: r => if c = 62 then decodeHexText d acc.reverse ++ scanArr d .out r else scanArr d (.hex (c :: acc)) r

/-- content/extract/content_stream.go:379-446 – `parseTextArrayWithDecoder`. -/
def textArray (d : Option Decoder) (s : Bytes) : Bytes :=
  let s := trimSpace s
  let s := if (b!"[").isPrefixOf s then s.drop 1 else s
  let s := if (b!"]").isSuffixOf s then s.take (s.length - 1) else s
  scanArr d .out s

variable {F : Type}

/-- content/extract/content_stream.go:353-370 – `createTextElement`. -/
def element (t : TextState F) (text : Bytes) : Elem F :=
  ⟨text, t.x, t.y, t.font, t.size, t.charSp, t.wordSp, t.rise, t.matrix⟩

/-- Append a text element. -/
def State.show (st : State F) (text : Bytes) : State F := { st with texts := st.texts ++ [element st.t text] }

/-- Six numbers into an array that starts with zeros; a text that is no number leaves its zero. -/
def matrixOf (fl : Floats F) (ns : List Bytes) : List F := ns.map fun n => (fl.parse n).getD fl.zero

/-- All of the texts as numbers, if they all are. -/
def floatsOf (fl : Floats F) : List Bytes → Option (List F)
  | [] => some []
  | n :: ns => (fl.parse n).bind fun v => (floatsOf fl ns).map fun vs => v :: vs

/-- content/extract/content_stream.go:57-127 – the operators BT, ET, Td, Tm, Tf, Tc, Tw, Ts. -/
def textOps (fl : Floats F) (fonts : Option (Map Bytes Decoder)) (st : State F) (line : Bytes) : Option (State F) :=
  if (b!"BT").isPrefixOf line then some st
  else if (b!"ET").isPrefixOf line then some st
  else match reOp 2 b!"Td" line with
  | some ns => some (match floatsOf fl ns with
      | some [x, y] => { st with t := { st.t with x := fl.add st.t.x x, y := fl.add st.t.y y } }
      | _ => st)
  | none => match reOp 6 b!"Tm" line with
  | some ns =>
    let m := matrixOf fl ns
    some { st with t := { st.t with matrix := m, x := m.getD 4 fl.zero, y := m.getD 5 fl.zero } }
  | none => match reFont line with
  | some (name, size) =>
    let t := { st.t with font := name, size := (fl.parse size).getD st.t.size }
    some { st with t := match fonts with
      | some m => { t with decoder := m.get name }
      | none => t }
  | none => match reOp 1 b!"Tc" line with
  | some ns => some { st with t := { st.t with charSp := (fl.parse (ns.headD [])).getD st.t.charSp } }
  | none => match reOp 1 b!"Tw" line with
  | some ns => some { st with t := { st.t with wordSp := (fl.parse (ns.headD [])).getD st.t.wordSp } }
  | none => match reOp 1 b!"Ts" line with
  | some ns => some { st with t := { st.t with rise := (fl.parse (ns.headD [])).getD st.t.rise } }
  | none => none

/-- content/extract/content_stream.go:129-170 – the operators Tj, ' and TJ. -/
def showOps (fl : Floats F) (st : State F) (line : Bytes) : Option (State F) :=
  let down (s : State F) : State F := { s with t := { s.t with y := fl.nextLine s.t.y s.t.size } }
  match reShow b!"Tj" line with
  | some raw => some (st.show (decodeLit st.t.decoder (unescapePDFString raw)))
  | none => match reShowHex b!"Tj" line with
  | some raw => some (st.show (decodeHexText st.t.decoder raw))
  | none => match reShow b!"'" line with
  | some raw => some (down (st.show (decodeLit st.t.decoder (unescapePDFString raw))))
  | none => match reShowHex b!"'" line with
  | some raw => some (down (st.show (decodeHexText st.t.decoder raw)))
  | none => (reShowArr line).map fun raw => st.show (textArray st.t.decoder raw)

/-- content/extract/content_stream.go:172-325 – the operators re, m, l, S, f, q, Q, cm, w, rg, RG, Do. -/
def graphicsOps (fl : Floats F) (st : State F) (line : Bytes) : Option (State F) :=
  match reOp 4 b!"re" line with
  | some ns => some (match floatsOf fl ns with
      | some [x, y, w, h] =>
        { st with graphics := st.graphics ++ [.rect st.fill st.stroke st.lineWidth x y (fl.add x w) (fl.add y h)] }
      | _ => st)
  | none => match reOp 2 b!"m" line with
  | some _ => some st
  | none => match reOp 2 b!"l" line with
  | some _ => some { st with graphics := st.graphics ++ [.line st.stroke st.lineWidth] }
  | none =>
  if (b!"S").isPrefixOf line then some st
  else if (b!"f").isPrefixOf line then some st
  else if line = b!"q" then some { st with stack := st.ctm :: st.stack }
  else if line = b!"Q" then some (match st.stack with
    | m :: ms => { st with ctm := m, stack := ms }
    | [] => st)
  else match reOp 6 b!"cm" line with
  | some ns => some { st with ctm := matrixOf fl ns }
  | none => match reOp 1 b!"w" line with
  | some ns => some { st with lineWidth := (fl.parse (ns.headD [])).getD st.lineWidth }
  | none => match reOp 3 b!"rg" line with
  | some ns => some { st with fill := (floatsOf fl ns).getD st.fill }
  | none => match reOp 3 b!"RG" line with
  | some ns => some { st with stroke := (floatsOf fl ns).getD st.stroke }
  | none => (reDo line).map fun name => { st with images := st.images ++ [⟨name, st.ctm⟩] }

/-- content/extract/content_stream.go:52-326 – one line. -/
def lineStep (fl : Floats F) (fonts : Option (Map Bytes Decoder)) (st : State F) (line : Bytes) : State F :=
  let line := trimSpace line
  if line = [] then st
  else match textOps fl fonts st line with
  | some s => s
  | none => match showOps fl st line with
  | some s => s
  | none => (graphicsOps fl st line).getD st

/-- content/extract/content_stream.go:19-329 – `parseContentStreamWithDecoders`: the final state holds the three results. -/
def parseContent (fl : Floats F) (fonts : Option (Map Bytes Decoder)) (content : Bytes) : State F :=
  (split 10 content).foldl (lineStep fl fonts) (State.init fl)

/-! ### Building content streams -/

/-- An element of the array of `ShowTextArray`. -/
inductive Piece (F : Type) where
  | text (s : Bytes)
  | int (n : Int)
  | float (x : F)

/-- The calls on a `ContentStream` (core/write/content.go:33-319).  Translate, Scale and DrawImageAt are combinations of these;
Raw is left out. -/
inductive Call (F : Type) where
  | saveState
  | restoreState
  | setMatrix (a b c d e f : F)
  | fillRGB (r g b : F)
  | strokeRGB (r g b : F)
  | fillGray (g : F)
  | strokeGray (g : F)
  | moveTo (x y : F)
  | lineTo (x y : F)
  | rectangle (x y w h : F)
  | stroke
  | fill
  | fillStroke
  | closePath
  | closePathStroke
  | lineWidth (w : F)
  | beginText
  | endText
  | setFont (name : Bytes) (size : F)
  | textPosition (x y : F)
  | textMatrix (a b c d e f : F)
  | showText (s : Bytes)
  | showTextNextLine (s : Bytes)
  | showTextArray (ps : List (Piece F))
  | showTextHex (h : Bytes)
  | moveTextPosition (x y : F)
  | renderMode (m : Int)
  | leading (l : F)
  | nextLine
  | charSpacing (s : F)
  | wordSpacing (s : F)
  | rise (s : F)
  | drawImage (name : Bytes)
  | curveTo (x1 y1 x2 y2 x3 y3 : F)
  | curveToV (x2 y2 x3 y3 : F)
  | curveToY (x1 y1 x3 y3 : F)
  | lineDash (ds : List F) (phase : F)

/-- Numbers, each followed by a space. -/
def numList (fmt : F → Bytes) (xs : List F) : Bytes := xs.flatMap fun x => fmt x ++ b!" "

/-- core/write/content.go:197-205 – one element of the array. -/
def piece (fmt : F → Bytes) : Piece F → Bytes
  | .text s => b!"(" ++ escapePDFString s ++ b!")"
  | .int n => itoa n
  | .float x => fmt x

/-- core/write/content.go:190-206 – the elements separated by spaces. -/
def pieces (fmt : F → Bytes) : List (Piece F) → Bytes
  | [] => []
  | [p] => piece fmt p
  | p :: ps => piece fmt p ++ b!" " ++ pieces fmt ps

/-- core/write/content.go:299-306 – the numbers of a dash pattern, separated by spaces. -/
def dashes (fmt : F → Bytes) : List F → Bytes
  | [] => []
  | [x] => fmt x
  | x :: xs => fmt x ++ b!" " ++ dashes fmt xs

/-- core/write/content.go:33-309 – the text a call writes, without its line end; `fmt` is `%.4f`. -/
def render (fmt : F → Bytes) : Call F → Bytes
  | .saveState => b!"q"
  | .restoreState => b!"Q"
  | .setMatrix a b c d e f => numList fmt [a, b, c, d, e, f] ++ b!"cm"
  | .fillRGB r g b => numList fmt [r, g, b] ++ b!"rg"
  | .strokeRGB r g b => numList fmt [r, g, b] ++ b!"RG"
  | .fillGray g => numList fmt [g] ++ b!"g"
  | .strokeGray g => numList fmt [g] ++ b!"G"
  | .moveTo x y => numList fmt [x, y] ++ b!"m"
  | .lineTo x y => numList fmt [x, y] ++ b!"l"
  | .rectangle x y w h => numList fmt [x, y, w, h] ++ b!"re"
  | .stroke => b!"S"
  | .fill => b!"f"
  | .fillStroke => b!"B"
  | .closePath => b!"h"
  | .closePathStroke => b!"s"
  | .lineWidth w => numList fmt [w] ++ b!"w"
  | .beginText => b!"BT"
  | .endText => b!"ET"
  | .setFont name size => name ++ b!" " ++ numList fmt [size] ++ b!"Tf"
  | .textPosition x y => numList fmt [x, y] ++ b!"Td"
  | .textMatrix a b c d e f => numList fmt [a, b, c, d, e, f] ++ b!"Tm"
  | .showText s => b!"(" ++ escapePDFString s ++ b!") Tj"
  | .showTextNextLine s => b!"(" ++ escapePDFString s ++ b!") '"
  | .showTextArray ps => b!"[" ++ pieces fmt ps ++ b!"] TJ"
  | .showTextHex h => b!"<" ++ h ++ b!"> Tj"
  | .moveTextPosition x y => numList fmt [x, y] ++ b!"TD"
  | .renderMode m => itoa m ++ b!" Tr"
  | .leading l => numList fmt [l] ++ b!"TL"
  | .nextLine => b!"T*"
  | .charSpacing s => numList fmt [s] ++ b!"Tc"
  | .wordSpacing s => numList fmt [s] ++ b!"Tw"
  | .rise s => numList fmt [s] ++ b!"Ts"
  | .drawImage name => name ++ b!" Do"
  | .curveTo x1 y1 x2 y2 x3 y3 => numList fmt [x1, y1, x2, y2, x3, y3] ++ b!"c"
  | .curveToV x2 y2 x3 y3 => numList fmt [x2, y2, x3, y3] ++ b!"v"
  | .curveToY x1 y1 x3 y3 => numList fmt [x1, y1, x3, y3] ++ b!"y"
  | .lineDash ds phase => b!"[" ++ dashes fmt ds ++ b!"] " ++ numList fmt [phase] ++ b!"d"

/-- core/write/content.go:20-22 – `Bytes` after a list of calls. -/
def renderAll (fmt : F → Bytes) (cs : List (Call F)) : Bytes := cs.flatMap fun c => render fmt c ++ b!"\n"

end Pdfer.Content
