import Verif.Model.Content
import Verif.Spec.Encoding
import Verif.Spec.Strings

/-! What a page shows, from the calls that build its content (ISO 32000, 8.4, 8.5, 9.3, 9.4), without any text form. -/

namespace Pdfer.Spec.Content

open Pdfer.Go Pdfer.Enc Pdfer.Content

/-- Arithmetic of the coordinates: the numbers, matrix multiplication (matrices are lists of six numbers), and the value that
remains of a number when it is written with four decimals. -/
structure Arith (F : Type) where
  zero : F
  one : F
  add : F → F → F
  sub : F → F → F
  mul : List F → List F → List F
  val : F → F

variable {F : Type}

/-- The unit matrix, and a translation. -/
def Arith.unit (A : Arith F) : List F := [A.one, A.zero, A.zero, A.one, A.zero, A.zero]
def Arith.shift (A : Arith F) (x y : F) : List F := [A.one, A.zero, A.zero, A.one, x, y]

/-- The laws of matrix multiplication that are used. -/
structure Arith.Laws (A : Arith F) : Prop where
  unit : ∀ m, m.length = 6 → A.mul m A.unit = m
  shift : ∀ x y e f, A.mul (A.shift x y) (A.shift e f) = A.shift (A.add e x) (A.add f y)

/-- The text part of the graphics state. -/
structure TextPar (F : Type) where
  font : Bytes
  size : F
  charSp : F
  wordSp : F
  rise : F
  deriving DecidableEq

/-- The painting part of the graphics state. -/
structure Paint (F : Type) where
  fill : List F
  stroke : List F
  lineWidth : F
  deriving DecidableEq

/-- The graphics state. -/
structure GState (F : Type) where
  text : TextPar F
  paint : Paint F
  ctm : List F
  leading : F

/-- A text that is shown, and where. -/
structure Shown (F : Type) where
  text : Bytes
  par : TextPar F
  x : F
  y : F

/-- A rectangle (two corners) or a line, and how it is painted. -/
inductive Shape (F : Type) where
  | rect (p : Paint F) (x y x' y' : F)
  | line (stroke : List F) (lineWidth : F)
  deriving DecidableEq

/-- What the page shows so far, and the state of drawing. -/
structure Page (F : Type) where
  gs : GState F
  stack : List (GState F)
  tlm : List F
  shown : List (Shown F)
  shapes : List (Shape F)
  images : List (Bytes × List F)

/-- The start of a page. -/
def Page.init (A : Arith F) : Page F :=
  { gs := ⟨⟨[], A.zero, A.zero, A.zero, A.zero⟩, ⟨[A.zero, A.zero, A.zero], [A.zero, A.zero, A.zero], A.one⟩, A.unit, A.zero⟩,
    stack := [], tlm := A.unit, shown := [], shapes := [], images := [] }

/-- Change the text parameters, or the painting. -/
def Page.setText (p : Page F) (f : TextPar F → TextPar F) : Page F := { p with gs := { p.gs with text := f p.gs.text } }
def Page.setPaint (p : Page F) (f : Paint F → Paint F) : Page F := { p with gs := { p.gs with paint := f p.gs.paint } }

/-- What is known about the current font. -/
def fontOf (fonts : Option (Map Bytes Decoder)) (p : Page F) : Option Decoder :=
  if p.gs.text.font = [] then none else fonts.bind fun m => m.get p.gs.text.font

/-- The text of a string's bytes in the current font: as the font says, or the bytes when nothing is known about the font. -/
def readLit (fonts : Option (Map Bytes Decoder)) (p : Page F) (s : Bytes) : Bytes :=
  match fontOf fonts p with
  | none => s
  | some d => decode d s

/-- The same for a hexadecimal string. -/
def readHex (fonts : Option (Map Bytes Decoder)) (p : Page F) (h : Bytes) : Bytes :=
  match fontOf fonts p with
  | none => Enc.utf8 (((Enc.hexBytes h).getD []).map fun b => (b.toNat : Int))
  | some d => decodeHex d h

/-- Show a text at the start of the line. -/
def Page.show (A : Arith F) (p : Page F) (s : Bytes) : Page F :=
  { p with shown := p.shown ++ [⟨s, p.gs.text, p.tlm.getD 4 A.zero, p.tlm.getD 5 A.zero⟩] }

/-- Move the start of the line. -/
def Page.move (A : Arith F) (p : Page F) (x y : F) : Page F := { p with tlm := A.mul (A.shift x y) p.tlm }

/-- The strings of the elements of a TJ array. -/
def pieceText (fonts : Option (Map Bytes Decoder)) (p : Page F) : Piece F → Bytes
  | .text s => readLit fonts p s
  | _ => []

/-- The effect of a call. -/
def exec (A : Arith F) (fonts : Option (Map Bytes Decoder)) (p : Page F) : Call F → Page F
  | .saveState => { p with stack := p.gs :: p.stack }
  | .restoreState => match p.stack with
    | [] => p
    | g :: gs => { p with gs := g, stack := gs }
  | .setMatrix a b c d e f =>
    { p with gs := { p.gs with ctm := A.mul [A.val a, A.val b, A.val c, A.val d, A.val e, A.val f] p.gs.ctm } }
  | .fillRGB r g b => p.setPaint fun s => { s with fill := [A.val r, A.val g, A.val b] }
  | .strokeRGB r g b => p.setPaint fun s => { s with stroke := [A.val r, A.val g, A.val b] }
  | .fillGray g => p.setPaint fun s => { s with fill := [A.val g, A.val g, A.val g] }
  | .strokeGray g => p.setPaint fun s => { s with stroke := [A.val g, A.val g, A.val g] }
  | .lineWidth w => p.setPaint fun s => { s with lineWidth := A.val w }
  | .rectangle x y w h =>
    { p with shapes := p.shapes ++ [.rect p.gs.paint (A.val x) (A.val y) (A.add (A.val x) (A.val w)) (A.add (A.val y) (A.val h))] }
  | .lineTo _ _ => { p with shapes := p.shapes ++ [.line p.gs.paint.stroke p.gs.paint.lineWidth] }
  | .beginText => { p with tlm := A.unit }
  | .setFont name size => p.setText fun t => { t with font := name, size := A.val size }
  | .charSpacing s => p.setText fun t => { t with charSp := A.val s }
  | .wordSpacing s => p.setText fun t => { t with wordSp := A.val s }
  | .rise s => p.setText fun t => { t with rise := A.val s }
  | .leading l => { p with gs := { p.gs with leading := A.val l } }
  | .textPosition x y => p.move A (A.val x) (A.val y)
  | .moveTextPosition x y =>
    ({ p with gs := { p.gs with leading := A.sub A.zero (A.val y) } } : Page F).move A (A.val x) (A.val y)
  | .nextLine => p.move A A.zero (A.sub A.zero p.gs.leading)
  | .textMatrix a b c d e f => { p with tlm := [A.val a, A.val b, A.val c, A.val d, A.val e, A.val f] }
  | .showText s => p.show A (readLit fonts p s)
  | .showTextHex h => p.show A (readHex fonts p h)
  | .showTextArray ps => p.show A (ps.flatMap (pieceText fonts p))
  | .showTextNextLine s => (p.move A A.zero (A.sub A.zero p.gs.leading)).show A (readLit fonts p s)
  | .drawImage name => { p with images := p.images ++ [(name, p.gs.ctm)] }
  | _ => p

/-- What the page shows after the calls. -/
def pageOf (A : Arith F) (fonts : Option (Map Bytes Decoder)) (cs : List (Call F)) : Page F :=
  cs.foldl (exec A fonts) (Page.init A)

/-! ### Calls that are read back -/

/-- A resource name: a slash and letters, digits or underscores. -/
def NameOK (n : Bytes) : Prop := ∃ w, n = 47 :: w ∧ w ≠ [] ∧
  ∀ c ∈ w, (48 ≤ c ∧ c ≤ 57) ∨ (65 ≤ c ∧ c ≤ 90) ∨ (97 ≤ c ∧ c ≤ 122) ∨ c = 95

/-- A text in UTF-8 without a backslash followed by n, r or t. -/
def TextOK (s : Bytes) : Prop := (∃ t : List Char, s = utf8 t) ∧ ∀ u x v, s = u ++ 92 :: x :: v → x ≠ 110 ∧ x ≠ 114 ∧ x ≠ 116

/-- The arguments of a call: names as above, no closing parenthesis in shown texts, no closing bracket in the texts of a TJ array
(which is not empty), and hexadecimal strings on one line. -/
def CallOK : Call F → Prop
  | .setFont n _ => NameOK n
  | .drawImage n => NameOK n
  | .showText s => TextOK s ∧ (41 : UInt8) ∉ s
  | .showTextNextLine s => TextOK s ∧ (41 : UInt8) ∉ s
  | .showTextArray ps => ps ≠ [] ∧ ∀ s, .text s ∈ ps → TextOK s ∧ (93 : UInt8) ∉ s
  | .showTextHex h => (Enc.hexBytes h).isSome = true ∧ ∀ c ∈ h, Enc.white c = true → c = 32
  | _ => True

/-- How numbers are written and read: only digits, dots and minus signs, at least one; and reading gives the value `val`. -/
def FormatOK (A : Arith F) (fl : Floats F) (fmt : F → Bytes) : Prop :=
  fl.zero = A.zero ∧ fl.one = A.one ∧ fl.add = A.add ∧
  ∀ x, fmt x ≠ [] ∧ (∀ c ∈ fmt x, (48 ≤ c ∧ c ≤ 57) ∨ c = 46 ∨ c = 45) ∧ fl.parse (fmt x) = some (A.val x)

/-- The condition holds before every call, given the page so far. -/
def Always (A : Arith F) (fonts : Option (Map Bytes Decoder)) (P : Page F → Call F → List (Call F) → Prop) : Page F → List (Call F) → Prop
  | _, [] => True
  | p, c :: cs => P p c cs ∧ Always A fonts P (exec A fonts p c) cs

/-- Restoring the graphics state does not change the text parameters. -/
def KeepsText (p : Page F) (c : Call F) (_ : List (Call F)) : Prop :=
  c = .restoreState → ∀ g ∈ p.stack.head?, g.text = p.gs.text

/-- Restoring the graphics state does not change the painting, and no colour is set as a gray. -/
def KeepsPaint (p : Page F) (c : Call F) (_ : List (Call F)) : Prop :=
  (c = .restoreState → ∀ g ∈ p.stack.head?, g.paint = p.gs.paint) ∧ (∀ g, c ≠ .fillGray g) ∧ (∀ g, c ≠ .strokeGray g)

/-- The matrix is only set when it is the unit matrix. -/
def SetsOnce (A : Arith F) (p : Page F) (c : Call F) (_ : List (Call F)) : Prop :=
  ∀ a b x d e f, c = .setMatrix a b x d e f → p.gs.ctm = A.unit

/-- Only moves that the reader follows: no moves by the leading; text matrices that only move; and a new text object starts where
the line starts at the origin, or with a text matrix. -/
def PlainMoves (A : Arith F) (p : Page F) (c : Call F) (cs : List (Call F)) : Prop :=
  (∀ x y, c ≠ .moveTextPosition x y) ∧ c ≠ .nextLine ∧ (∀ s, c ≠ .showTextNextLine s) ∧
  (∀ a b x d e f, c = .textMatrix a b x d e f → [A.val a, A.val b, A.val x, A.val d] = [A.one, A.zero, A.zero, A.one]) ∧
  (c = .beginText → p.tlm = A.unit ∨ ∃ a b x d e f, cs.head? = some (.textMatrix a b x d e f))

/-! ### What is compared -/

/-- The text and text parameters of an extracted element, and of a shown text. -/
def elemWhat (e : Elem F) : Bytes × TextPar F := (e.text, ⟨e.font, e.size, e.charSp, e.wordSp, e.rise⟩)
def shownWhat (s : Shown F) : Bytes × TextPar F := (s.text, s.par)

/-- An extracted graphic as a shape. -/
def shapeOf : Graphic F → Shape F
  | .rect f s w x y x' y' => .rect ⟨f, s, w⟩ x y x' y'
  | .line s w => .line s w

/-! ### An instance: numbers with four decimals, as integers of ten-thousandths -/

/-- `%.4f` of a number of ten-thousandths. -/
def fixFmt (n : Int) : Bytes := (if n < 0 then b!"-" else []) ++ natDec (n.natAbs / 10000) ++ b!"." ++ padDec 4 (n.natAbs % 10000)

/-- The value of a text with four decimals. -/
def fixParse (s : Bytes) : Option Int := match s.filter (· ≠ 46) with
  | 45 :: r => some (-(digitsVal r : Int))
  | r => some (digitsVal r : Int)

/-- The product of two matrices (in PDF's order: the first is applied first). -/
def fixMul (m n : List Int) : List Int :=
  let at_ (l : List Int) (i : Nat) : Int := l.getD i 0
  let p (i j i' j' : Nat) : Int := (at_ m i * at_ n j + at_ m i' * at_ n j') / 10000
  [p 0 0 1 2, p 0 1 1 3, p 2 0 3 2, p 2 1 3 3, p 4 0 5 2 + at_ n 4, p 4 1 5 3 + at_ n 5]

def fixArith : Arith Int := ⟨0, 10000, (· + ·), (· - ·), fixMul, id⟩
def fixFloats : Floats Int := ⟨0, 10000, (· + ·), fun y s => y - s * 12 / 10, fixParse⟩

end Pdfer.Spec.Content
