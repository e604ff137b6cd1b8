import Verif.Model.FormsApi
import Verif.Model.Strings

/-! Model of forms/acroform/flatten.go and forms/acroform/appearance.go:25-178: flattening a form, reading the appearance of a field and
making appearances.  `verbose` is off and the file is not encrypted. -/

namespace Pdfer.Flatten

open Pdfer.Go Pdfer.Forms Pdfer.FormsApi Pdfer.Document Pdfer.Writer Pdfer.Strings

variable {F S : Type}

/-- forms/acroform/flatten.go:16-71 – `FlattenForm`: the file must open and have an AcroForm. -/
def flattenForm (c : Ctx F S) (pdf : Bytes) : Res Bytes :=
  (Incremental.openPdf c.env pdf).bind fun _ => (extractAcroForm c pdf).bind fun _ => .ok (Forms.flatten pdf)

/-- forms/acroform/flatten.go:74-99 – `FlattenField`: the file as it is when the field can be read. -/
def flattenField (c : Ctx F S) (pdf : Bytes) (field : Int) : Res Bytes :=
  (getObject c.src.unz none pdf field).bind fun _ => .ok pdf

/-- forms/acroform/flatten.go:112 – `/AP\s*<<([^>]*)>>`: the group. -/
def reAP (s : Bytes) : Option Bytes :=
  (reLit b!"/AP" s).bind fun s => (reLit b!"<<" (reSp0 s)).bind fun s =>
  (reLit b!">>" (s.dropWhile (· ≠ 62))).map fun _ => s.takeWhile (· ≠ 62)

/-- forms/acroform/flatten.go:119 – `/N\s+(\d+)\s+(\d+)\s+R`: the digits of the number (`Atoi` clamps). -/
def reN (s : Bytes) : Option Nat :=
  (reLit b!"/N" s).bind fun s => (reSp1 s).bind fun s => (reRef2 s).map (·.1.1)

/-- forms/acroform/flatten.go:135 – `stream\s*\n(.*?)\nendstream`: the group.  `\s*` gives back white space until a line feed is behind it; `.` is
no line feed. -/
def reStreamLine (s : Bytes) : Option Bytes :=
  (reLit b!"stream" s).bind fun r =>
    ((List.range (r.takeWhile reSpace).length).reverse).findSome? fun j =>
      if r.getD j 0 = 10 then
        let t := r.drop (j + 1)
        (reLit b!"\nendstream" (t.dropWhile (· ≠ 10))).map fun _ => t.takeWhile (· ≠ 10)
      else none

/-- forms/acroform/flatten.go:102-142 – `GetFieldAppearance`, `get` being `parse.GetObject` on the file. -/
def fieldAppearance (get : Int → Res Bytes) (field : Int) : Res Bytes :=
  (get field).bind fun s =>
  (Res.ofOption (searchWith reAP s)).bind fun ap =>
  (Res.ofOption (searchWith reN ap)).bind fun n =>
  (get n).bind fun a =>
  .ok ((searchWith reStreamLine a).getD a)

/-! ### Making appearances -/

/-- The floating point operations: `%.2f`, the text in a dictionary, `x / 20`, `x * 0.k`, `(x - n * 6) / 2` and `(x - 12) / 2`. -/
structure AppF (F : Type) where
  fmt : F → Bytes
  value : F → Bytes
  twentieth : F → F
  tenths : Nat → F → F
  centred : F → Nat → F
  middle : F → F

/-- forms/acroform/appearance.go:61-66, :94-99, :143-148 – the dictionary of an appearance. -/
def appDict (f : AppF F) (w h : F) : Dict :=
  [(b!"/Type", .str b!"/XObject"), (b!"/Subtype", .str b!"/Form"), (b!"/BBox", .arr [.int 0, .int 0, .other (f.value w), .other (f.value h)]),
   (b!"/Matrix", .arr [.int 1, .int 0, .int 0, .int 1, .int 0, .int 0])]

/-- forms/acroform/appearance.go:26-58 – the content of a check box. -/
def checkboxContent (f : AppF F) (checked : Bool) (w h : F) : Bytes :=
  b!"q\n0 0 0 rg\n" ++ f.fmt (f.twentieth w) ++ b!" w\n" ++
  (if checked then
    f.fmt (f.tenths 2 w) ++ b!" " ++ f.fmt (f.tenths 5 h) ++ b!" m\n" ++ f.fmt (f.tenths 4 w) ++ b!" " ++ f.fmt (f.tenths 3 h) ++ b!" l\n" ++
    f.fmt (f.tenths 8 w) ++ b!" " ++ f.fmt (f.tenths 7 h) ++ b!" l\nS\n"
   else b!"0 0 " ++ f.fmt w ++ b!" " ++ f.fmt h ++ b!" re\nS\n") ++ b!"Q\n"

/-- forms/acroform/appearance.go:25-70 – `CreateCheckboxAppearance`. -/
def createCheckbox (env : Env) (wr : Writer) (f : AppF F) (checked : Bool) (w h : F) : Writer × Int :=
  addStreamObject env wr (.fresh (appDict f w h)) (some (checkboxContent f checked w h)) true

/-- forms/acroform/appearance.go:73-91 – the content of a text field; forms/acroform/appearance.go:155-178 – `escapeAppearanceText` is the same loop
as `escapeFieldValue`. -/
def textContent (f : AppF F) (text : Bytes) (h size : F) (font : Bytes) : Bytes :=
  b!"q\nBT\n/" ++ font ++ b!" " ++ f.fmt size ++ b!" Tf\n0 0 0 rg\n0 " ++ f.fmt (f.tenths 2 h) ++ b!" Td\n(" ++ escapeFieldValue text ++ b!") Tj\nET\nQ\n"

/-- forms/acroform/appearance.go:73-110 – `CreateTextAppearance`. -/
def createText (env : Env) (wr : Writer) (f : AppF F) (text : Bytes) (w h size : F) (font : Bytes) : Writer × Int :=
  addStreamObject env wr (.fresh (appDict f w h ++ [(b!"/Resources", .dict [(b!"/Font", .dict [(font, .str b!"0 0 R")])])]))
    (some (textContent f text h size font)) true

/-- forms/acroform/appearance.go:113-141 – the content of a button. -/
def buttonContent (f : AppF F) (label : Bytes) (w h : F) : Bytes :=
  b!"q\n0.9 0.9 0.9 rg\n0 0 " ++ f.fmt w ++ b!" " ++ f.fmt h ++ b!" re\nf\n0 0 0 RG\n1 w\n0 0 " ++ f.fmt w ++ b!" " ++ f.fmt h ++
  b!" re\nS\nBT\n/Helvetica 12 Tf\n0 0 0 rg\n" ++ f.fmt (f.centred w label.length) ++ b!" " ++ f.fmt (f.middle h) ++ b!" Td\n(" ++
  escapeFieldValue label ++ b!") Tj\nET\nQ\n"

/-- forms/acroform/appearance.go:113-152 – `CreateButtonAppearance` (the font size given is not used). -/
def createButton (env : Env) (wr : Writer) (f : AppF F) (label : Bytes) (w h _size : F) : Writer × Int :=
  addStreamObject env wr (.fresh (appDict f w h)) (some (buttonContent f label w h)) true

end Pdfer.Flatten
