import Verif.Model.GoLib

/-! Model of core/compare/report.go:10-141: the text report of a comparison.  Values (`%v`) are already printed. -/

namespace Pdfer.Report

open Pdfer.Go

/-- core/compare/compare.go:75-79 – `FieldDiff` with its values printed. -/
abbrev Change := Bytes × Bytes

/-- core/compare/compare.go:60-73 – `MetadataDifference`. -/
structure MetaRep where
  title : Option Change := none
  author : Option Change := none
  subject : Option Change := none
  keywords : Option Change := none
  creator : Option Change := none
  producer : Option Change := none
  creationDate : Option Change := none
  modDate : Option Change := none
  version : Option Change := none
  pageCount : Option Change := none
  encrypted : Option Change := none

/-- core/compare/compare.go:81-133 – `PageDifference`: the numbers of elements; `diffs` are the types and descriptions of the other differences. -/
structure PageRep where
  number : Int
  text : Option (Nat × Nat × Nat) := none
  graphic : Option (Nat × Nat) := none
  image : Option (Nat × Nat × Nat × Nat) := none
  annotation : Option (Nat × Nat) := none
  diffs : List (Bytes × Bytes) := []

/-- core/compare/compare.go:141-156 – `FormDiff`: names and printed values. -/
structure FormRep where
  added : List (Bytes × Bytes) := []
  removed : List (Bytes × Bytes) := []
  modified : List (Bytes × Change) := []
  formType : Option Change := none

/-- core/compare/compare.go:14-22 – `ComparisonResult`; the structure difference is (object count, page count). -/
structure ResultRep where
  identical : Bool
  total : Int
  metas : Option MetaRep := none
  struct : Option (Option Change × Option Change) := none
  pages : List PageRep := []
  form : Option FormRep := none

/-- core/compare/report.go:14-15 – the heading. -/
def heading : Bytes := b!"PDF Comparison Report\n" ++ List.replicate 50 61 ++ b!"\n\n"

/-- core/compare/report.go:18 – the verdict when the files are identical. -/
def same : Bytes := [0xE2, 0x9C, 0x85] ++ b!" PDFs are IDENTICAL\n"

/-- core/compare/report.go:22 – the verdict when they are different. -/
def different : Bytes := [0xE2, 0x9D, 0x8C] ++ b!" PDFs are DIFFERENT\n\n"

/-- A line `  name: old -> new`. -/
def changeLine (name : Bytes) : Option Change → Bytes
  | none => []
  | some c => b!"  " ++ name ++ b!": " ++ c.1 ++ b!" -> " ++ c.2 ++ b!"\n"

/-- A line `  name: n elements` when there are some. -/
def countLine (name : Bytes) (n : Nat) : Bytes := if n > 0 then b!"  " ++ name ++ b!": " ++ natDec n ++ b!" elements\n" else []

/-- A line of 30 dashes. -/
def dashes : Bytes := List.replicate 30 45 ++ b!"\n"

/-- core/compare/report.go:26-39 – the metadata. -/
def metaText : Option MetaRep → Bytes
  | none => []
  | some m => b!"Metadata Differences:\n" ++ dashes ++ changeLine b!"Title" m.title ++ changeLine b!"Author" m.author ++
      changeLine b!"Page Count" m.pageCount ++ b!"\n"

/-- core/compare/report.go:42-49 – the structure. -/
def structText : Option (Option Change × Option Change) → Bytes
  | none => []
  | some s => b!"Structure Differences:\n" ++ dashes ++ changeLine b!"Page Count" s.2 ++ b!"\n"

/-- core/compare/report.go:56-103 – one page. -/
def pageText (p : PageRep) : Bytes :=
  b!"\nPage " ++ itoa p.number ++ b!":\n" ++
  (match p.text with | none => [] | some (a, r, m) => countLine b!"Text Added" a ++ countLine b!"Text Removed" r ++ countLine b!"Text Modified" m) ++
  (match p.graphic with | none => [] | some (a, r) => countLine b!"Graphics Added" a ++ countLine b!"Graphics Removed" r) ++
  (match p.image with | none => [] | some (a, r, _, _) => countLine b!"Images Added" a ++ countLine b!"Images Removed" r) ++
  (match p.annotation with | none => [] | some (a, r) => countLine b!"Annotations Added" a ++ countLine b!"Annotations Removed" r) ++
  (p.diffs.map fun d => b!"  " ++ d.1 ++ b!": " ++ d.2 ++ b!"\n").flatten

/-- core/compare/report.go:52-105 – the pages. -/
def pagesText (ps : List PageRep) : Bytes :=
  if ps = [] then [] else b!"Page Differences:\n" ++ dashes ++ (ps.map pageText).flatten ++ b!"\n"

/-- Fields with one value. -/
def fieldLines (name : Bytes) (l : List (Bytes × Bytes)) : Bytes :=
  if l = [] then [] else b!"  " ++ name ++ b!": " ++ natDec l.length ++ b!"\n" ++ (l.map fun f => b!"    - " ++ f.1 ++ b!": " ++ f.2 ++ b!"\n").flatten

/-- core/compare/report.go:108-138 – the form. -/
def formText : Option FormRep → Bytes
  | none => []
  | some f => b!"Form Differences:\n" ++ dashes ++ changeLine b!"Form Type" f.formType ++ fieldLines b!"Fields Added" f.added ++
      fieldLines b!"Fields Removed" f.removed ++
      (if f.modified = [] then [] else b!"  Fields Modified: " ++ natDec f.modified.length ++ b!"\n" ++
        (f.modified.map fun f => b!"    - " ++ f.1 ++ b!": " ++ f.2.1 ++ b!" -> " ++ f.2.2 ++ b!"\n").flatten) ++ b!"\n"

/-- core/compare/report.go:11-141 – `GenerateReport`. -/
def report (r : ResultRep) : Bytes :=
  if r.identical then heading ++ same
  else heading ++ different ++ b!"Total Differences: " ++ itoa r.total ++ b!"\n\n" ++ metaText r.metas ++ structText r.struct ++
    pagesText r.pages ++ formText r.form

end Pdfer.Report
