import Verif.Model.GoLib

/-! Model of the two readers of traditional cross-reference tables: `ParseTraditionalXRefTable`
(core/parse/parser.go:180-240) and `parseTraditionalxrefSection` (core/parse/incremental.go:278-389).
Only ASCII white space is modelled. -/

namespace Pdfer.XRefTable

open Pdfer.Go

/-- Loop state of both readers: `currentObjNum`, `inSubsection`, the object map. -/
structure St where
  cur : Int
  inSub : Bool
  objs : Map Int Int

/-- core/parse/parser.go:215-236 and incremental.go:318-341 – the work done for one non-empty line, given its
fields.  (`TrimSpace` and the test for an empty line are dropped: `Fields` ignores surrounding white
space, and a line without fields does nothing below either.) -/
def tableStep (st : St) (fs : List Bytes) : St :=
  let header : Option Int :=
    if fs.length = 2 then
      match atoi (fs.getD 0 []), atoi (fs.getD 1 []) with
      | some first, some _ => some first
      | _, _ => none
    else none
  match header with
  | some first => { st with cur := first, inSub := true }
  | none =>
    if st.inSub && decide (fs.length ≥ 3) then
      let objs := match atoi (fs.getD 0 []), atoi (fs.getD 1 []) with
        | some off, some _ => if fs.getD 2 [] = b!"n" then st.objs.set st.cur off else st.objs
        | _, _ => st.objs
      { st with cur := st.cur + 1, objs := objs }
    else st

/-- Initial loop state (core/parse/parser.go:201-202). -/
def st0 : St := { cur := 0, inSub := false, objs := [] }

/-- core/parse/parser.go:184 – at most 10000 bytes of the file are looked at. -/
def window : Nat := 10000

/-- core/parse/parser.go:180-240 – `ParseTraditionalXRefTable` (`none` = "xref keyword not found"). -/
def parseTable (pdf : Bytes) (startXRef : Nat) : Option (Map Int Int) :=
  let xrefStr := (pdf.drop startXRef).take window
  match index b!"xref" xrefStr with
  | none => none
  | some p =>
    let lines := split 10 (xrefStr.drop p)
    some ((lines.drop 1).foldl (fun st l => tableStep st (fields l)) st0).objs

/-- core/parse/incremental.go:294-341 – the loop over the lines, left at the first line that starts with
"trailer".  (`\r?\n` is split at `\n`; the `\r` is white space for the later steps.) -/
def sectionLoop (st : St) : List Bytes → St
  | [] => st
  | l :: ls =>
    let t := trimSpace l
    if t = [] then sectionLoop st ls
    else if (b!"trailer").isPrefixOf t then st
    else sectionLoop (tableStep st (fields l)) ls

/-- core/parse/incremental.go:278-341 – the objects of a section; called only when the data at
`startXRef` begins with "xref" (incremental.go:262).  The first line is skipped if it is "xref". -/
def parseSection (pdf : Bytes) (startXRef : Nat) : Map Int Int :=
  let xrefStr := (pdf.drop startXRef).take window
  match split 10 xrefStr with
  | [] => []
  | first :: rest =>
    if trimSpace first = b!"xref" then (sectionLoop st0 rest).objs
    else (sectionLoop st0 (first :: rest)).objs

end Pdfer.XRefTable
