import Verif.Model.GoLib

/-! Model of the comparison of documents (core/compare/compare.go, text_diff.go, myers_diff.go).

Simplifications: floating-point numbers are exact rationals (no rounding, no NaN); texts are byte strings and are
assumed to be valid UTF-8 where the code ranges over runes (the ASCII tests then see the same bytes); the loops over
index sets `text1Matched`/`text2Matched` are modelled by one list of matched pairs, each with a tag telling whether it
was reported.  Extraction of the content (package extract) is the input of this model. -/

namespace Pdfer.Compare

open Pdfer.Go

/-- types/content_types.go:58-73 – `TextElement`; `rest` stands for the fields the comparison never looks at (colour,
width, spacing, matrix, …). -/
structure Elem where
  text : Bytes
  x : Rat
  y : Rat
  font : Bytes
  size : Rat
  rest : Bytes
  deriving DecidableEq, Repr, Inhabited

/-- core/compare/compare.go:161-167 – `TextGranularity`. -/
inductive Granularity where
  | element
  | word
  | char
  deriving DecidableEq, Repr

/-- core/compare/compare.go:170-176 – `DiffSensitivity`. -/
inductive Sensitivity where
  | strict
  | normal
  | relaxed
  deriving DecidableEq, Repr

/-- core/compare/compare.go:179-203 – `CompareOptions` (the fields the code reads). -/
structure Opts where
  ignoreMetadata : Bool := false
  ignoreProducer : Bool := true
  ignoreDates : Bool := true
  textTol : Rat := 5
  moveTol : Rat := 0
  gran : Granularity := .element
  sens : Sensitivity := .normal
  detectMoves : Bool := false
  ignoreWhitespace : Bool := false
  ignoreCase : Bool := false

/-- core/compare/compare.go:541-546 – `abs`. -/
def abs (x : Rat) : Rat := if x < 0 then -x else x

/-- core/compare/compare.go:536-538 – `positionsMatch`. -/
def positionsMatch (x1 y1 x2 y2 tol : Rat) : Bool := decide (abs (x1 - x2) < tol) && decide (abs (y1 - y2) < tol)

/-- core/compare/text_diff.go:224-236 – the lower-casing loop. -/
def lowerAscii (t : Bytes) : Bytes := t.map fun c => if c ≥ 65 ∧ c ≤ 90 then c + 32 else c

/-- core/compare/text_diff.go:237-245 – the removal of white space. -/
def dropSpace (t : Bytes) : Bytes := t.filter fun c => c != 32 && c != 9 && c != 10 && c != 13

/-- core/compare/text_diff.go:224-247 – `normalizeTextForComparison`. -/
def normalize (o : Opts) (t : Bytes) : Bytes :=
  let t := if o.ignoreCase then lowerAscii t else t
  if o.ignoreWhitespace then dropSpace t else t

/-- core/compare/text_diff.go:436-440 – the characters of words. -/
def isWordByte (c : UInt8) : Bool := (c ≥ 97 && c ≤ 122) || (c ≥ 65 && c ≤ 90) || (c ≥ 48 && c ≤ 57)

/-- core/compare/text_diff.go:434-451 – `splitWords`; `cur` is the current word. -/
def splitWordsAux (cur : Bytes) : Bytes → List Bytes
  | [] => if cur = [] then [] else [cur]
  | c :: r =>
    if isWordByte c then splitWordsAux (cur ++ [c]) r
    else if cur = [] then splitWordsAux [] r else cur :: splitWordsAux [] r

/-- core/compare/text_diff.go:434-451 – `splitWords`. -/
def splitWords (t : Bytes) : List Bytes := splitWordsAux [] t

/-- core/compare/text_diff.go:465-487 – `calculateChangeRatio`. -/
def changeRatio (a b : Bytes) : Rat :=
  if a.length = 0 ∧ b.length = 0 then 0
  else
    let diffs := ((a.zip b).filter fun p => p.1 != p.2).length + (max a.length b.length - min a.length b.length)
    (diffs : Rat) / (max a.length b.length : Nat)

/-! ### Matching by marks -/

/-- `text1Matched`, `text2Matched` and what was done with each pair: first index, second index, tag. -/
abbrev Pairs (τ : Type) := List (Nat × Nat × τ)

/-- `text1Matched[i]`. -/
def used1 {τ : Type} (ps : Pairs τ) (i : Nat) : Bool := ps.any fun p => p.1 == i
/-- `text2Matched[i]`. -/
def used2 {τ : Type} (ps : Pairs τ) (i : Nat) : Bool := ps.any fun p => p.2.1 == i

/-- The body of the loops of core/compare/text_diff.go:32-46, :49-63, :68-93, :294-322, :352-379 and
core/compare/myers_diff.go:42-57, :61-99, for one `i1`: the first unmatched `i2` that satisfies the condition. -/
def phaseStep {τ : Type} (m : Nat) (cond : Pairs τ → Nat → Nat → Bool) (tag : Nat → Nat → τ) (ps : Pairs τ) (i1 : Nat) :
    Pairs τ :=
  if used1 ps i1 then ps
  else match (List.range m).find? (fun i2 => !used2 ps i2 && cond ps i1 i2) with
    | none => ps
    | some i2 => ps ++ [(i1, i2, tag i1 i2)]

/-- One such loop. -/
def phase {τ : Type} (n m : Nat) (cond : Pairs τ → Nat → Nat → Bool) (tag : Nat → Nat → τ) (ps : Pairs τ) : Pairs τ :=
  (List.range n).foldl (phaseStep m cond tag) ps

/-- Indices still unmatched (core/compare/text_diff.go:97-108). -/
def free1 {τ : Type} (n : Nat) (ps : Pairs τ) : List Nat := (List.range n).filter fun i => !used1 ps i
/-- Indices still unmatched. -/
def free2 {τ : Type} (m : Nat) (ps : Pairs τ) : List Nat := (List.range m).filter fun i => !used2 ps i

/-- core/compare/compare.go:90-94 – `TextDiff`. -/
structure TextDiff where
  added : List Elem
  removed : List Elem
  modified : List (Elem × Elem)
  deriving DecidableEq, Repr

/-- `text[i]`. -/
def el (t : List Elem) (i : Nat) : Elem := t.getD i default

/-- core/compare/text_diff.go:325-334 and the like – pairs tagged `true` were appended to `Modified`; what is left is
removed or added. -/
def toDiff (t1 t2 : List Elem) (ps : Pairs Bool) : TextDiff :=
  { added := (free2 t2.length ps).map (el t2), removed := (free1 t1.length ps).map (el t1),
    modified := (ps.filter (·.2.2)).map fun p => (el t1 p.1, el t2 p.2.1) }

/-- core/compare/myers_diff.go:162-186 – `elementsEqual`. -/
def elementsEqual (o : Opts) (a b : Elem) : Bool :=
  normalize o a.text == normalize o b.text && positionsMatch a.x a.y b.x b.y o.textTol && a.font == b.font &&
    !decide (abs (a.size - b.size) ≥ 1 / 10)

/-! ### Longest common subsequence -/

/-- core/compare/myers_diff.go:224-234 – one row of the table, from the previous row. -/
def lcsRow {α : Type} (eq : α → α → Bool) (a : α) : List Nat → Nat → List α → List Nat
  | diag :: up :: prev, left, b :: bs =>
    let c := if eq a b then diag + 1 else if up > left then up else left
    c :: lcsRow eq a (up :: prev) c bs
  | _, _, _ => []

/-- core/compare/myers_diff.go:210-236 – the table `dp`, row by row. -/
def lcsTable {α : Type} (eq : α → α → Bool) (t1 t2 : List α) : List (List Nat) :=
  t1.foldl (fun rows a => rows ++ [0 :: lcsRow eq a (rows.getLastD []) 0 t2]) [List.replicate (t2.length + 1) 0]

/-- `dp[i][j]`. -/
def cell (tbl : List (List Nat)) (i j : Nat) : Nat := (tbl.getD i []).getD j 0

/-- core/compare/myers_diff.go:238-258 – the way back through the table, already reversed (fuel: `i + j`). -/
def lcsBack {α : Type} (eq : α → α → Bool) (t1 t2 : List α) (tbl : List (List Nat)) : Nat → Nat → Nat → List (Nat × Nat)
  | 0, _, _ => []
  | _, 0, _ => []
  | _, _, 0 => []
  | f + 1, i + 1, j + 1 =>
    match t1[i]?, t2[j]? with
    | some a, some b =>
      if eq a b then lcsBack eq t1 t2 tbl f i j ++ [(i, j)]
      else if cell tbl i (j + 1) > cell tbl (i + 1) j then lcsBack eq t1 t2 tbl f i (j + 1)
      else lcsBack eq t1 t2 tbl f (i + 1) j
    | _, _ => []

/-- core/compare/myers_diff.go:196-259 – `findLCSMatches`, for any equality. -/
def lcsMatches {α : Type} (eq : α → α → Bool) (t1 t2 : List α) : List (Nat × Nat) :=
  lcsBack eq t1 t2 (lcsTable eq t1 t2) (t1.length + t2.length) t1.length t2.length

/-- core/compare/myers_diff.go:217-221 – `textEqual`. -/
def textEqual (o : Opts) (a b : Elem) : Bool :=
  normalize o a.text == normalize o b.text && a.font == b.font && decide (abs (a.size - b.size) < 1 / 10)

/-! ### Text comparison -/

/-- core/compare/myers_diff.go:74-84 – `hasBetterMatch`. -/
def hasBetterMatch (o : Opts) (t1 t2 : List Elem) (ps : Pairs Bool) (i1 i2 : Nat) : Bool :=
  (List.range t2.length).any fun j => j != i2 && !used2 ps j && normalize o (el t1 i1).text == normalize o (el t2 j).text

/-- core/compare/myers_diff.go:10-159 – `myersDiff`.  The early returns for empty lists (lines 20-29) give the same result
as the general path; the caller never passes two empty lists. -/
def myersDiff (o : Opts) (t1 t2 : List Elem) : TextDiff :=
  let n := t1.length
  let m := t2.length
  let p1 := phase n m (fun _ i j => elementsEqual o (el t1 i) (el t2 j)) (fun _ _ => false) []
  let p2 := phase n m (fun ps i j =>
      positionsMatch (el t1 i).x (el t1 i).y (el t2 j).x (el t2 j).y o.textTol &&
      normalize o (el t1 i).text != normalize o (el t2 j).text && !hasBetterMatch o t1 t2 ps i j) (fun _ _ => true) p1
  let u1 := free1 n p2
  let u2 := free2 m p2
  let ms := lcsMatches (textEqual o) (u1.map (el t1)) (u2.map (el t2))
  let p3 := p2 ++ ms.map fun p =>
    (u1.getD p.1 0, u2.getD p.2 0, !elementsEqual o (el t1 (u1.getD p.1 0)) (el t2 (u2.getD p.2 0)))
  toDiff t1 t2 p3

/-- core/compare/text_diff.go:279-337 – `wordLevelDiff`. -/
def wordLevelDiff (o : Opts) (t1 t2 : List Elem) : TextDiff :=
  toDiff t1 t2 (phase t1.length t2.length
    (fun _ i j => positionsMatch (el t1 i).x (el t1 i).y (el t2 j).x (el t2 j).y o.textTol)
    (fun i j => splitWords (normalize o (el t1 i).text) != splitWords (normalize o (el t2 j).text)) [])

/-- core/compare/text_diff.go:340-394 – `charLevelDiff`. -/
def charLevelDiff (o : Opts) (t1 t2 : List Elem) : TextDiff :=
  toDiff t1 t2 (phase t1.length t2.length
    (fun _ i j => positionsMatch (el t1 i).x (el t1 i).y (el t2 j).x (el t2 j).y o.textTol)
    (fun i j => normalize o (el t1 i).text != normalize o (el t2 j).text) [])

/-- core/compare/text_diff.go:113-122 – the diff of the chosen granularity. -/
def granDiff (o : Opts) (t1 t2 : List Elem) : TextDiff :=
  match o.gran with
  | .word => wordLevelDiff o t1 t2
  | .char => charLevelDiff o t1 t2
  | .element => myersDiff o t1 t2

/-- core/compare/text_diff.go:397-431 – `applySensitivityFilter`. -/
def sensitivity (o : Opts) (d : TextDiff) : TextDiff :=
  match o.sens with
  | .relaxed =>
    { d with modified := d.modified.filter fun m =>
        decide (changeRatio (normalize o m.1.text) (normalize o m.2.text) > 1 / 10) }
  | _ => d

/-- core/compare/text_diff.go:12-15 – the tolerance for moves. -/
def moveTolerance (o : Opts) : Rat := if o.moveTol = 0 then o.textTol * 10 else o.moveTol

/-- core/compare/text_diff.go:9-137 – `compareText` (`none` = nil).  When nothing is left after the three phases the
fourth is skipped. -/
def compareText (o : Opts) (t1 t2 : List Elem) : Option TextDiff :=
  let n := t1.length
  let m := t2.length
  let near (tol : Rat) (i j : Nat) := positionsMatch (el t1 i).x (el t1 i).y (el t2 j).x (el t2 j).y tol
  let p1 := phase n m (fun _ i j => (el t1 i).text == (el t2 j).text && near o.textTol i j &&
      ((el t1 i).font == (el t2 j).font && decide (abs ((el t1 i).size - (el t2 j).size) < 1 / 10)))
    (fun _ _ => false) []
  let p2 := phase n m (fun _ i j => near o.textTol i j && (el t1 i).text != (el t2 j).text) (fun _ _ => true) p1
  let p3 := if o.detectMoves then
      phase n m (fun _ i j => textEqual o (el t1 i) (el t2 j) && near (moveTolerance o) i j) (fun _ _ => true) p2
    else p2
  let u1 := (free1 n p3).map (el t1)
  let u2 := (free2 m p3).map (el t2)
  let d0 : TextDiff := ⟨[], [], (p3.filter (·.2.2)).map fun p => (el t1 p.1, el t2 p.2.1)⟩
  let d1 := if u1.length > 0 ∨ u2.length > 0 then
      let d := granDiff o u1 u2
      ⟨d0.added ++ d.added, d0.removed ++ d.removed, d0.modified ++ d.modified⟩
    else d0
  let d2 := sensitivity o d1
  if d2.added = [] ∧ d2.removed = [] ∧ d2.modified = [] then none else some d2

/-! ### Graphics, annotations, images -/

/-- core/compare/compare.go:558-575 and :789-806 – the loop over the second list: `exists` in the map built from the
first, then deleted.  Returns what is added and the map left over. -/
def keyedLoop {α : Type} (key : α → Bytes) : Map Bytes α → List α → List α × Map Bytes α
  | m, [] => ([], m)
  | m, g :: gs =>
    match Map.get m (key g) with
    | none => let r := keyedLoop key m gs; (g :: r.1, r.2)
    | some _ => keyedLoop key (Map.del m (key g)) gs

/-- core/compare/compare.go:549-582 – `compareGraphics`, and :780-813 – `compareAnnotations`: added and removed elements
(the order of the removed ones is a Go map iteration); `none` = nil. -/
def compareKeyed {α : Type} (key : α → Bytes) (g1 g2 : List α) : Option (List α × List α) :=
  let m := g1.foldl (fun (m : Map Bytes α) g => Map.set m (key g) g) []
  let r := keyedLoop key m g2
  if r.1.isEmpty && r.2.isEmpty then none else some (r.1, r.2.map (·.2))

/-- types/content_types.go:77-88 and :194-217 – `Graphic` and `Annotation`: the type, the box, and everything else. -/
structure Shape where
  kind : Bytes
  box : Option (Rat × Rat × Rat × Rat)
  rest : Bytes
  deriving DecidableEq, Repr

/-- core/compare/compare.go:585-591 – `graphicKey`, and :816-821 – `annotationKey`; `fmt1` is the verb `%.1f`. -/
def shapeKey (fmt1 : Rat → Bytes) (g : Shape) : Bytes :=
  match g.box with
  | some (a, b, c, d) => g.kind ++ b!":" ++ fmt1 a ++ b!":" ++ fmt1 b ++ b!":" ++ fmt1 c ++ b!":" ++ fmt1 d
  | none => g.kind

/-- types/content_types.go:173-180 – `ImageRef`. -/
structure ImgRef where
  id : Bytes
  x : Rat
  y : Rat
  rest : Bytes
  deriving DecidableEq, Repr, Inhabited

/-- types/content_types.go:159-170 – `Image` (the fields compared). -/
structure Img where
  width : Int
  height : Int
  format : Bytes
  colorSpace : Bytes
  data : Bytes
  deriving DecidableEq, Repr

/-- core/compare/compare.go:751-777 – `imagesEqual`. -/
def imagesEqual (a b : Img) : Bool :=
  a.width == b.width && a.height == b.height && a.format == b.format && a.colorSpace == b.colorSpace &&
    (decide (a.data.length = 0 ∧ b.data.length = 0) || (a.data.length == b.data.length && a.data == b.data))

/-- What was done with a pair of images. -/
inductive ImgTag where
  | kept
  | modified
  | moved
  deriving DecidableEq, Repr

/-- core/compare/compare.go:111-116 – `ImageDiff`. -/
structure ImageDiff where
  added : List ImgRef
  removed : List ImgRef
  modified : List (ImgRef × ImgRef)
  moved : List (ImgRef × ImgRef)
  deriving DecidableEq, Repr

/-- core/compare/compare.go:650-672 – what is done with two images of the same name at the same place. -/
def imgTag (d1 d2 : Option Img) : ImgTag :=
  match d1, d2 with
  | some x, some y => if imagesEqual x y then .kept else .modified
  | _, _ => .kept

/-- core/compare/compare.go:688-700 – the same data, not empty. -/
def imgSame (d1 d2 : Option Img) : Bool :=
  match d1, d2 with
  | some x, some y => decide (x.data.length ≠ 0) && decide (y.data.length ≠ 0) && imagesEqual x y
  | _, _ => false

/-- core/compare/compare.go:594-723 – `compareImagesWithBinary`; `data1`, `data2` are the image data found for an id
(lines 603-633). -/
def compareImages (data1 data2 : Bytes → Option Img) (t1 t2 : List ImgRef) : Option ImageDiff :=
  let n := t1.length
  let m := t2.length
  let a (i : Nat) := t1.getD i default
  let b (i : Nat) := t2.getD i default
  let p1 := phase n m (fun _ i j => (a i).id == (b j).id && positionsMatch (a i).x (a i).y (b j).x (b j).y 1)
    (fun i j => imgTag (data1 (a i).id) (data2 (b j).id)) []
  let p2 := phase n m (fun _ i j => imgSame (data1 (a i).id) (data2 (b j).id)) (fun _ _ => ImgTag.moved) p1
  let d : ImageDiff :=
    ⟨(free2 m p2).map b, (free1 n p2).map a, (p2.filter (·.2.2 = .modified)).map (fun p => (a p.1, b p.2.1)),
      (p2.filter (·.2.2 = .moved)).map (fun p => (a p.1, b p.2.1))⟩
  if d.added = [] ∧ d.removed = [] ∧ d.modified = [] ∧ d.moved = [] then none else some d

/-! ### Metadata -/

/-- types/content_types.go:15-29 – `DocumentMetadata` (without the custom and XMP maps, which are not compared). -/
structure Meta where
  title : Bytes
  author : Bytes
  subject : Bytes
  keywords : Bytes
  creator : Bytes
  producer : Bytes
  creationDate : Bytes
  modDate : Bytes
  version : Bytes
  pageCount : Int
  encrypted : Bool
  deriving DecidableEq, Repr

/-- core/compare/compare.go:287-362 – `compareMetadata`: the names of the fields reported (`none` = nil). -/
def compareMetadata (o : Opts) (m1 m2 : Option Meta) : Option (List Bytes) :=
  if o.ignoreMetadata then none
  else match m1, m2 with
  | none, none => none
  | none, some _ => some []
  | some _, none => some []
  | some a, some b =>
    let r := (if a.title ≠ b.title then [b!"Title"] else []) ++ (if a.author ≠ b.author then [b!"Author"] else []) ++
      (if a.subject ≠ b.subject then [b!"Subject"] else []) ++ (if a.keywords ≠ b.keywords then [b!"Keywords"] else []) ++
      (if a.creator ≠ b.creator then [b!"Creator"] else []) ++
      (if !o.ignoreProducer && a.producer != b.producer then [b!"Producer"] else []) ++
      (if !o.ignoreDates && a.creationDate != b.creationDate then [b!"CreationDate"] else []) ++
      (if !o.ignoreDates && a.modDate != b.modDate then [b!"ModDate"] else []) ++
      (if a.version ≠ b.version then [b!"PDFVersion"] else []) ++
      (if a.pageCount ≠ b.pageCount then [b!"PageCount"] else []) ++
      (if a.encrypted ≠ b.encrypted then [b!"Encrypted"] else [])
    if r = [] then none else some r

/-! ### Forms -/

/-- Form field values (`interface{}`): the kinds the extractors produce. -/
inductive Value where
  | nil
  | str (s : Bytes)
  | bool (b : Bool)
  | int (i : Int)
  | strs (l : List Bytes)
  deriving DecidableEq, Repr

/-- `fmt.Sprintf("%v", v)`. -/
def showValue : Value → Bytes
  | .nil => b!"<nil>"
  | .str s => s
  | .bool b => if b then b!"true" else b!"false"
  | .int i => itoa i
  | .strs l => b!"[" ++ (l.intersperse b!" ").flatten ++ b!"]"

/-- core/compare/compare.go:971-985 – `valuesEqual`. -/
def valuesEqual (a b : Value) : Bool :=
  if a = .nil ∧ b = .nil then true
  else if a = .nil ∨ b = .nil then false
  else showValue a == showValue b

/-- forms/forms.go:28-36 – `Form`: its type and its values. -/
structure Form where
  typ : Bytes
  values : Map Bytes Value

/-- core/compare/compare.go:145-158 – `FormDiff`: names with old or new values. -/
structure FormDiff where
  added : List (Bytes × Value)
  removed : List (Bytes × Value)
  modified : List (Bytes × Value × Value)
  formType : Option (Bytes × Bytes)
  deriving DecidableEq, Repr

/-- core/compare/compare.go:848-968 – `compareForms`; `none` as input = extraction failed (no form), `none` as output =
nil.  The order of the entries is a Go map iteration. -/
def compareForms (f1 f2 : Option Form) : Option FormDiff :=
  match f1, f2 with
  | none, none => none
  | none, some b => some ⟨b.values, [], [], none⟩
  | some a, none => some ⟨[], a.values, [], none⟩
  | some a, some b =>
    if a.typ ≠ b.typ then some ⟨b.values, a.values, [], some (a.typ, b.typ)⟩
    else
      let added := b.values.filter fun e => (a.values.get e.1).isNone
      let removed := a.values.filter fun e => (b.values.get e.1).isNone
      let modified := a.values.filterMap fun e =>
        (b.values.get e.1).bind fun v2 => if valuesEqual e.2 v2 then none else some (e.1, e.2, v2)
      if added = [] ∧ removed = [] ∧ modified = [] then none else some ⟨added, removed, modified, none⟩

/-! ### Pages and documents -/

/-- types/content_types.go:32-47 – `Page`; `data` are the image data of its resources. -/
structure Page where
  width : Rat
  height : Rat
  rotation : Int
  text : List Elem
  graphics : List Shape
  images : List ImgRef
  annotations : List Shape
  data : Bytes → Option Img

/-- core/compare/compare.go:80-87 – the differences listed for a page. -/
inductive PageDiff where
  | dimensions
  | rotation
  | text (d : TextDiff)
  | graphics (d : List Shape × List Shape)
  | images (d : ImageDiff)
  | imageCount
  | annotations (d : List Shape × List Shape)
  | removed
  | added
  deriving DecidableEq, Repr

/-- core/compare/compare.go:422-519 – `compareSinglePage`: the list of differences. -/
def comparePage (fmt1 : Rat → Bytes) (o : Opts) (p q : Page) : List PageDiff :=
  (if p.width ≠ q.width ∨ p.height ≠ q.height then [.dimensions] else []) ++
  (if p.rotation ≠ q.rotation then [.rotation] else []) ++
  (match compareText o p.text q.text with | some d => [.text d] | none => []) ++
  (match compareKeyed (shapeKey fmt1) p.graphics q.graphics with | some d => [.graphics d] | none => []) ++
  (match compareImages p.data q.data p.images q.images with
    | some d => [.images d]
    | none => if p.images.length ≠ q.images.length then [.imageCount] else []) ++
  (match compareKeyed (shapeKey fmt1) p.annotations q.annotations with | some d => [.annotations d] | none => [])

/-- core/compare/compare.go:384-420 – `comparePages`: page numbers from 1, pages without differences left out. -/
def comparePages (fmt1 : Rat → Bytes) (o : Opts) : Nat → List Page → List Page → List (Nat × List PageDiff)
  | _, [], [] => []
  | k, _ :: ps, [] => (k, [.removed]) :: comparePages fmt1 o (k + 1) ps []
  | k, [], _ :: qs => (k, [.added]) :: comparePages fmt1 o (k + 1) [] qs
  | k, p :: ps, q :: qs =>
    let d := comparePage fmt1 o p q
    if d = [] then comparePages fmt1 o (k + 1) ps qs else (k, d) :: comparePages fmt1 o (k + 1) ps qs

/-- types/content_types.go:5-12 – `ContentDocument`, with the extracted form; a bookmark tree is one byte string. -/
structure Doc where
  info : Option Meta
  pages : List Page
  bookmarks : List Bytes
  form : Option Form

/-- core/compare/compare.go:212-284 – `ComparePDFsWithOptions` after extraction: `Summary.TotalDifferences`. -/
def totalDifferences (fmt1 : Rat → Bytes) (o : Opts) (d1 d2 : Doc) : Nat :=
  (if (compareMetadata o d1.info d2.info).isSome then 1 else 0) +
  (if d1.pages.length ≠ d2.pages.length then 1 else 0) +
  ((comparePages fmt1 o 1 d1.pages d2.pages).map (·.2.length)).sum +
  (if d1.bookmarks ≠ d2.bookmarks then 1 else 0) +
  (match compareForms d1.form d2.form with
    | some f => if f.added ≠ [] ∨ f.removed ≠ [] ∨ f.modified ≠ [] ∨ f.formType ≠ none then 1 else 0
    | none => 0)

/-- core/compare/compare.go:281 – `Identical`. -/
def identical (fmt1 : Rat → Bytes) (o : Opts) (d1 d2 : Doc) : Bool := totalDifferences fmt1 o d1 d2 == 0

end Pdfer.Compare
