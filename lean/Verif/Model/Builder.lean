import Verif.Model.Writer
import Verif.Model.Outline

/-! Model of core/write/page.go: `SimplePDFBuilder` and `PageBuilder`.

Simplifications: the caller's page builders are kept in a list (`drafts`) and named by their position in it; what the calls on
`Content()` append is given as bytes (Verif/Model/Content.lean models the calls themselves); the texts that `%.0f` prints for
width and height are given; an embedded font is the calls on the underlying writer that `Font.ToPDFObjects` makes (ordinary
`AddObject`/`AddStreamObject` calls) followed by `embedFont`. -/

namespace Pdfer.Builder

open Pdfer.Go Pdfer.Writer

/-- core/write/page.go:28-36 – `PageBuilder` (the writer is shared, see `Builder`). -/
structure Page where
  width : Bytes
  height : Bytes
  fonts : Map Bytes Int
  images : Map Bytes Int
  content : Bytes
deriving DecidableEq, Repr

/-- core/write/page.go:161-166 – `SimplePDFBuilder`, with the page builders handed out so far. -/
structure Builder where
  w : Writer
  drafts : List Page
  pages : List Int
  pagesNum : Int

/-- core/write/page.go:169-174 – `NewSimplePDFBuilder`. -/
def newBuilder : Builder := { w := newWriter, drafts := [], pages := [], pagesNum := 0 }

/-- core/write/page.go:39-47 – `NewPageBuilder`. -/
def newPage (width height : Bytes) : Page := { width := width, height := height, fonts := [], images := [], content := [] }

/-- core/write/page.go:64 – the dictionary of a standard font. -/
def fontText (name : Bytes) : Bytes := b!"<</Type/Font/Subtype/Type1/BaseFont/" ++ name ++ b!">>"

/-- core/write/page.go:56-69 – `AddStandardFont`: the writer, the page and the returned resource name. -/
def addStandardFont (w : Writer) (p : Page) (name : Bytes) : Writer × Page × Bytes :=
  if (p.fonts.get name).isSome then (w, p, b!"/" ++ name)
  else
    let r := b!"F" ++ natDec (p.fonts.length + 1)
    let o := addObject w (some (fontText name))
    (o.1, { p with fonts := p.fonts.set r o.2 }, b!"/" ++ r)

/-- core/write/page.go:77-80, :101-103 – a leading slash is dropped. -/
def dropSlash (r : Bytes) : Bytes := if (b!"/").isPrefixOf r then r.drop 1 else r

/-- core/write/page.go:72-83 – `AddImage`, given the name and the object number of the image. -/
def addImage (p : Page) (name : Bytes) (num : Int) : Page × Bytes :=
  let r := dropSlash (if name = [] then b!"Im" ++ natDec (p.images.length + 1) else name)
  ({ p with images := p.images.set r num }, b!"/" ++ r)

/-- core/write/page.go:98-106, resources/font/pdf.go:88 – the end of `AddEmbeddedFont`: the font dictionary is object `num`; the
resource is named after the next object number. -/
def embedFont (w : Writer) (p : Page) (num : Int) : Page × Bytes :=
  let r := dropSlash (b!"F" ++ itoa w.nextObjNum)
  ({ p with fonts := p.fonts.set r num }, b!"/" ++ r)

/-- core/write/page.go:139-141, :148-150 – the entries of a resource category, in the order in which Go visits the map. -/
def entries (l : List (Bytes × Int)) : Bytes := (l.map fun e => b!"/" ++ e.1 ++ b!" " ++ ref e.2).flatten

/-- core/write/page.go:133-153 – the resources dictionary; `ord` is the order in which Go visits a map. -/
def resources (ord : List (Bytes × Int) → List (Bytes × Int)) (p : Page) : Bytes :=
  b!"<<" ++ (if p.fonts.length > 0 then b!"/Font<<" ++ entries (ord p.fonts) ++ b!">>" else []) ++
  (if p.images.length > 0 then b!"/XObject<<" ++ entries (ord p.images) ++ b!">>" else []) ++ b!">>"

/-- core/write/page.go:156-157 – the page dictionary. -/
def pageText (ord : List (Bytes × Int) → List (Bytes × Int)) (parent contents : Int) (p : Page) : Bytes :=
  b!"<</Type/Page/Parent " ++ ref parent ++ b!"/MediaBox[0 0 " ++ p.width ++ b!" " ++ p.height ++ b!"]/Contents " ++
  ref contents ++ b!"/Resources" ++ resources ord p ++ b!">>"

/-- The parameters: the writer's, and the order in which Go visits the font and image maps. -/
structure Env where
  wenv : Writer.Env
  ord : List (Bytes × Int) → List (Bytes × Int)

/-- core/write/page.go:126-161 – `Build`: the writer, the number of the content stream and of the page.  `Bytes()` of a content
to which nothing was ever written is a nil slice. -/
def build (env : Env) (w : Writer) (p : Page) (parent : Int) : Writer × Int × Int :=
  let c := addStreamObject env.wenv w (.fresh []) (if p.content = [] then none else some p.content) true
  let o := addObject c.1 (some (pageText env.ord parent c.2 p))
  (o.1, c.2, o.2)

/-- core/write/page.go:187-195 – the number set aside for the page tree, the first time. -/
def reservePages (b : Builder) : Builder :=
  if b.pagesNum = 0 then { b with pagesNum := b.w.nextObjNum, w := { b.w with nextObjNum := b.w.nextObjNum + 1 } } else b

/-- core/write/page.go:187-198 – `FinalizePage`. -/
def finalizePage (env : Env) (b0 : Builder) (p : Page) : Builder :=
  let b := reservePages b0
  let r := build env b.w p b.pagesNum
  { b with w := r.1, pages := b.pages ++ [r.2.2] }

/-- core/write/page.go:203-210 – the page tree. -/
def pagesText (pages : List Int) : Bytes :=
  b!"<</Type/Pages/Kids[" ++ (pages.map fun n => ref n ++ b!" ").flatten ++ b!"]/Count " ++ natDec pages.length ++ b!">>"

/-- core/write/page.go:214 – the catalogue. -/
def catalogText (pages : Int) : Bytes := b!"<</Type/Catalog/Pages " ++ ref pages ++ b!">>"

/-- core/write/page.go:201-215 – `Bytes` up to the call of the writer. -/
def finish (b : Builder) : Builder :=
  let w1 := setObject b.w b.pagesNum (some (pagesText b.pages))
  let o := addObject w1 (some (catalogText b.pagesNum))
  { b with w := { o.1 with rootRef := ref o.2 } }

/-- core/write/page.go:201-218 – `Bytes`. -/
def bytes (env : Env) (b : Builder) : Bytes × Builder :=
  let b1 := finish b
  let r := write env.wenv b1.w
  (r.1, { b1 with w := r.2 })

/-- core/write/page.go:222-231 – the page numbers given to the writer's `SetBookmarks`: 1-based. -/
def pageNumbers (b : Builder) : Map Int Int := b.pages.zipIdx.map fun e => (((e.2 : Int) + 1), e.1)

/-- The public calls.  Page builders are named by their position in `drafts`. -/
inductive BOp where
  | addPage (width height : Bytes)
  | font (i : Nat) (name : Bytes)
  | image (i : Nat) (name : Bytes) (num : Int)
  | embedFont (i : Nat) (num : Int)
  | draw (i : Nat) (text : Bytes)
  | writer (op : Op)
  | finalize (i : Nat)
  | bytes

/-- Change draft `i`. -/
def onDraft (b : Builder) (i : Nat) (f : Page → Page) : Builder :=
  match b.drafts[i]? with
  | none => b
  | some p => { b with drafts := b.drafts.set i (f p) }

/-- core/write/page.go – one public call. -/
def bstep (env : Env) (b : Builder) : BOp → Builder
  | .addPage x y => { b with drafts := b.drafts ++ [newPage x y] }
  | .font i name => match b.drafts[i]? with
    | none => b
    | some p => let r := addStandardFont b.w p name; { b with w := r.1, drafts := b.drafts.set i r.2.1 }
  | .image i name num => onDraft b i fun p => (addImage p name num).1
  | .embedFont i num => onDraft b i fun p => (Builder.embedFont b.w p num).1
  | .draw i text => onDraft b i fun p => { p with content := p.content ++ text }
  | .writer op => { b with w := (step env.wenv b.w op).1 }
  | .finalize i => match b.drafts[i]? with
    | none => b
    | some p => finalizePage env b p
  | .bytes => (bytes env b).2

/-- A history of calls on a new builder. -/
def brun (env : Env) (ops : List BOp) : Builder := ops.foldl (bstep env) newBuilder

end Pdfer.Builder
