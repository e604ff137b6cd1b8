import Verif.Model.Manipulate
import Verif.Model.Incremental
import Verif.Model.Strings

/-! Model of core/write/bookmarks.go (writing an outline), of core/write/writer.go:174-249 (the catalog is rewritten when an outline
was set) and of content/extract/bookmarks.go (reading an outline). -/

namespace Pdfer.Outline

open Pdfer.Go Pdfer.Writer Pdfer.Strings Pdfer.Manipulate

/-- types/content_types.go:249-257 – `Bookmark`: title, page number, destination, URI, children (colour and style are used by
neither side). -/
inductive Bookmark where
  | mk (title : Bytes) (page : Int) (dest uri : Bytes) (children : List Bookmark)

/-- core/write/bookmarks.go:163-182 – `addDictEntry` (both branches append). -/
def addDictEntry (s key value : Bytes) : Bytes :=
  match lastIndex b!">>" s with
  | none => s
  | some i => s.take i ++ (key ++ b!" " ++ value ++ b!" ") ++ s.drop i

/-- core/write/bookmarks.go:54-65 – the destination text. -/
def destOf (pages : Map Int Int) (page : Int) (dest : Bytes) : Bytes :=
  if page > 0 then
    match pages.get page with
    | some n => b!"[" ++ itoa n ++ b!" 0 R /XYZ 0 792 null]"
    | none => []
  else dest

/-- core/write/bookmarks.go:70-74 – the action dictionary of a URI. -/
def actionDict (uri : Bytes) : Dict :=
  [(b!"/Type", .str b!"/Action"), (b!"/S", .str b!"/URI"), (b!"/URI", .str (b!"(" ++ escapePDFString uri ++ b!")"))]

/-- core/write/bookmarks.go:68-77 – the action object; its reference is empty if there is no URI. -/
def addAction (w : Writer) (uri : Bytes) : Writer × Bytes :=
  if uri = [] then (w, [])
  else ((addObject w (some (formatDictionary (actionDict uri)))).1, ref w.nextObjNum)

/-- core/write/bookmarks.go:96-126 – the dictionary of an item: `prev` is the item before it, `kids` the first and last child and
their count.  (The keys are distinct, so the successive assignments are an append.) -/
def itemDict (title dest action : Bytes) (parent : Int) (prev : Option Int) (kids : Option (Int × Int × Int)) : Dict :=
  [(b!"/Title", .str (b!"(" ++ escapePDFString title ++ b!")"))] ++
  (if dest ≠ [] then [(b!"/Dest", .str dest)] else []) ++
  (if action ≠ [] then [(b!"/A", .str action)] else []) ++
  (if parent > 0 then [(b!"/Parent", .str (ref parent))] else []) ++
  (match prev with | some p => [(b!"/Prev", .str (ref p))] | none => []) ++
  (match kids with
    | some (f, l, c) => [(b!"/First", .str (ref f)), (b!"/Last", .str (ref l)), (b!"/Count", .int c)]
    | none => [])

/-- `obj.Content = c` for the object `o` with number `n` (core/write/bookmarks.go:143, writer.go:214). -/
def putContent (w : Writer) (n : Int) (o : Obj) (c : Bytes) : Writer :=
  { w with objects := w.objects.set n { o with content := some c } }

/-- core/write/bookmarks.go:137-145 – the item before gets its /Next. -/
def setNext (w : Writer) (prev item : Int) : Writer :=
  match w.objects.get prev with
  | none => w
  | some o => putContent w prev o (addDictEntry (o.content.getD []) b!"/Next" (ref item))

/-- core/write/bookmarks.go:48-50 – the local variables of the loop (with the writer). -/
structure St where
  w : Writer
  first : Int
  last : Int
  count : Int

mutual
/-- core/write/bookmarks.go:52-157 – the loop; `later` is `i > 0`. -/
def createItems (pages : Map Int Int) (parent : Int) (later : Bool) (st : St) : List Bookmark → St
  | [] => st
  | b :: bs => createItems pages parent true (createItem pages parent later st b) bs
/-- core/write/bookmarks.go:53-156 – one turn of the loop. -/
def createItem (pages : Map Int Int) (parent : Int) (later : Bool) (st : St) : Bookmark → St
  | .mk title page dest uri children =>
    let a := addAction st.w uri
    let n := a.1.nextObjNum
    let kids := createItems pages n false ⟨{ a.1 with nextObjNum := n + 1 }, 0, 0, 0⟩ children
    let d := itemDict title (destOf pages page dest) a.2 parent (if later then some st.last else none)
      (if children.length > 0 then some (kids.first, kids.last, kids.count) else none)
    let w := { kids.w with objects := kids.w.objects.set n { content := some (formatDictionary d), stream := none, dict := none } }
    { w := if later then setNext w st.last n else w,
      first := if later then st.first else n, last := n,
      count := st.count + 1 + (if kids.count > 0 then kids.count else 0) }
end

/-- core/write/writer.go:34-46 – `PDFWriter` with its `outlinesRef`. -/
structure OWriter where
  w : Writer
  outlines : Bytes

/-- core/write/bookmarks.go:24-31 – the outlines dictionary. -/
def outlinesDict (first last count : Int) : Dict :=
  [(b!"/Type", .str b!"/Outlines"), (b!"/First", .str (ref first)), (b!"/Last", .str (ref last)), (b!"/Count", .int count)]

/-- core/write/bookmarks.go:14-39 – `SetBookmarks` (it never fails): the writer and the returned number. -/
def setBookmarks (o : OWriter) (bs : List Bookmark) (pages : Map Int Int) : OWriter × Int :=
  if bs.length = 0 then (o, 0)
  else
    let st := createItems pages 0 false ⟨o.w, 0, 0, 0⟩ bs
    let r := addObject st.w (some (formatDictionary (outlinesDict st.first st.last st.count)))
    (⟨r.1, ref r.2⟩, r.2)

/-- core/write/writer.go:233-249 – `extractDictValueFromString`. -/
def valueFromString (s key : Bytes) : Bytes :=
  match index (key ++ b!" ") s with
  | none => []
  | some i => (s.drop (i + (key ++ b!" ").length)).takeWhile fun c => c ≠ 32 && c ≠ 62 && c ≠ 10

/-- core/write/writer.go:180-181 – the number `Sscanf` reads back from `rootRef`, a text made by `SetRoot` (0 if it is empty). -/
def refNum (r : Bytes) : Int := (atoi (r.takeWhile (· ≠ 32))).getD 0

/-- core/write/writer.go:222-230 – the last part: the new content of the catalog `n`, whose dictionary (address `a`) gets the entry. -/
def putOutlines (o : OWriter) (n : Int) (obj : Obj) (heap : List Dict) (a : Nat) : OWriter :=
  let d := (heap.getD a []).set b!"/Outlines" (.str o.outlines)
  { o with w := { o.w with
      heap := heap.set a d,
      objects := o.w.objects.set n { obj with content := some (formatDictionary d), dict := some a } } }

/-- core/write/writer.go:174-231 – `updateCatalogWithOutlines`. -/
def updateCatalog (o : OWriter) : OWriter :=
  if o.outlines = [] ∨ o.w.rootRef = [] then o
  else
    let n := refNum o.w.rootRef
    if n = 0 then o
    else match o.w.objects.get n with
      | none => o
      | some obj =>
        match obj.dict with
        | some a => putOutlines o n obj o.w.heap a
        | none =>
          let s := obj.content.getD []
          if contains s b!"/Type" && contains s b!"/Pages" then
            putOutlines o n obj
              (o.w.heap ++ [[(b!"/Type", .str b!"/Catalog"), (b!"/Pages", .str (valueFromString s b!"/Pages"))]]) o.w.heap.length
          else if contains s b!"/Outlines" then o
          else match lastIndex b!">>" s with
            | none => o
            | some i =>
              if i > 0 then
                { o with w := putContent o.w n obj (s.take i ++ (b!"/Outlines " ++ o.outlines ++ b!" ") ++ s.drop i) }
              else o

/-- core/write/writer.go:257-414 – `Write` of a writer that may have an outline: the catalog is updated before (:259-261) and once
more after the objects have been written (:353-357, :394-398). -/
def owrite (env : Env) (o : OWriter) : Bytes × OWriter :=
  let o1 := updateCatalog o
  let r := write env o1.w
  (r.1, updateCatalog { o1 with w := r.2 })

/-- The public calls on a writer with outlines. -/
inductive OOp where
  | call (op : Op)
  | bookmarks (bs : List Bookmark) (pages : Map Int Int)

/-- One call (`write` is `owrite`). -/
def ostep (env : Env) (o : OWriter) : OOp → OWriter
  | .call .write => (owrite env o).2
  | .call op => { o with w := (step env o.w op).1 }
  | .bookmarks bs pages => (setBookmarks o bs pages).1

/-- A history of calls on a new writer. -/
def orun (env : Env) (ops : List OOp) : OWriter := ops.foldl (ostep env) ⟨newWriter, []⟩

/-! ### Reading -/

/-- content/extract/bookmarks.go:77-94 – the URI, looked for only if there is no destination. -/
def readURI (get : Int → Option Bytes) (s : Bytes) : Bytes :=
  match parseObjectRef (xDictValue s b!"/A") with
  | none => []
  | some n => match get n with
    | none => []
    | some t => unescapePDFString (xDictValue t b!"/URI")

/-- content/extract/bookmarks.go:106-112, :117-123 – an optional reference is followed by `go`; an error is skipped. -/
def follow (go : Bytes → Option (Option (List Bookmark))) (r : Bytes) : Option (List Bookmark) :=
  if r = [] then some [] else (go r).map fun l => l.getD []

/-- content/extract/bookmarks.go:54-126 – `extractBookmarksRecursive`.  The recursion has no guard, so it is given fuel: outer
`none` means that the fuel ran out; inner `none` is an error. -/
def readItems (get : Int → Option Bytes) : Nat → Bytes → Option (Option (List Bookmark))
  | 0, _ => none
  | fuel + 1, r =>
    match parseObjectRef r with
    | none => some none
    | some n => match get n with
      | none => some none
      | some s =>
        (follow (readItems get fuel) (xDictValue s b!"/First")).bind fun kids =>
        (follow (readItems get fuel) (xDictValue s b!"/Next")).map fun next =>
        some (Bookmark.mk (unescapePDFString (xDictValue s b!"/Title")) 0 (xDictValue s b!"/Dest")
          (if xDictValue s b!"/Dest" = [] then readURI get s else []) kids :: next)

/-- content/extract/bookmarks.go:9-51 – `ExtractBookmarks` (errors give the empty list); `root` is the trailer's /Root. -/
def extractBookmarks (get : Int → Option Bytes) (root : Bytes) (fuel : Nat) : Option (List Bookmark) :=
  if root = [] then some []
  else match (parseObjectRef root).bind get with
    | none => some []
    | some cat => match (parseObjectRef (xDictValue cat b!"/Outlines")).bind get with
      | none => some []
      | some outl => follow (readItems get fuel) (xDictValue outl b!"/First")

/-- content/extract/bookmarks.go:27, :39, :62, :83 – `pdf.GetObject` as the extraction uses it: the bytes or a failure. -/
def pdfGet (env : Incremental.Env) (pdf : Incremental.Pdf) (n : Int) : Option Bytes :=
  match Incremental.getObject env pdf n with
  | .ok b => some b
  | _ => none

end Pdfer.Outline
