import Verif.Model.Content

/-! content/extract/pages.go, resources.go, dict_helpers.go, annotations.go, images.go and extract.go: from an opened document to its
pages, with their sizes, resources, texts, drawings, annotations and images.

Simplifications: `get n` is the text `GetObject` returns for object `n` (`none`: an error); numbers are of an abstract type; the
progress messages are left out. -/

namespace Pdfer.Extract

open Pdfer.Go Pdfer.Strings Pdfer.Manipulate Pdfer.Content

/-- The floating-point operations: those of the content reader, subtraction, and the conversion to int. -/
structure XFloats (F : Type) extends Floats F where
  sub : F → F → F
  toInt : F → Int

variable {F : Type}

/-! ### Values in dictionaries -/

/-- content/extract/pages.go:340-357 – `extractArrayValue`: what is no number is left out.  (The expression also skips white space
after the bracket, which `Fields` drops anyway.) -/
def arrayValue (fl : XFloats F) (s key : Bytes) : List F :=
  match searchWith (reArr key) s with
  | none => []
  | some t => (fields t).filterMap fl.parse

/-- The four numbers of a rectangle, if there are that many. -/
def rectOf : List F → Option (F × F × F × F)
  | a :: b :: c :: d :: _ => some (a, b, c, d)
  | _ => none

/-- content/extract/dict_helpers.go:26-41, resources.go:77-95 – the text up to the `>>` that closes the dictionary; `depth` dictionaries
are open. -/
def dictBody : Nat → Bytes → Option Bytes
  | _, [] => none
  | _, [_] => none
  | depth, 62 :: 62 :: r => if depth = 1 then some [] else (dictBody (depth - 1) r).map (fun t => 62 :: 62 :: t)
  | depth, 60 :: 60 :: r => (dictBody (depth + 1) r).map (fun t => 60 :: 60 :: t)
  | depth, c :: r => (dictBody depth r).map (fun t => c :: t)

/-- The white space these functions skip. -/
def skipWs (s : Bytes) : Bytes := s.dropWhile fun c => c == 32 || c == 10 || c == 13

/-- content/extract/dict_helpers.go:7-48 – `extractInlineDict` (empty: not found). -/
def inlineDict (s key : Bytes) : Bytes :=
  match index key s with
  | none => []
  | some i => match skipWs (s.drop (i + key.length)) with
    | 60 :: 60 :: r => (dictBody 1 r).getD []
    | _ => []

/-! ### Resources -/

/-- content/extract/resources.go:63, :219 – `key\s*<<([^>]*)>>` anchored: the group. -/
def reDictGroup (key s : Bytes) : Option Bytes :=
  (reLit key s).bind fun r => (reLit b!"<<" (reSp0 r)).bind fun r =>
    (reLit b!">>" (r.dropWhile (· ≠ 62))).map fun _ => r.takeWhile (· ≠ 62)

/-- content/extract/resources.go:223 – `key\s*<<([^>]+)` anchored: the group. -/
def reDictOpen (key s : Bytes) : Option Bytes :=
  (reLit key s).bind fun r => (reLit b!"<<" (reSp0 r)).bind fun r =>
    if r.takeWhile (· ≠ 62) = [] then none else some (r.takeWhile (· ≠ 62))

/-- content/extract/resources.go:60-104, :341-376 – the inside of the font dictionary. -/
def fontDict (res : Bytes) : Option Bytes :=
  match searchWith (reDictGroup b!"/Font") res with
  | some t => some t
  | none => match index b!"/Font" res with
    | none => none
    | some i => match skipWs (res.drop (i + 5)) with
      | 60 :: 60 :: r => dictBody 1 r
      | _ => none

/-- content/extract/resources.go:218-231 – the inside of the XObject dictionary. -/
def xobjDict (res : Bytes) : Option Bytes :=
  match searchWith (reDictGroup b!"/XObject") res with
  | some t => some t
  | none => searchWith (reDictOpen b!"/XObject") res

/-- content/extract/resources.go:112, :234, :382 – `/(\w+)\s+(\d+)\s+\d+\s+R` anchored: name, number and rest. -/
def reEntry (s : Bytes) : Option ((Bytes × Bytes) × Bytes) :=
  (reLit b!"/" s).bind fun s => if s.takeWhile Forms.reWord = [] then none else
    (reSp1 (s.dropWhile Forms.reWord)).bind fun r => (reRef r).map fun p => ((s.takeWhile Forms.reWord, p.1), p.2)

/-- content/extract/resources.go:113-122, :235-241, :383-389 – the entries of a category: names and object numbers (0 when the number
does not fit an int). -/
def entriesOf (dict : Bytes) : List (Bytes × Int) :=
  (Forms.findAll reEntry 0 dict).map fun e => (e.1, (parseObjectRef (e.2 ++ b!" 0 R")).getD 0)

/-- types.FontInfo. -/
structure FontInfo where
  id : Bytes
  name : Bytes
  family : Bytes
  subtype : Bytes
  encoding : Bytes
  embedded : Bool
  toUnicode : Bool
  deriving DecidableEq, Repr

/-- `strings.TrimPrefix(s, "/")`. -/
def noSlash (s : Bytes) : Bytes := if (b!"/").isPrefixOf s then s.drop 1 else s

/-- The first of two values that is not empty. -/
def orElse (a b : Bytes) : Bytes := if a = [] then b else a

/-- content/extract/resources.go:136-210 – `extractFontInfo` and :121-125 – its name in the resources. -/
def fontInfo (get : Int → Option Bytes) (name : Bytes) (num : Int) : Option FontInfo :=
  (get num).map fun s =>
    let sub := orElse (xDictValue s b!"/Subtype") (xDictValue s b!"Subtype")
    let base := orElse (xDictValue s b!"/BaseFont") (xDictValue s b!"BaseFont")
    let desc := (if xDictValue s b!"/FontDescriptor" = [] then none else parseObjectRef (xDictValue s b!"/FontDescriptor")).bind get
    { id := b!"/" ++ name
      name := base
      family := match desc with
        | none => if base = [] then [] else (split 45 (noSlash base)).headD []
        | some d => if xDictValue d b!"/FontFamily" = [] then (if base = [] then [] else (split 45 (noSlash base)).headD [])
          else xDictValue d b!"/FontFamily"
      subtype := if sub = [] then b!"Unknown" else if (b!"/").isPrefixOf sub then sub else b!"/" ++ sub
      encoding := xDictValue s b!"/Encoding"
      embedded := contains s b!"/FontFile" || (desc.map fun d => contains d b!"/FontFile").getD false
      toUnicode := contains s b!"/ToUnicode" }

/-- A map filled from a list: later entries replace earlier ones; entries without a value are left out. -/
def fillMap {V : Type} (f : Bytes × Int → Option V) (es : List (Bytes × Int)) : Map Bytes V :=
  es.foldl (fun m e => match f e with | none => m | some v => m.set e.1 v) []

/-- content/extract/resources.go:52-130 – `extractFontsDict`. -/
def fontsOf (get : Int → Option Bytes) (res : Bytes) : Map Bytes FontInfo :=
  match fontDict res with
  | none => []
  | some d => fillMap (fun e => fontInfo get e.1 e.2) (entriesOf d)

/-- types.XObject. -/
structure XObj (F : Type) where
  id : Bytes
  subtype : Bytes
  width : F
  height : F
  deriving DecidableEq, Repr

/-- A number in a dictionary; zero when it is missing or no number. -/
def numValue (fl : XFloats F) (s key : Bytes) : F :=
  if xDictValue s key = [] then fl.zero else (fl.parse (xDictValue s key)).getD fl.zero

/-- content/extract/resources.go:290-328 – `extractXObjectInfo`, and :243-247 – its name in the resources. -/
def xobjInfo (fl : XFloats F) (get : Int → Option Bytes) (name : Bytes) (num : Int) : Option (XObj F) :=
  (get num).bind fun s =>
    let sub := xDictValue s b!"/Subtype"
    if sub = [] then none
    else if sub = b!"/Image" then some ⟨b!"/" ++ name, sub, numValue fl s b!"/Width", numValue fl s b!"/Height"⟩
    else some ⟨b!"/" ++ name, sub, fl.zero, fl.zero⟩

/-- content/extract/resources.go:213-250 – `extractXObjectsDict`. -/
def xobjectsOf (fl : XFloats F) (get : Int → Option Bytes) (res : Bytes) : Map Bytes (XObj F) :=
  match xobjDict res with
  | none => []
  | some d => fillMap (fun e => xobjInfo fl get e.1 e.2) (entriesOf d)

/-- content/extract/resources.go:253-287 – the object numbers of `extractXObjectsDictWithObjNums`. -/
def xobjNums (res : Bytes) : Map Bytes Int :=
  match xobjDict res with
  | none => []
  | some d => fillMap (fun e => some e.2) (entriesOf d)

/-- types.Image without the base64 form of the data. -/
structure Image where
  id : Bytes
  width : Int
  height : Int
  format : Bytes
  colorSpace : Bytes
  bits : Int
  filter : Bytes
  data : Bytes
  deriving DecidableEq, Repr

/-- types.PageResources (the other categories are never filled). -/
structure Resources (F : Type) where
  fonts : Map Bytes FontInfo
  images : Map Bytes Image
  xobjects : Map Bytes (XObj F)

/-- content/extract/resources.go:14-49 – `extractResources`. -/
def resourcesOf (fl : XFloats F) (get : Int → Option Bytes) (res : Bytes) : Resources F :=
  let xs := xobjectsOf fl get res
  { fonts := fontsOf get res, xobjects := xs,
    images := xs.filterMap fun e => if e.2.subtype = b!"/Image" then
      some (e.1, ⟨b!"/" ++ e.1, fl.toInt e.2.width, fl.toInt e.2.height, b!"unknown", [], 0, [], []⟩) else none }

/-- content/extract/resources.go:333-397 – `extractFontDecoders`. -/
def fontDecoders (get : Int → Option Bytes) (unz : Bytes → Option Bytes) (res : Bytes) : Map Bytes Enc.Decoder :=
  match fontDict res with
  | none => []
  | some d => (entriesOf d).foldl (fun m e => match get e.2 with
      | none => m
      | some s => m.set (b!"/" ++ e.1) (Enc.fontDecoder get unz s)) []

/-! ### Annotations -/

/-- types.Annotation (the page number in it is the page's object number; Actions and Properties stay empty). -/
structure Annot (F : Type) where
  id : Int
  type : Bytes
  page : Int
  rect : Option (F × F × F × F)
  contents : Bytes
  title : Bytes
  subject : Bytes
  color : List F
  border : Option (F × List F)
  uri : Bytes
  dest : Bytes
  isOpen : Bool
  icon : Bytes
  quad : List F

/-- content/extract/annotations.go:66-102 – the annotation type of a subtype (types/content_types.go:222-239). -/
def annotType (sub : Bytes) : Bytes :=
  if sub = b!"/Link" then b!"link"
  else if sub = b!"/Text" then b!"text"
  else if sub = b!"/Highlight" then b!"highlight"
  else if sub = b!"/Underline" then b!"underline"
  else if sub = b!"/StrikeOut" then b!"strikeout"
  else if sub = b!"/Squiggly" then b!"squiggly"
  else if sub = b!"/Circle" then b!"circle"
  else if sub = b!"/Square" then b!"square"
  else if sub = b!"/Line" then b!"line"
  else if sub = b!"/Polygon" then b!"polygon"
  else if sub = b!"/Polyline" then b!"polyline"
  else if sub = b!"/Ink" then b!"ink"
  else if sub = b!"/Stamp" then b!"stamp"
  else if sub = b!"/Caret" then b!"caret"
  else if sub = b!"/FreeText" then b!"freetext"
  else if sub = b!"/Popup" then b!"popup"
  else noSlash sub

/-- content/extract/annotations.go:175, :187 – `unescapePDFString(s[1 : len(s)-1])`. -/
def unquote (s : Bytes) : Res Bytes :=
  if 1 ≤ s.length ∧ 1 ≤ s.length - 1 then .ok (unescapePDFString ((s.take (s.length - 1)).drop 1)) else .panic

/-- content/extract/annotations.go:168-193 – the target of a link. -/
def linkUri (get : Int → Option Bytes) (s : Bytes) : Res Bytes :=
  let v := xDictValue s b!"/URI"
  if v = [] then .ok []
  else if (b!"(").isPrefixOf v then unquote v
  else match (parseObjectRef v).bind get with
    | none => .ok []
    | some t => if xDictValue t b!"/URI" = [] then .ok [] else unquote (xDictValue t b!"/URI")

/-- An unescaped text value. -/
def textValue (s key : Bytes) : Bytes := if xDictValue s key = [] then [] else unescapePDFString (xDictValue s key)

/-- content/extract/annotations.go:149-162 – width and dashes of the border. -/
def borderOf (fl : XFloats F) (s : Bytes) : Option (F × List F) :=
  if xDictValue s b!"/Border" = [] then none
  else match arrayValue fl s b!"/Border" with
    | [] => none
    | w :: r => some (w, if 1 < r.length then r.take (r.length - 1) else [])

/-- content/extract/annotations.go:45-237 – `extractAnnotation` (`.ok none`: no annotation). -/
def annotation (fl : XFloats F) (get : Int → Option Bytes) (page num : Int) : Res (Option (Annot F)) :=
  match get num with
  | none => .ok none
  | some s =>
    let sub := xDictValue s b!"/Subtype"
    if sub = [] then .ok none
    else
      let ty := annotType sub
      let color := arrayValue fl s b!"/C"
      (if ty = b!"link" then linkUri get s else .ok []).bind fun uri =>
        .ok (some
          { id := num, type := ty, page := page
            rect := rectOf (arrayValue fl s b!"/Rect")
            contents := textValue s b!"/Contents", title := textValue s b!"/T", subject := textValue s b!"/Subj"
            color := if 3 ≤ color.length then color.take 4 else []
            border := borderOf fl s
            uri := uri
            dest := if ty = b!"link" then xDictValue s b!"/Dest" else []
            isOpen := ty = b!"text" && xDictValue s b!"/Open" = b!"true"
            icon := if ty = b!"text" then xDictValue s b!"/Name" else []
            quad := if (ty = b!"highlight" ∨ ty = b!"underline" ∨ ty = b!"strikeout" ∨ ty = b!"squiggly") ∧
                8 ≤ (arrayValue fl s b!"/QuadPoints").length then (arrayValue fl s b!"/QuadPoints").take 8 else [] })

/-- content/extract/annotations.go:25-40 – the loop over the references. -/
def annotLoop (fl : XFloats F) (get : Int → Option Bytes) (page : Int) : List Bytes → Res (List (Annot F))
  | [] => .ok []
  | r :: rs => match parseObjectRef r with
    | none => annotLoop fl get page rs
    | some n => (annotation fl get page n).bind fun a => (annotLoop fl get page rs).bind fun as => .ok (a.toList ++ as)

/-- content/extract/annotations.go:12-43 – `extractAnnotations` of a text that is not empty. -/
def annotations (fl : XFloats F) (get : Int → Option Bytes) (page : Int) (s : Bytes) : Res (List (Annot F)) :=
  annotLoop fl get page (if parseObjectRefArray s = [] then [s] else parseObjectRefArray s)

/-! ### Pages -/

/-- types.Page (its number is its position). -/
structure XPage (F : Type) where
  mediaBox : Option (F × F × F × F)
  width : F
  height : F
  cropBox : Option (F × F × F × F)
  rotation : Int
  resources : Option (Resources F)
  texts : List (Elem F)
  graphics : List (Graphic F)
  images : List (ImageRef F)
  annots : List (Annot F)

/-- content/extract/pages.go:185-207, images.go:208-225 – the text of the page's resources (empty: none). -/
def resourcesText (get : Int → Option Bytes) (s : Bytes) : Bytes :=
  let ref := xDictValue s b!"/Resources"
  if ref ≠ [] then ((parseObjectRef ref).bind get).getD [] else inlineDict s b!"/Resources"

/-- content/extract/pages.go:185-207 – whether the page gets resources at all (an object may be empty; an inline dictionary not). -/
def hasResources (get : Int → Option Bytes) (s : Bytes) : Bool :=
  let ref := xDictValue s b!"/Resources"
  if ref ≠ [] then ((parseObjectRef ref).bind get).isSome else inlineDict s b!"/Resources" ≠ []

/-- content/extract/pages.go:241-291 – the content of a content stream object: the decoded data of the stream; the whole text when
it is no stream. -/
def contentText (unz : Bytes → Option Bytes) (s : Bytes) : Bytes :=
  match Enc.afterStream s with
  | none => s
  | some r => match index b!"endstream" r with
    | none => s
    | some j => if contains s b!"/FlateDecode" then (unz (r.take j)).getD (r.take j) else r.take j

/-- content/extract/pages.go:216-226 – the references to the content streams. -/
def contentRefs (s : Bytes) : List Bytes :=
  let c := xDictValue s b!"/Contents"
  if c = [] then [] else if parseObjectRefArray c = [] then [c] else parseObjectRefArray c

/-- content/extract/pages.go:227-297 – what the content streams hold, each read on its own. -/
def contentsOf (fl : XFloats F) (get : Int → Option Bytes) (unz : Bytes → Option Bytes) (fonts : Option (Map Bytes Enc.Decoder))
    (refs : List Bytes) : List (State F) :=
  refs.filterMap fun r => ((parseObjectRef r).bind get).map fun s => parseContent fl.toFloats fonts (contentText unz s)

/-- content/extract/pages.go:149-312 – `extractPage`. -/
def page (fl : XFloats F) (get : Int → Option Bytes) (unz : Bytes → Option Bytes) (num : Int) (s : Bytes) : Res (XPage F) :=
  let box := rectOf (arrayValue fl s b!"/MediaBox")
  let res := resourcesText get s
  let fonts := if res = [] then none else some (fontDecoders get unz res)
  let cs := contentsOf fl get unz fonts (contentRefs s)
  (if xDictValue s b!"/Annots" = [] then .ok [] else annotations fl get num (xDictValue s b!"/Annots")).bind fun as =>
    .ok { mediaBox := box
          width := match box with | some (x, _, x', _) => fl.sub x' x | none => fl.zero
          height := match box with | some (_, y, _, y') => fl.sub y' y | none => fl.zero
          cropBox := rectOf (arrayValue fl s b!"/CropBox")
          rotation := (atoi (xDictValue s b!"/Rotate")).getD 0
          resources := if hasResources get s then some (resourcesOf fl get res) else none
          texts := cs.flatMap (·.texts), graphics := cs.flatMap (·.graphics), images := cs.flatMap (·.images), annots := as }

/-- content/extract/pages.go:123-143 – the loop over the kids; `go` is the recursive call (`none`: it does not return). -/
def kidPages (go : Int → Option (Res (List (XPage F)))) : List Bytes → Option (Res (List (XPage F)))
  | [] => some (.ok [])
  | r :: rs =>
    match parseObjectRef r with
    | none => kidPages go rs
    | some k => (go k).bind fun l => match l with
      | .panic => some .panic
      | .err => kidPages go rs
      | .ok ps => (kidPages go rs).map fun ls => ls.bind fun qs => .ok (ps ++ qs)

/-- content/extract/pages.go:70-147 – `extractPagesFromTree` (fuel as in `xPageNums`). -/
def treePages (fl : XFloats F) (get : Int → Option Bytes) (unz : Bytes → Option Bytes) : Nat → Int → Option (Res (List (XPage F)))
  | 0, _ => none
  | fuel + 1, n =>
    match get n with
    | none => some .err
    | some s =>
      if xIsPage s then some ((page fl get unz n s).bind fun p => .ok [p])
      else
        let kids := xDictValue s b!"/Kids"
        if kids = [] then some (.ok [])
        else
          let kids := if (b!"[").isPrefixOf kids then kids else b!"[" ++ kids ++ b!"]"
          kidPages (treePages fl get unz fuel) (parseObjectRefArray kids)

/-- content/extract/pages.go:14-66 – `ExtractPages`. -/
def extractPages (fl : XFloats F) (get : Int → Option Bytes) (unz : Bytes → Option Bytes) (root : Bytes) (fuel : Nat) :
    Option (Res (List (XPage F))) :=
  match (parseObjectRef root).bind get with
  | none => some .err
  | some cat => match parseObjectRef (xDictValue cat b!"/Pages") with
    | none => some .err
    | some p => treePages fl get unz fuel p

/-! ### Images -/

/-- An integer in a dictionary; 0 when it is missing or no integer. -/
def intValue (s key : Bytes) : Int := (atoi (xDictValue s key)).getD 0

/-- content/extract/images.go:62-73 – the format of a filter. -/
def formatOf (filter : Bytes) : Bytes :=
  if filter = [] then []
  else if contains filter b!"DCTDecode" then b!"jpeg"
  else if contains filter b!"FlateDecode" then b!"png"
  else if contains filter b!"CCITTFaxDecode" then b!"tiff"
  else if contains filter b!"JPXDecode" then b!"jpeg2000"
  else b!"unknown"

/-- content/extract/images.go:76-110 – the data of the stream: as many bytes as /Length says, or up to endstream.  The sum of position
and length wraps around; a slice up to a negative position panics. -/
def imageStream (s : Bytes) : Res Bytes :=
  match index b!"stream" s with
  | none => .ok []
  | some i =>
    let len := ((searchWith (reKeyNum b!"/Length") (s.take i)).map atoiClamp).getD 0
    let r := s.drop (i + 6)
    let r := if r.head?.any (· == 13) then r.drop 1 else r
    let r := if r.head?.any (· == 10) then r.drop 1 else r
    if 9223372036854775807 < (s.length - r.length) + len then .panic
    else if 0 < len ∧ len ≤ r.length then .ok (r.take len)
    else match index b!"endstream" r with
      | none => .ok []
      | some j => .ok (r.take j)

/-- content/extract/images.go:16-145 – `extractImageData` (`.err`: an error). -/
def imageData (get : Int → Option Bytes) (unz : Bytes → Option Bytes) (num : Int) : Res Image :=
  (Res.ofOption (get num)).bind fun s =>
    let filter := xDictValue s b!"/Filter"
    (imageStream s).bind fun raw => .ok
      { id := b!"/Im" ++ itoa num, width := intValue s b!"/Width", height := intValue s b!"/Height", format := formatOf filter
        colorSpace := xDictValue s b!"/ColorSpace", bits := intValue s b!"/BitsPerComponent", filter := filter
        data := if raw = [] then [] else if contains filter b!"FlateDecode" then (unz raw).getD raw else raw }

/-- content/extract/images.go:279-313 – `extractPageObjectNumbers` (fuel as above; an object that cannot be read has no pages). -/
def pageNumbers (get : Int → Option Bytes) : Nat → Int → Option (List Int)
  | 0, _ => none
  | fuel + 1, n =>
    match get n with
    | none => some []
    | some s =>
      if xDictValue s b!"/Type" = b!"/Page" then some [n]
      else if xDictValue s b!"/Kids" = [] then some []
      else kidsLoop (fun k => (pageNumbers get fuel k).map some) (parseObjectRefArray (xDictValue s b!"/Kids"))

/-- content/extract/images.go:196-238 – the object number kept for each XObject name: that of the first page that has the name. -/
def imageNums (get : Int → Option Bytes) (pages : List Int) : Map Bytes Int :=
  pages.foldl (fun m n => match get n with
    | none => m
    | some s => (xobjNums (resourcesText get s)).foldl (fun m e => if (m.get e.1).isSome then m else m.set e.1 e.2) m) []

/-- content/extract/images.go:240-260 – the images with their data; an image that cannot be read is replaced by what the resources say
about it. -/
def imageLoop (get : Int → Option Bytes) (unz : Bytes → Option Bytes) (pages : List (XPage F)) : List (Bytes × Int) → Res (List Image)
  | [] => .ok []
  | e :: es => match imageData get unz e.2 with
    | .panic => .panic
    | .ok i => (imageLoop get unz pages es).bind fun is => .ok (i :: is)
    | .err => (imageLoop get unz pages es).bind fun is =>
      .ok ((pages.findSome? fun p => p.resources.bind fun r => r.images.get e.1).toList ++ is)

/-- content/extract/images.go:262-274 – the images whose name was not met before. -/
def otherImages (ord : List (Bytes × Image) → List (Bytes × Image)) (names : List Bytes) (pages : List (XPage F)) : List Image :=
  (pages.foldl (fun (acc : List Bytes × List Image) p => match p.resources with
      | none => acc
      | some r => (ord r.images).foldl (fun acc e => if acc.1.contains e.1 then acc else (e.1 :: acc.1, acc.2 ++ [e.2])) acc)
    (names, [])).2

/-- content/extract/images.go:147-276 – `ExtractAllImages` for the pages `pages` found by `ExtractContent` and their object numbers
`nums`; `ord` and `ordI` are the orders in which Go visits a map. -/
def allImages (get : Int → Option Bytes) (unz : Bytes → Option Bytes) (ord : List (Bytes × Int) → List (Bytes × Int))
    (ordI : List (Bytes × Image) → List (Bytes × Image)) (nums : List Int) (pages : List (XPage F)) : Res (List Image) :=
  let m := imageNums get (nums.take pages.length)
  (imageLoop get unz pages (ord m)).bind fun is => .ok (is ++ otherImages ordI m.keys pages)

/-- content/extract/extract.go:73-104 – the images or fonts of all pages by name: a name already seen is passed over.  `ord i` is the order in which
Go walks the map of page `i`. -/
def firstOf {V : Type} (ord : Nat → Map Bytes V → List (Bytes × V)) (ms : List (Map Bytes V)) : Map Bytes V :=
  ms.zipIdx.foldl (fun m p => (ord p.2 p.1).foldl (fun m e => if (m.get e.1).isSome then m else m.set e.1 e.2) m) []

/-- types.ContentDocument as `ExtractContent` fills it. -/
structure ContentDoc (F M B : Type) where
  metadata : Option M
  pages : List (XPage F)
  bookmarks : List B
  annots : List (Annot F)
  images : List Image
  fonts : List FontInfo

/-- The orders in which Go walks the maps of `ExtractContent`: those of the pages, and those of the two collected maps. -/
structure Orders where
  imagesOf : Nat → Map Bytes Image → List (Bytes × Image)
  fontsOf : Nat → Map Bytes FontInfo → List (Bytes × FontInfo)
  images : Map Bytes Image → List (Bytes × Image)
  fonts : Map Bytes FontInfo → List (Bytes × FontInfo)

/-- content/extract/extract.go:16-105 – `ExtractContent` of an opened file: `md`, `pages` and `marks` are the results of ExtractMetadata,
ExtractPages and ExtractBookmarks (`none`: an error).  The warnings are not modelled. -/
def extractContent {M B : Type} (o : Orders) (md : Option M) (pages : Res (List (XPage F))) (marks : Option (List B)) : Res (ContentDoc F M B) :=
  pages.bind fun ps => .ok {
    metadata := md
    pages := ps
    bookmarks := marks.getD []
    annots := ps.flatMap (·.annots)
    images := (o.images (firstOf o.imagesOf (ps.map fun p => match p.resources with | some r => r.images | none => []))).map (·.2)
    fonts := (o.fonts (firstOf o.fontsOf (ps.map fun p => match p.resources with | some r => r.fonts | none => []))).map (·.2) }

end Pdfer.Extract
