import Verif.Model.Incremental
import Verif.Model.Strings

/-! Model of core/manipulate (rotation, deletion, insertion, extraction, splitting, merging) and of the page
enumeration of content/extract/pages.go.

Simplifications: `GetObject` of the opened file is a function `get` (its panics, C17/C60, are not repeated here);
`fmt.Printf` diagnostics are dropped; regular expressions are matched byte by byte (the classes used treat every byte
of a multi-byte character alike); no replacement text contains `$`. -/

namespace Pdfer.Manipulate

open Pdfer.Go Pdfer.Incremental

/-! ### Values in dictionary texts -/

/-- core/manipulate/manipulate.go:134-144 – the loop for the matching `]`: number of bytes up to and including it, with
`depth` brackets open; `none` when it is missing. -/
def closeBracket : Nat → Bytes → Option Nat
  | _, [] => none
  | depth, c :: r =>
    if c = 91 then (closeBracket (depth + 1) r).map (· + 1)
    else if c = 93 then (if depth = 1 then some 1 else (closeBracket (depth - 1) r).map (· + 1))
    else (closeBracket depth r).map (· + 1)

/-- core/manipulate/manipulate.go:118-148 – the array after the first occurrence of the key: the position of the key,
of `[`, and just behind the matching `]`. -/
def arraySpan (s key : Bytes) : Option (Nat × Nat × Nat) :=
  (index key s).bind fun k =>
  let rest := s.drop (k + key.length)
  let v := k + key.length + (rest.takeWhile objWs).length
  match s.drop v with
  | 91 :: _ => (closeBracket 0 (s.drop v)).map fun n => (k, v, v + n)
  | _ => none

/-- The class `[^\s<>]` of core/manipulate/manipulate.go:152 and content/extract/pages.go:316. -/
def tokByte (c : UInt8) : Bool := !reSpace c && c != 60 && c != 62

/-- The class `[^/\s<>]` of core/manipulate/manipulate.go:159 and content/extract/pages.go:324. -/
def nameByte (c : UInt8) : Bool := tokByte c && c != 47

/-- core/manipulate/manipulate.go:152, content/extract/pages.go:316 – `key\s+([^\s<>]+)` anchored: the group and the
rest of the text. -/
def reTok (key s : Bytes) : Option (Bytes × Bytes) :=
  (reLit key s).bind fun s => (reSp1 s).bind fun s =>
  if s.takeWhile tokByte = [] then none else some (s.takeWhile tokByte, s.dropWhile tokByte)

/-- core/manipulate/manipulate.go:159, content/extract/pages.go:324 – `key/([^/\s<>]+)` anchored. -/
def reName (key s : Bytes) : Option (Bytes × Bytes) :=
  (reLit key s).bind fun s => (reLit b!"/" s).bind fun s =>
  if s.takeWhile nameByte = [] then none else some (s.takeWhile nameByte, s.dropWhile nameByte)

/-- core/manipulate/manipulate.go:151-165, content/extract/pages.go:315-328 – the two regular expressions, tried one
after the other over the whole text. -/
def simpleValue (s key : Bytes) : Option Bytes :=
  match searchWith (reTok key) s with
  | some m => some m.1
  | none => (searchWith (reName key) s).map fun m => 47 :: m.1

/-- core/manipulate/manipulate.go:117-166 – `extractDictValue`. -/
def extractDictValue (s key : Bytes) : Bytes :=
  match index key s with
  | none => []
  | some _ =>
    match arraySpan s key with
    | some (_, v, e) => (s.take e).drop v
    | none => (simpleValue s key).getD []

/-- content/extract/pages.go:331 – `key\s*\[([^\]]+)\]` anchored: the group. -/
def reArr (key s : Bytes) : Option Bytes :=
  (reLit key s).bind fun s => (reLit b!"[" (reSp0 s)).bind fun s =>
  if s.takeWhile (· ≠ 93) = [] then none else (reLit b!"]" (s.dropWhile (· ≠ 93))).map fun _ => s.takeWhile (· ≠ 93)

/-- content/extract/pages.go:314-338 – `extractDictValue` of package extract. -/
def xDictValue (s key : Bytes) : Bytes :=
  match simpleValue s key with
  | some v => v
  | none => match searchWith (reArr key) s with
    | some a => b!"[" ++ a ++ b!"]"
    | none => []

/-- `Regexp.ReplaceAllString`/`ReplaceAllStringFunc` for an expression that never matches the empty text: `p` gives the
rest behind a match at the start, `rep` the replacement of the matched text; `skip` bytes of a match are still to be
passed over. -/
def replaceRe (p : Bytes → Option Bytes) (rep : Bytes → Bytes) : Nat → Bytes → Bytes
  | _, [] => []
  | skip + 1, _ :: r => replaceRe p rep skip r
  | 0, c :: r =>
    match p (c :: r) with
    | some rest => rep ((c :: r).take ((c :: r).length - rest.length)) ++ replaceRe p rep (r.length - rest.length) r
    | none => c :: replaceRe p rep 0 r

/-- core/manipulate/manipulate.go:169-237 – `setDictValue`. -/
def setDictValue (s key value : Bytes) : Bytes :=
  let addNew : Bytes :=
    match lastIndex b!">>" s with
    | none => s
    | some i => s.take i ++ key ++ b!" " ++ value ++ b!" " ++ s.drop i
  if extractDictValue s key = [] then addNew
  else
    let replaced := replaceRe (fun t => (reTok key t).map (·.2)) (fun _ => key ++ b!" " ++ value) 0 s
    if (searchWith (reTok key) s).isSome && extractDictValue replaced key == value then replaced
    else if (searchWith (reName key) s).isSome then
      replaceRe (fun t => (reName key t).map (·.2))
        (fun _ => key ++ b!"/" ++ (if (b!"/").isPrefixOf value then value.drop 1 else value)) 0 s
    else match arraySpan s key with
      | some (k, _, e) =>
        if (s.drop (k + key.length)).head?.any objWs then s.take k ++ key ++ b!" " ++ value ++ b!" " ++ s.drop e
        else s.take k ++ key ++ value ++ b!" " ++ s.drop e
      | none => addNew

/-- core/manipulate/manipulate.go:104-114, content/extract/metadata.go:45-60 – `parseObjectRef`. -/
def parseObjectRef (ref : Bytes) : Option Int :=
  match fields ref with
  | [] => none
  | f :: _ => atoi f

/-- core/manipulate/rotation.go:173, core/manipulate/merging.go:182 – `(\d+)\s+\d+\s+R` anchored: the first number and
the rest. -/
def reRef (s : Bytes) : Option (Bytes × Bytes) :=
  (reNum s).bind fun p => (reSp1 p.2).bind fun s => (reNum s).bind fun q => (reSp1 q.2).bind fun s =>
  (reLit b!"R" s).map fun r => (p.1, r)

/-- `FindAllStringSubmatch`: the matched texts, left to right. -/
def findRefs : Nat → Bytes → List Bytes
  | _, [] => []
  | skip + 1, _ :: r => findRefs skip r
  | 0, c :: r =>
    match reRef (c :: r) with
    | some m => (c :: r).take ((c :: r).length - m.2.length) :: findRefs (r.length - m.2.length) r
    | none => findRefs 0 r

/-- core/manipulate/rotation.go:166-185, content/extract/pages.go:359-377 – `parseObjectRefArray`. -/
def parseObjectRefArray (arr : Bytes) : List Bytes :=
  let t := trimSpace arr
  let t := if (b!"[").isPrefixOf t then t.drop 1 else t
  let t := if (b!"]").isSuffixOf t then t.take (t.length - 1) else t
  findRefs 0 t

/-! ### Enumerating pages -/

/-- core/manipulate/rotation.go:148-160, core/manipulate/merging.go:159-170, content/extract/pages.go:123-143 – the loop
over the kids; `go` is the recursive call (`none`: it does not return; `some none`: an error, which is skipped). -/
def kidsLoop (go : Int → Option (Option (List Int))) : List Bytes → Option (List Int)
  | [] => some []
  | r :: rs =>
    match parseObjectRef r with
    | none => kidsLoop go rs
    | some k =>
      (go k).bind fun l => (kidsLoop go rs).map fun ls => l.getD [] ++ ls

/-- core/manipulate/rotation.go:122-163 – `extractPageObjectNumbers` (core/manipulate/merging.go:139-173 is the same).
The recursion has no guard, so it is given fuel: `none` means that the fuel ran out. -/
def pageNums (get : Int → Option Bytes) : Nat → Int → Option (Option (List Int))
  | 0, _ => none
  | fuel + 1, n =>
    match get n with
    | none => some none
    | some s =>
      if extractDictValue s b!"/Type" = b!"/Page" then some (some [n])
      else if extractDictValue s b!"/Kids" = [] then some (some [])
      else (kidsLoop (pageNums get fuel) (parseObjectRefArray (extractDictValue s b!"/Kids"))).map some

/-- core/manipulate/rotation.go:90-119 – `getAllPageObjectNumbers`; `root` is the trailer's /Root (outer `none`: not
finished within the fuel). -/
def allPages (get : Int → Option Bytes) (root : Bytes) (fuel : Nat) : Option (Option (List Int)) :=
  match parseObjectRef root with
  | none => some none
  | some r =>
    match get r with
    | none => some none
    | some cat =>
      match parseObjectRef (extractDictValue cat b!"/Pages") with
      | none => some none
      | some p => pageNums get fuel p

/-- content/extract/pages.go:86-95 – the page type by text search. -/
def xIsPage (s : Bytes) : Bool :=
  !(contains s b!"/Type/Pages" || contains s b!"/Type /Pages") &&
    (contains s b!"/Type/Page" || contains s b!"/Type /Page")

/-- content/extract/pages.go:70-147 – `extractPagesFromTree`, keeping of each page only its object number
(`extractPage` never returns an error). -/
def xPageNums (get : Int → Option Bytes) : Nat → Int → Option (Option (List Int))
  | 0, _ => none
  | fuel + 1, n =>
    match get n with
    | none => some none
    | some s =>
      if xIsPage s then some (some [n])
      else
        let kids := xDictValue s b!"/Kids"
        if kids = [] then some (some [])
        else
          let kids := if (b!"[").isPrefixOf kids then kids else b!"[" ++ kids ++ b!"]"
          (kidsLoop (xPageNums get fuel) (parseObjectRefArray kids)).map some

/-- content/extract/pages.go:14-66 – `ExtractPages`, keeping of each page its object number (outer `none`: not finished within the
fuel; inner `none`: an error). -/
def xAllPages (get : Int → Option Bytes) (root : Bytes) (fuel : Nat) : Option (Option (List Int)) :=
  match (parseObjectRef root).bind get with
  | none => some none
  | some cat => match parseObjectRef (xDictValue cat b!"/Pages") with
    | none => some none
    | some p => xPageNums get fuel p

/-! ### The manipulator -/

/-- core/manipulate/manipulate.go:14-20 – `PDFManipulator`: what the opened file answers (never changed), and the
edited copies of its objects. -/
structure Manip where
  get : Int → Option Bytes
  root : Bytes
  objects : Map Int Bytes

/-- core/manipulate/manipulate.go:23-55 – `NewPDFManipulator`, for the object numbers `nums` of the opened file. -/
def newManip (get : Int → Option Bytes) (root : Bytes) (nums : List Int) : Manip :=
  { get := get, root := root,
    objects := nums.foldl (fun m n => match get n with | some o => m.set n o | none => m) [] }

/-- core/manipulate/rotation.go:76-87 – `getPageObjectNumber` (`fuel` for the enumeration). -/
def pageObject (m : Manip) (fuel : Nat) (page : Int) : Option (Option Int) :=
  (allPages m.get m.root fuel).map fun r => r.bind fun l =>
    if page < 1 ∨ page > l.length then none else l[page.toNat - 1]?

/-- core/manipulate/rotation.go:34-51 – the new text of a page (the addition of machine ints does not wrap here; the
theorems only use rotations for which it cannot). -/
def rotateText (s : Bytes) (angle : Int) : Bytes :=
  let cur := (atoi (extractDictValue s b!"/Rotate")).getD 0
  let r := Int.tmod (cur + angle) 360
  let r := if r < 0 then r + 360 else r
  setDictValue s b!"/Rotate" (itoa r)

/-- core/manipulate/rotation.go:12-57 – `RotatePage`: outer `none` = enumeration not finished, inner `none` = error. -/
def rotatePage (m : Manip) (fuel : Nat) (page angle : Int) : Option (Option Manip) :=
  if angle ≠ 90 ∧ angle ≠ 180 ∧ angle ≠ 270 then some none
  else (pageObject m fuel page).map fun r => r.bind fun n =>
    (m.objects.get n).map fun s => { m with objects := m.objects.set n (rotateText s angle) }

/-- core/manipulate/deletion.go:148-200 – `findParentPagesObjectRecursive` (fuel as above). -/
def findParent (get : Int → Option Bytes) : Nat → Int → Int → Option (Option Int)
  | 0, _, _ => none
  | fuel + 1, n, target =>
    match get n with
    | none => some none
    | some s =>
      if extractDictValue s b!"/Type" = b!"/Page" then some none
      else if extractDictValue s b!"/Kids" = [] then some none
      else
        (parseObjectRefArray (extractDictValue s b!"/Kids")).foldr (fun r (rest : Option (Option Int)) =>
          match parseObjectRef r with
          | none => rest
          | some k =>
            if k = target then some (some n)
            else match get k with
              | none => rest
              | some ks =>
                if extractDictValue ks b!"/Type" = b!"/Pages" then
                  match findParent get fuel k target with
                  | none => none
                  | some (some p) => some (some p)
                  | some none => rest
                else rest) (some none)

/-- core/manipulate/deletion.go:67-75, core/manipulate/insertion.go:60-68 – the text of a kids array. -/
def kidsText (refs : List Bytes) : Bytes := b!"[" ++ Writer.joinSp refs ++ b!" ]"

/-- core/manipulate/deletion.go:85-86, insertion.go:76-77 – every `/Count\s+\d+` replaced. -/
def replaceCount (s : Bytes) (n : Nat) : Bytes :=
  replaceRe (fun t => (reLit b!"/Count" t).bind fun s => (reSp1 s).bind fun s => (reNum s).map (·.2))
    (fun _ => b!"/Count " ++ natDec n) 0 s

/-- core/manipulate/deletion.go:46-47 – `%d\s+\d+\s+R` anchored, for a given object number. -/
def reRefTo (n : Int) (s : Bytes) : Option Unit :=
  (reLit (itoa n) s).bind fun s => (reSp1 s).bind fun s => (reNum s).bind fun q => (reSp1 q.2).bind fun s =>
  (reLit b!"R" s).map fun _ => ()

/-- core/manipulate/deletion.go:46-60 – the kids that stay. -/
def keptKids (n : Int) (refs : List Bytes) : List Bytes := refs.filter fun r => (searchWith (reRefTo n) r).isNone

/-- core/manipulate/deletion.go:203-238 – `updatePageCounts` on the text of the node. -/
def bumpCount (s : Bytes) (delta : Int) : Bytes :=
  let c := (atoi (extractDictValue s b!"/Count")).getD 0 + delta
  setDictValue s b!"/Count" (itoa (if c < 0 then 0 else c))

/-- core/manipulate/deletion.go:36-90 – the new text of the parent when the page object `n` is deleted; `none` = error
(no kids, not among the kids, or no page left). -/
def deleteText (s : Bytes) (n : Int) : Option Bytes :=
  let kids := extractDictValue s b!"/Kids"
  if kids = [] then none
  else
    let refs := parseObjectRefArray kids
    let kept := keptKids n refs
    if refs.length = kept.length then none
    else if kept.length < 1 then none
    else some (bumpCount (replaceCount (setDictValue s b!"/Kids" (kidsText kept)) kept.length) (-1))

/-- core/manipulate/deletion.go:11-103 – `DeletePage`. -/
def deletePage (m : Manip) (fuel : Nat) (page : Int) : Option (Option Manip) :=
  (pageObject m fuel page).bind fun r =>
  match r with
  | none => some none
  | some n =>
    match (match parseObjectRef m.root with
      | none => some none
      | some rt => match m.get rt with
        | none => some none
        | some cat => match parseObjectRef (extractDictValue cat b!"/Pages") with
          | none => some none
          | some p => findParent m.get fuel p n) with
    | none => none
    | some none => some none
    | some (some parent) =>
      some ((m.objects.get parent).bind fun s => (deleteText s n).map fun t =>
        { m with objects := m.objects.set parent t })

/-- core/manipulate/insertion.go:45-58 – the kids with the new reference at a 1-based position (0 or too large: at the
end). -/
def insertKid (refs : List Bytes) (page : Nat) (n : Int) : List Bytes :=
  if page = 0 ∨ page > refs.length then refs ++ [Writer.ref n]
  else refs.take (page - 1) ++ [Writer.ref n] ++ refs.drop (page - 1)

/-- core/manipulate/insertion.go:36-78 – the new text of the root of the page tree. -/
def insertText (s : Bytes) (page : Nat) (n : Int) : Option Bytes :=
  let kids := extractDictValue s b!"/Kids"
  if kids = [] then none
  else
    let refs := insertKid (parseObjectRefArray kids) page n
    some (replaceCount (setDictValue s b!"/Kids" (kidsText refs)) refs.length)

/-- core/manipulate/manipulate.go:58-101 – `Rebuild` as operations of the writer (the object map is iterated in the
association-list order; `fileID` and the key of an encrypted file are left to the writer's environment). -/
def rebuildOps (m : Manip) (info encrypt : Bytes) : List Writer.Op :=
  m.objects.map (fun e => Writer.Op.setObject e.1 (some e.2)) ++
  (match parseObjectRef m.root with | some r => [Writer.Op.setRoot r] | none => []) ++
  (match parseObjectRef info with | some r => [Writer.Op.setInfo r] | none => []) ++
  (match parseObjectRef encrypt with | some r => [Writer.Op.setEncryptRef r] | none => [])

/-! ### Extracting and splitting -/

/-- core/manipulate/extraction.go:65-75, merging.go:76-84 – the text of the new page tree root. -/
def pagesDict (nums : List Int) : Bytes :=
  b!"<</Type/Pages/Kids[" ++ Writer.joinSp (nums.map fun n => itoa n ++ b!" 0 R ") ++ b!"]/Count " ++ natDec nums.length ++
    b!">>"

/-- core/manipulate/extraction.go:79, merging.go:88 – the text of the new catalog. -/
def catalogDict (pages : Int) : Bytes := b!"<</Type/Catalog/Pages " ++ itoa pages ++ b!" 0 R>>"

/-- core/manipulate/extraction.go:38-83 – `ExtractPages` behind the validation: the writer's operations for the page
objects `sel` (object number and text); the page tree root is object 1 (the placeholder of line 39). -/
def extractOps (sel : List (Int × Bytes)) : List Writer.Op :=
  [Writer.Op.addObject (some [])] ++
  sel.flatMap (fun e => [Writer.Op.setObject e.1 (some e.2),
    Writer.Op.setObject e.1 (some (setDictValue e.2 b!"/Parent" (b!"1 0 R")))]) ++
  [Writer.Op.setObject 1 (some (pagesDict (sel.map (·.1))))] ++
  [Writer.Op.addObject (some (catalogDict 1))]

/-- core/manipulate/extraction.go:30-35, :46-52 – the selected pages: an error if a number is out of range or the page
object could not be read. -/
def selectPages (objects : Map Int Bytes) (all : List Int) : List Int → Option (List (Int × Bytes))
  | [] => some []
  | p :: ps =>
    if p < 1 ∨ p > all.length then none
    else (all[p.toNat - 1]?).bind fun n => (objects.get n).bind fun s =>
      (selectPages objects all ps).map fun r => (n, s) :: r

/-- core/manipulate/splitting.go:90-98 – the ranges of `SplitPDFByPageCount`, from page `start` on (`fuel` at least the
number of remaining pages; each step takes `per ≥ 1` pages). -/
def pageRanges (total per : Nat) : Nat → Nat → List (Nat × Nat)
  | 0, _ => []
  | fuel + 1, start =>
    if start ≤ total then
      (start, if start + per - 1 > total then total else start + per - 1) :: pageRanges total per fuel (start + per)
    else []

/-- core/manipulate/splitting.go:69-101 – the ranges of `SplitPDFByPageCount`; `none` = the two errors. -/
def splitRanges (total per : Nat) : Option (List (Nat × Nat)) :=
  if per < 1 then none else if total = 0 then none else some (pageRanges total per total 1)

/-- core/manipulate/splitting.go:44-47 – the pages of a range. -/
def rangePages (r : Nat × Nat) : List Nat := (List.range (r.2 + 1 - r.1)).map (· + r.1)

/-- core/manipulate/splitting.go:31-38 – the validation of `SplitPDF`. -/
def rangesValid (total : Int) (rs : List (Int × Int)) : Bool :=
  rs.all fun r => !(decide (r.1 < 1) || decide (r.1 > total)) && !(decide (r.2 < r.1) || decide (r.2 > total))

/-! ### Merging -/

/-- core/manipulate/merging.go:178-202 – `updateObjectReferences`: a number too large for an int reads as 0. -/
def updateRefs (m : Map Int Int) (s : Bytes) : Bytes :=
  replaceRe (fun t => (reRef t).map (·.2))
    (fun t => match m.get (((reRef t).bind fun p => atoiMag 9223372036854775807 p.1).getD 0 : Nat) with
      | some n => Writer.ref n
      | none => t) 0 s

/-- core/manipulate/merging.go:38-70 – what is known while merging: the next number, the numbers given out for the
current input, the objects written so far and the pages so far. -/
structure MergeSt where
  next : Int
  map : Map Int Int
  out : List (Int × Bytes)
  pages : List Int

/-- core/manipulate/merging.go:48-70 – one object of an input (skipped when it cannot be read). -/
def mergeStep (get : Int → Option Bytes) (pageNums : List Int) (st : MergeSt) (n : Int) : MergeSt :=
  match get n with
  | none => st
  | some o =>
    let map := st.map.set n st.next
    { next := st.next + 1, map := map, out := st.out ++ [(st.next, updateRefs map o)],
      pages := if n ∈ pageNums then st.pages ++ [st.next] else st.pages }

/-- core/manipulate/merging.go:23-70 – an input: what it answers, its page objects, and its object numbers in the order
of the (unspecified) map iteration of `Objects()`. -/
structure Input where
  get : Int → Option Bytes
  pageNums : List Int
  nums : List Int

/-- core/manipulate/merging.go:23-71 – one input. -/
def mergeInput (st : MergeSt) (i : Input) : MergeSt :=
  i.nums.foldl (mergeStep i.get i.pageNums) { st with map := [] }

/-- core/manipulate/merging.go:13-90 – `MergePDFs`: the objects set in the writer, in order, and the catalog's number. -/
def merge (inputs : List Input) : List (Int × Bytes) × Int :=
  let st := inputs.foldl mergeInput { next := 1, map := [], out := [], pages := [] }
  (st.out ++ [(st.next, pagesDict st.pages), (st.next + 1, catalogDict st.next)], st.next + 1)

end Pdfer.Manipulate
