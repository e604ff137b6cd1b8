import Verif.Model.GoLib

/-! Model of content/extract/directory.go:87-267: `ExtractToDirectory` as what it does to the file system.

Paths are relative to the output directory (`filepath.Join` with a name that has no dots and slashes of its own).  The results of
`ExtractContent` and `ExtractAllImages` are parameters, `json` is `json.MarshalIndent` (`none` = error), and the file system decides by `Fs` which
calls fail.  `verbose` is off.  The map `imageRefMap` is written and never read. -/

namespace Pdfer.Directory

open Pdfer.Go

/-- types.Image, as far as it is used; `rest` are size in pixels, colour space and filter. -/
structure Img (R : Type) where
  id : Bytes
  format : Bytes
  data : Bytes
  rest : R

/-- content/extract/directory.go:65-74 – `ImageReference`. -/
structure ImgRef (R : Type) where
  id : Bytes
  filename : Bytes
  format : Bytes
  size : Nat
  rest : R
deriving DecidableEq

/-- types.Page: the texts, the placed images (`R` is position and matrix), and everything that is copied. -/
structure Pg (R : Type) where
  number : Int
  texts : List Bytes
  images : List (Bytes × R)
  rest : R

/-- content/extract/directory.go:77-86 – `ContentSummary`. -/
structure Summary where
  pageCount : Nat
  textCharCount : Nat
  imageCount : Nat
  hasText : Bool
  hasImages : Bool
  hasForms : Bool
  hasBookmarks : Bool
  isScanned : Bool
deriving DecidableEq

/-- content/extract/directory.go:27-36 – `ExtractedContent`: the parts that are not copied from the document. -/
structure Content (R : Type) where
  pages : List (Pg R)
  images : List (ImgRef R)
  summary : Summary

/-- content/extract/directory.go:13-24 – `DirectoryOutput`. -/
structure Output where
  imageFiles : List Bytes
  hasText : Bool
  hasImages : Bool
  isScanned : Bool
  pageCount : Nat
  textCharCount : Nat
  imageCount : Nat

/-- What the run does to the file system.  `os.WriteFile` empties the file and writes the data; when it fails, or the process ends in the
middle, the first `n` bytes are there. -/
inductive Eff where
  | mkdir
  | write (path data : Bytes) (n : Nat)

/-- How the calls of the file system end: whether the directories can be made, and for the image at a position and for content.json how many
bytes are written before an error (`none` = no error). -/
structure Fs where
  dirs : Bool
  image : Nat → Option Nat
  content : Option Nat

/-- content/extract/directory.go:141-152 – the file extension. -/
def ext (format : Bytes) : Bytes :=
  if format = b!"jpeg" then b!".jpg" else if format = b!"png" then b!".png" else if format = b!"tiff" then b!".tif"
  else if format = b!"jpeg2000" then b!".jp2" else b!".bin"

/-- content/extract/directory.go:155 – `fmt.Sprintf("image_%03d%s", i+1, ext)`. -/
def fileName (i : Nat) (format : Bytes) : Bytes := b!"image_" ++ padDec 3 (i + 1) ++ ext format

/-- content/extract/directory.go:135-180 – the loop over the images: what is written, and the references. -/
def images {R : Type} (fs : Fs) : Nat → List (Img R) → List Eff × List (ImgRef R)
  | _, [] => ([], [])
  | i, img :: rest =>
    let r := images fs (i + 1) rest
    if img.data = [] then r
    else
      let path := b!"images/" ++ fileName i img.format
      match fs.image i with
      | some n => (.write path img.data (min n img.data.length) :: r.1, r.2)
      | none => (.write path img.data img.data.length :: r.1,
          { id := img.id, filename := path, format := img.format, size := img.data.length, rest := img.rest } :: r.2)

/-- content/extract/directory.go:182-237 – the summary. -/
def summary {R : Type} (pages : List (Pg R)) (imgs : List (Img R)) (bookmarks : Nat) : Summary :=
  let hasText := pages.any fun p => p.texts ≠ []
  let hasImages : Bool := decide (imgs.length > 0)
  { pageCount := pages.length, textCharCount := (pages.flatMap (·.texts)).foldl (fun n t => n + t.length) 0, imageCount := imgs.length
    hasText := hasText, hasImages := hasImages, hasForms := false, hasBookmarks := decide (bookmarks > 0)
    isScanned := hasImages && !hasText && decide (pages.length > 0) }

/-- content/extract/directory.go:92-267 – `ExtractToDirectory`: what it does, and its result (`none` = error).  `doc` is `none` when
`ExtractContent` fails, `imgs` is `none` when `ExtractAllImages` fails. -/
def extractToDirectory {R : Type} (fs : Fs) (json : Content R → Option Bytes) (doc : Option (List (Pg R) × Nat)) (imgs : Option (List (Img R))) :
    List Eff × Option Output :=
  if ¬ fs.dirs then ([.mkdir], none)
  else match doc with
    | none => ([.mkdir, .mkdir], none)
    | some (pages, bookmarks) =>
      let all := imgs.getD []
      let w := images fs 0 all
      let c : Content R := { pages := pages, images := w.2, summary := summary pages all bookmarks }
      match json c with
      | none => ([.mkdir, .mkdir] ++ w.1, none)
      | some j => match fs.content with
        | some n => ([.mkdir, .mkdir] ++ w.1 ++ [.write b!"content.json" j (min n j.length)], none)
        | none => ([.mkdir, .mkdir] ++ w.1 ++ [.write b!"content.json" j j.length],
            some { imageFiles := w.2.map (·.filename), hasText := c.summary.hasText, hasImages := c.summary.hasImages, isScanned := c.summary.isScanned
                   pageCount := pages.length, textCharCount := c.summary.textCharCount, imageCount := all.length })

/-! ### Files -/

/-- One effect on the files. -/
def apply (files : Map Bytes Bytes) : Eff → Map Bytes Bytes
  | .mkdir => files
  | .write p d n => files.set p (d.take n)

/-- The files after the effects. -/
def applyAll (files : Map Bytes Bytes) (l : List Eff) : Map Bytes Bytes := l.foldl apply files

/-- The files when the process ends somewhere in the run: after some of its effects, the last of them perhaps half done. -/
inductive CrashState (files : Map Bytes Bytes) (l : List Eff) : Map Bytes Bytes → Prop
  | between (a b : List Eff) : l = a ++ b → CrashState files l (applyAll files a)
  | inside (a b : List Eff) (p d : Bytes) (n k : Nat) : l = a ++ .write p d n :: b → k ≤ n → CrashState files l ((applyAll files a).set p (d.take k))

end Pdfer.Directory
