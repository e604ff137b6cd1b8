import Verif.Model.Builder
import Verif.Model.Content

/-! Model of core/write/image.go and core/write/watermark.go.

Simplifications: the decoder of `image.Decode` is not modelled, a decoded image is given by its kind, its size and what `At(x, y).RGBA()`
returns; the arithmetic of float64 in the watermark is a parameter. -/

namespace Pdfer.Image

open Pdfer.Go Pdfer.Writer Pdfer.Builder

/-! ### JPEG headers -/

/-- encoding/binary – `BigEndian.Uint16`. -/
def be16 (a b : UInt8) : Nat := a.toNat * 256 + b.toNat

/-- core/write/image.go:201-210 – the colour space for a number of components. -/
def colourSpace (n : UInt8) : Bytes :=
  if n = 1 then b!"/DeviceGray" else if n = 3 then b!"/DeviceRGB" else if n = 4 then b!"/DeviceCMYK" else b!"/DeviceRGB"

/-- core/write/image.go:192-212 – what is read behind a frame marker (`data[pos+7]` is read although only `pos+7 ≤ len(data)` is known). -/
def frameSize : Bytes → Res (Nat × Nat × Bytes)
  | _ :: _ :: _ :: h1 :: h2 :: w1 :: w2 :: n :: _ => .ok (be16 w1 w2, be16 h1 h2, colourSpace n)
  | [_, _, _, _, _, _, _] => .panic
  | _ => .err

/-- core/write/image.go:215-219 – the length of a segment (`none`: the data ends before it). -/
def segmentLength : Bytes → Option Nat
  | l1 :: l2 :: _ => some (be16 l1 l2)
  | _ => none

/-- core/write/image.go:174-221 – the loop over the markers; the argument is the data from `pos` on (`fuel` bounds the number of
iterations: every iteration advances). -/
def jpegScan : Nat → Bytes → Res (Nat × Nat × Bytes)
  | 0, _ => .err
  | fuel + 1, a :: m :: r =>
    if a ≠ 0xFF then jpegScan fuel (m :: r)
    else if m = 0xFF then jpegScan fuel r
    else if 0xC0 ≤ m ∧ m ≤ 0xC3 then frameSize r
    else match segmentLength r with
      | none => .err
      | some l => jpegScan fuel (r.drop l)
  | _ + 1, _ => .err

/-- core/write/image.go:168-223 – `parseJPEGHeader`: width, height and colour space. -/
def parseJPEGHeader (data : Bytes) : Res (Nat × Nat × Bytes) :=
  match data with
  | 0xFF :: 0xD8 :: r => jpegScan data.length r
  | _ => .err

/-- core/write/image.go:35-44 – the dictionary of a JPEG image. -/
def jpegDict (width height : Nat) (cs : Bytes) (len : Nat) : Dict :=
  [(b!"Type", .str b!"/XObject"), (b!"Subtype", .str b!"/Image"), (b!"Width", .int width), (b!"Height", .int height),
   (b!"ColorSpace", .str cs), (b!"BitsPerComponent", .int 8), (b!"Filter", .str b!"/DCTDecode"), (b!"Length", .int len)]

/-- core/write/image.go:27-66 – `AddJPEGImage`: the writer, the number of the image, its width, height and colour space. -/
def addJPEGImage (w : Writer) (data : Bytes) : Res (Writer × Int × Nat × Nat × Bytes) :=
  (parseJPEGHeader data).bind fun (width, height, cs) =>
    .ok ({ w with nextObjNum := w.nextObjNum + 1, heap := w.heap ++ [jpegDict width height cs data.length],
                  objects := w.objects.set w.nextObjNum { content := none, stream := some data, dict := some w.heap.length } },
         w.nextObjNum, width, height, cs)

/-! ### Other images -/

/-- image, image/png – the kinds of images the PNG decoder produces. -/
inductive Kind where
  | gray | gray16 | rgba | nrgba | rgba64 | nrgba64 | paletted
deriving DecidableEq, Repr

/-- image – a decoded image: its kind, its size, and what `At(x+Min.X, y+Min.Y).RGBA()` returns: four 16-bit numbers, the colours
multiplied by the alpha. -/
structure Img where
  kind : Kind
  width : Nat
  height : Nat
  at_ : Nat → Nat → Nat × Nat × Nat × Nat

/-- image/color/color.go – `RGBA` of an `NRGBA` pixel. -/
def nrgba (r g b a : UInt8) : Nat × Nat × Nat × Nat :=
  (r.toNat * 257 * a.toNat / 255, g.toNat * 257 * a.toNat / 255, b.toNat * 257 * a.toNat / 255, a.toNat * 257)

/-- core/write/image.go:98-99 – `uint8(v >> 8)`. -/
def high (v : Nat) : UInt8 := UInt8.ofNat (v / 256)

/-- image/color/color.go – `grayModel`: the luminance of a colour as 8 bits. -/
def grayY (p : Nat × Nat × Nat × Nat) : UInt8 := UInt8.ofNat ((19595 * p.1 + 38470 * p.2.1 + 7471 * p.2.2.1 + 2 ^ 15) / 2 ^ 24)

/-- The loop `for y … for x …` over the pixels of an image (y outside, x inside). -/
def forPixels {α : Type} (width height : Nat) (f : α → Nat → Nat → α) (init : α) : α :=
  (List.range height).foldl (fun acc y => (List.range width).foldl (fun acc x => f acc x y) acc) init

/-- core/write/image.go:92-119 – the raw data: gray or RGB (the slice is made first and then filled by index). -/
def rawData (img : Img) : Bytes × Bytes :=
  match img.kind with
  | .gray | .gray16 =>
    (b!"/DeviceGray", forPixels img.width img.height (fun (d : Bytes) x y => d.set (y * img.width + x) (grayY (img.at_ x y)))
      (List.replicate (img.width * img.height) 0))
  | _ =>
    (b!"/DeviceRGB", forPixels img.width img.height (fun (d : Bytes) x y =>
        let p := img.at_ x y
        let i := (y * img.width + x) * 3
        ((d.set i (high p.1)).set (i + 1) (high p.2.1)).set (i + 2) (high p.2.2.1))
      (List.replicate (img.width * img.height * 3) 0))

/-- core/write/image.go:86-89 – which images get a soft mask. -/
def hasAlpha : Kind → Bool
  | .rgba | .nrgba => true
  | _ => false

/-- core/write/image.go:143-149 – the soft mask. -/
def alphaMask (img : Img) : Bytes :=
  forPixels img.width img.height (fun (d : Bytes) x y => d.set (y * img.width + x) (high (img.at_ x y).2.2.2))
    (List.replicate (img.width * img.height) 0)

/-- core/write/image.go:122-129, :151-158 – the dictionary of an image or a mask. -/
def imageDict (img : Img) (cs : Bytes) : Dict :=
  [(b!"Type", .str b!"/XObject"), (b!"Subtype", .str b!"/Image"), (b!"Width", .int img.width), (b!"Height", .int img.height),
   (b!"ColorSpace", .str cs), (b!"BitsPerComponent", .int 8)]

/-- core/write/image.go:70-166 – `AddImage` for an image that is not a JPEG: the writer and the number of the image.  The entry
`SMask` is put in the image's dictionary afterwards. -/
def addImage (env : Writer.Env) (w : Writer) (img : Img) : Writer × Int :=
  let raw := rawData img
  let o := addStreamObject env w (.fresh (imageDict img raw.1)) (some raw.2) true
  if hasAlpha img.kind then
    let m := addStreamObject env o.1 (.fresh (imageDict img b!"/DeviceGray")) (some (alphaMask img)) true
    match (m.1.objects.get o.2).bind (·.dict) with
    | none => (m.1, o.2)
    | some a => ({ m.1 with heap := m.1.heap.set a ((m.1.heap.getD a []).set b!"SMask" (.str (ref m.2))) }, o.2)
  else o

/-! ### Watermarks -/

/-- The float64 arithmetic of a watermark: comparison with 1, product, zero and one, half, minus a quarter, the rotation matrix of an
angle in degrees, and the start of a text of so many bytes in a font size. -/
structure Geo (F : Type) where
  below1 : F → Bool
  mul : F → F → F
  zero : F
  one : F
  isZero : F → Bool
  half : F → F
  minusQuarter : F → F
  rotation : F → F × F × F × F
  textX : Nat → F → F
  textY : F → F

/-- core/write/watermark.go:9-19 – `WatermarkOptions`. -/
structure Options (F : Type) where
  text : Bytes
  fontName : Bytes
  fontSize : F
  opacity : F
  angle : F
  color : Option (F × F × F)
  x : F
  y : F
  imageName : Bytes

variable {F : Type}

/-- core/write/watermark.go:43-78 – the part before the image or the text (`none`: a nil pointer is dereferenced). -/
def markHead (g : Geo F) (width height : F) (o : Options F) : Option (List (Content.Call F)) :=
  o.color.map fun (r, gr, b) =>
    [.saveState,
     if g.below1 o.opacity then .fillRGB (g.mul r o.opacity) (g.mul gr o.opacity) (g.mul b o.opacity) else .fillRGB r gr b,
     .setMatrix g.one g.zero g.zero g.one (if g.isZero o.x && g.isZero o.y then g.half width else o.x)
       (if g.isZero o.x && g.isZero o.y then g.half height else o.y)] ++
    (if g.isZero o.angle then [] else
      [.setMatrix (g.rotation o.angle).1 (g.rotation o.angle).2.1 (g.rotation o.angle).2.2.1 (g.rotation o.angle).2.2.2 g.zero g.zero])

/-- core/write/watermark.go:38-127 – `AddWatermark` with options: the writer, the page, the calls on the content and whether it succeeded
(`none`: it panics). -/
def addWatermark (g : Geo F) (width height : F) (w : Writer) (p : Page) (o : Options F) :
    Option (Writer × Page × List (Content.Call F) × Bool) :=
  (markHead g width height o).map fun head =>
    if o.imageName ≠ [] then
      if (p.images.get o.imageName).isNone then (w, p, head, false)
      else (w, p, head ++ [.setMatrix g.one g.zero g.zero g.one (g.minusQuarter width) (g.minusQuarter height),
        .setMatrix (g.half width) g.zero g.zero (g.half height) g.zero g.zero, .drawImage o.imageName, .restoreState], true)
    else if o.text = [] then (w, p, head, false)
    else
      let f := addStandardFont w p o.fontName
      (f.1, f.2.1, head ++ [.beginText, .setFont f.2.2 o.fontSize, .textPosition (g.textX o.text.length o.fontSize) (g.textY o.fontSize),
        .showText o.text, .endText, .restoreState], true)

/-- core/write/watermark.go:27-35 – the default options, given the four numbers 48, 0.3, 45 and 0.5. -/
def defaultOptions (g : Geo F) (n48 n03 n45 n05 : F) : Options F :=
  ⟨[], b!"Helvetica-Bold", n48, n03, n45, some (n05, n05, n05), g.zero, g.zero, []⟩

end Pdfer.Image
