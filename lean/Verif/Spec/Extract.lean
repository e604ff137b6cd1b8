import Verif.Spec.Builder
import Verif.Spec.Content
import Verif.Model.Extract

/-! What is found on the pages of a built document. -/

namespace Pdfer.Spec.Extract

open Pdfer.Go Pdfer.Writer Pdfer.Builder Pdfer.Spec.Builder Pdfer.Spec.Content Pdfer.Content Pdfer.Extract

/-- The keys of a page that a resource name must not begin with. -/
def pageKeys : List Bytes :=
  [b!"Type", b!"MediaBox", b!"CropBox", b!"Rotate", b!"Resources", b!"Contents", b!"Annots", b!"Font"]

/-- A resource name of letters, digits and underscores that cannot be taken for a key or a keyword. -/
def FreeName (name : Bytes) : Prop :=
  name ≠ [] ∧ (∀ c ∈ name, (48 ≤ c ∧ c ≤ 57) ∨ (65 ≤ c ∧ c ≤ 90) ∨ (97 ≤ c ∧ c ≤ 122) ∨ c = 95) ∧
  (∀ k ∈ pageKeys, ¬ k <+: name) ∧ ¬ b!"endobj" <:+: name ∧ ¬ b!"stream" <:+: name

/-- A page with such resource names whose size is printed with digits. -/
def FreePage (p : Builder.Page) : Prop :=
  p.width ≠ [] ∧ p.height ≠ [] ∧ (∀ c ∈ p.width ++ p.height, isDigit c = true) ∧ ∀ e ∈ p.fonts ++ p.images, FreeName e.1

/-- The keys of a font that its name must not begin with. -/
def fontKeys : List Bytes := [b!"Encoding", b!"Differences", b!"ToUnicode", b!"Subtype", b!"FontDescriptor", b!"FontFile"]

/-- The name of a standard font: letters, digits and hyphens. -/
def FontName (name : Bytes) : Prop :=
  name ≠ [] ∧ (∀ c ∈ name, (48 ≤ c ∧ c ≤ 57) ∨ (65 ≤ c ∧ c ≤ 90) ∨ (97 ≤ c ∧ c ≤ 122) ∨ c = 45) ∧
  (∀ k ∈ fontKeys, ¬ k <+: name) ∧ ¬ b!"endobj" <:+: name ∧ ¬ b!"stream" <:+: name

/-- Calls that overwrite nothing: the caller stores no object under a number of his own choice, changes no dictionary handed in
before, and embeds no font; font names are as above. -/
def Fresh : BOp → Prop
  | .font _ name => FontName name
  | .embedFont _ _ => False
  | .writer (.setObject _ _) => False
  | .writer (.setStream _ _ _ _) => False
  | .writer (.addStream (.shared _) _ _) => False
  | _ => True

/-- The compressed form of a content can be delimited and decompressed: it does not contain the keywords, is not empty, does not begin
with a line end, and a line end behind it does no harm. -/
def StreamOK (z : Bytes → Bytes) (unz : Bytes → Option Bytes) (content : Bytes) : Prop :=
  ¬ b!"endobj" <:+: z content ∧ ¬ b!"endstream" <:+: z content ∧ (∃ b r, z content = b :: r ∧ b ≠ 10) ∧
  unz (z content ++ b!"\n") = some content

/-- A byte that reads the same in every Latin font: ASCII without the quotation marks ' and `. -/
def PlainByte (c : UInt8) : Prop := c < 128 ∧ c ≠ 39 ∧ c ≠ 96

/-- All shown texts consist of such bytes. -/
def PlainTexts {F : Type} : Call F → Prop
  | .showText s => ∀ c ∈ s, PlainByte c
  | .showTextNextLine s => ∀ c ∈ s, PlainByte c
  | .showTextArray ps => ∀ s, .text s ∈ ps → ∀ c ∈ s, PlainByte c
  | .showTextHex h => ∀ c ∈ (Enc.hexBytes h).getD [], PlainByte c
  | _ => True

/-- What extraction should say about the page `p`: its size, no crop box, no rotation, no annotations, and, if its content is what the
calls `cs` wrote, what the calls show (in so far as they can be read back at all, see C76 – C79). -/
def SeenAs {F : Type} (A : Arith F) (fl : XFloats F) (fmt : F → Bytes) (x : XPage F) (p : Builder.Page) : Prop :=
  (∀ w h, fl.parse p.width = some w → fl.parse p.height = some h →
    x.mediaBox = some (fl.zero, fl.zero, w, h) ∧ x.width = fl.sub w fl.zero ∧ x.height = fl.sub h fl.zero) ∧
  x.cropBox = none ∧ x.rotation = 0 ∧ x.annots = [] ∧
  ∀ cs : List (Call F), p.content = renderAll fmt cs → (∀ c ∈ cs, CallOK c ∧ PlainTexts c) →
    (Always A none KeepsText (Page.init A) cs → x.texts.map elemWhat = (pageOf A none cs).shown.map shownWhat) ∧
    (Always A none (PlainMoves A) (Page.init A) cs → x.texts.map (fun e => (e.x, e.y)) = (pageOf A none cs).shown.map fun s => (s.x, s.y)) ∧
    (Always A none KeepsPaint (Page.init A) cs → x.graphics.map shapeOf = (pageOf A none cs).shapes) ∧
    (Always A none (SetsOnce A) (Page.init A) cs → x.images.map (fun i => (i.id, i.transform)) = (pageOf A none cs).images)

end Pdfer.Spec.Extract
