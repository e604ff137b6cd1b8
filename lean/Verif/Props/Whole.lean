import Verif.Props.Document
import Verif.Props.Manipulate
import Verif.Props.Warnings
import Verif.Props.Writer
import Verif.Props.Crypto
import Verif.Props.Encrypted
import Verif.Props.Compare
import Verif.Props.Forms
import Verif.Props.FormXFA
import Verif.Props.Cli
import Verif.Props.Extract
import Verif.Props.Embed
import Verif.Props.Font
import Verif.Props.Image
import Verif.Props.Fill

/-! C133–C147: properties that the code has in full, put together from the theorems of the other files.  The files named there also have the
wider properties these belong to, most of which the code does not have in full. -/

namespace Pdfer.Props

open Pdfer.Go Pdfer.Spec

section
open Pdfer.Incremental Pdfer.Document

/-- C133: what `ParsePDFDocument` returns for any file is a faithful record: its bytes are the file, its header the beginning of the file, and
every object of every revision is filed under its own number, is the piece of the file between its two offsets, begins before the end of its
revision, and ends with its first `endobj`. -/
theorem C133_record (unz : Bytes → Option Bytes) (pdf : Bytes) (d : Doc) (h : parseDocument unz pdf = .ok d) :
    d.bytes = pdf ∧ b!"%PDF-" <+: d.header.raw ∧ d.header.raw <+: pdf ∧ d.revisions ≠ [] ∧
    ∀ r ∈ d.revisions, ∀ n o, r.objects.get n = some o →
      o.number = n ∧ (∃ pre post, pdf = pre ++ o.raw ++ post ∧ pre.length = o.offset ∧ pre.length + o.raw.length = o.endOffset) ∧
      (∃ a, o.raw = a ++ b!"endobj" ∧ ∀ i, OccursAt b!"endobj" o.raw i → i = a.length) ∧ o.offset < r.eofOffset := by
  obtain ⟨h1, h2, h3, h4⟩ := C27_document_bytes unz pdf d h
  refine ⟨h1, h2, h3, h4, fun r hr n o ho => ?_⟩
  obtain ⟨a, b, c, _, _, e⟩ := C27_raw_object_exact unz pdf d h r hr n o ho
  exact ⟨a, b, c, e⟩

/-- It holds of a file with three revisions. -/
example : ∃ d, docOf exFile = some d := Option.isSome_iff_exists.1 (by decide +kernel)

/-- C134: the ways to ask a parsed document for an object agree, for every file: `GetObject` finds exactly the object of the newest revision
that has the number; `AllObjects`, `GetRawObject`, `ObjectCount` and, on a document opened with `BytePerfect`, the offsets, `HasObject` and
`ObjectCount` of the reader, say the same. -/
theorem C134_queries (unz : Bytes → Option Bytes) (pdf : Bytes) (d : Doc) (h : parseDocument unz pdf = .ok d) :
    (∀ n o, d.getObject n = some o ↔ ∃ older r newer, d.revisions = older ++ r :: newer ∧ r.objects.get n = some o ∧
      ∀ r' ∈ newer, r'.objects.get n = none) ∧
    (∀ n, d.allObjects.get n = d.getObject n ∧ getRawObject d n = d.getObject n) ∧ d.allObjects.keys.Nodup ∧
    d.objectCount = d.allObjects.length ∧
    ∀ (env : Incremental.Env) (p : Pdf), openPerfect env pdf = .ok (p, d) →
      (∀ n, p.refs.get n = (d.getObject n).map (fun o => Ref.direct o.offset)) ∧
      (∀ n, hasObject p n = true ↔ (d.getObject n).isSome) ∧ objectCount p = d.objectCount := by
  obtain ⟨h1, h2, h3⟩ := C28_queries_agree unz pdf d h
  refine ⟨fun n o => C28_newest_revision d n o, h1, h2, h3, fun env p hp => ?_⟩
  obtain ⟨_, _, a, b, c⟩ := C28_perfect_pdf_agrees env pdf p d hp
  exact ⟨a, b, c⟩

/-- C135: reading ends on every input: the walk along the `/Prev` links visits at most as many places as the file has bytes, and one; the scan of
a JPEG header needs no more steps than the data has bytes; and reading a format 4 character map ends whatever the table says. -/
theorem C135_ends :
    (∀ (pdf : Bytes) (start : Nat), ∃ offs, ∀ fuel, pdf.length + 2 ≤ fuel → prevChain pdf fuel [] start [start] = some offs) ∧
    (∀ (data : Bytes) (extra : Nat), Image.jpegScan (data.length + extra) (data.drop 2) = Image.jpegScan data.length (data.drop 2)) ∧
    (∀ (s : Font.Slice) (fuel : Nat), 65535 < fuel → Font.cmap4 fuel s ≠ none) :=
  ⟨C26_walk_terminates, C88_jpeg_terminates, C53_format4_terminates⟩

end

section
open Pdfer.Manipulate Pdfer.Spec.Manipulate

/-- C136: merging any number of files gives the objects of all of them, with the new catalog and page tree, the numbers 1, 2, 3, ... without a gap
or a number given twice. -/
theorem C136_numbers (inputs : List Input) (h : ∀ i ∈ inputs, i.nums.Nodup) :
    (merge inputs).1.map (·.1) = (List.range (objectCount inputs + 2)).map (fun p : Nat => 1 + (p : Int)) ∧
    ((merge inputs).1.map (·.1)).Nodup := by
  have := C39_numbers_distinct inputs h
  refine ⟨this, ?_⟩
  rw [this]
  refine List.Pairwise.map (R := fun a b : Nat => a ≠ b) _ (fun a b hab => ?_) List.nodup_range
  omega

/-- Two files with the same numbers. -/
example : (merge [⟨fun _ => some b!"<<>>", [5], [1, 2, 5]⟩, ⟨fun _ => some b!"<<>>", [1], [2, 1]⟩]).1.map (·.1) = [1, 2, 3, 4, 5, 6, 7] := by decide +kernel

/-- C137 (of page operations): a page number outside the document is always refused, by a selection of pages, a rotation by an angle that is no
right angle is always refused, and a selection has the pages asked for, in the order asked for. -/
theorem C137_selection (objects : Map Int Bytes) (all : List Int) (ps : List Int) :
    ((∃ p ∈ ps, p < 1 ∨ p > all.length) → selectPages objects all ps = none) ∧
    (∀ sel, selectPages objects all ps = some sel →
      sel.map (·.1) = ps.filterMap (fun p => all[p.toNat - 1]?) ∧ sel.length = ps.length ∧ ∀ e ∈ sel, objects.get e.1 = some e.2) ∧
    (∀ (m : Manip) (fuel : Nat) (page a : Int), a ≠ 90 ∧ a ≠ 180 ∧ a ≠ 270 → rotatePage m fuel page a = some none) :=
  ⟨fun ⟨p, hp, h⟩ => C63_range_checked objects all ps p hp h, C63_selection objects all ps, C36_other_angles⟩

end

section
open Pdfer.Warnings Pdfer.Spec.Warnings

/-- C138: a warning collector says what happened, after every history of additions, clearings, and switching on and off, however the runtime grows
its slices: the warnings are those added while it was on since it was last cleared, in order; the count and the two filters agree with it. -/
theorem C138_history (grow : Nat → Nat) (on : Bool) (ops : List Op) (level code : Bytes) :
    Pdfer.Warnings.read (run grow (new on) ops) (warnings (run grow (new on) ops)) = (expected on ops).map some ∧
    count (run grow (new on) ops) = (expected on ops).length ∧
    (hasWarnings (run grow (new on) ops) = true ↔ expected on ops ≠ []) ∧
    (run grow (new on) ops).enabled = enabledAfter on ops ∧
    filterByLevel (run grow (new on) ops) level = .ok ((expected on ops).filter (fun w => w.level = level)) ∧
    getByCode (run grow (new on) ops) code = .ok ((expected on ops).filter (fun w => w.code = code)) := by
  obtain ⟨h1, h2, h3⟩ := C47_count grow on ops
  obtain ⟨h4, h5⟩ := C47_filters grow on ops level code
  exact ⟨C47_history grow on ops, h1, h2, h3, h4, h5⟩

end

section
open Pdfer.Writer

/-- C139: what a writer without object streams writes does not depend on the order in which Go goes through its maps: after every history two
runs that only differ in that order write the same bytes. -/
theorem C139_deterministic (env₁ env₂ : Env) (h₁ : FairOrder env₁) (h₂ : FairOrder env₂) (hz : env₁.z = env₂.z) (hc : env₁.crypt = env₂.crypt)
    (w : Writer) (ho : w.useObjectStream = false) : write env₁ w = write env₂ w :=
  C13_write_deterministic env₁ env₂ h₁ h₂ hz hc w ho

/-- Two orders that differ: insertion order and its reverse. -/
example : FairOrder plainEnv := plainEnv_fair

end

section
open Pdfer.Crypto
variable {P : Prim}

/-- C140: a file key that `SetupAES256Encryption` made, whatever passwords, file identifier, permissions and random bytes, is found again with the
user password; and what is encrypted with it comes back, for every object and all data. -/
theorem C140_setup (h : P.Lawful) (g : Random) (hg : g.Ok) (userPw ownerPw fid : Bytes) (perm : Int) (em : Bool) :
    ∃ e', unlock P (setupAES256 P g userPw ownerPw fid perm em) fid userPw = .ok e' ∧
      ∀ (iv : Bytes), iv.length = 16 → ∀ (n : Int) (gen : Nat) (data : Bytes), ∃ c,
        encryptStream P (setupAES256 P g userPw ownerPw fid perm em) iv n gen data = .ok c ∧ decryptObject P e' n gen c = .ok data := by
  obtain ⟨e', _, h1, _, _⟩ := C34_setup_round_trip h g hg userPw ownerPw fid perm em (List.replicate 16 0) rfl 0 0 []
  refine ⟨e', h1, fun iv hiv n gen data => ?_⟩
  obtain ⟨e'', c, h2, h3, h4⟩ := C34_setup_round_trip h g hg userPw ownerPw fid perm em iv hiv n gen data
  rw [h1] at h2
  cases h2
  exact ⟨c, h3, h4⟩

/-- C141: the keys of the objects are those of the standard (ISO 32000-1, Algorithm 1) in files encrypted with RC4 and with AES-128: what another
program encrypted for an object with the standard's key is decrypted to the data, and what this library encrypts with AES-128 is what the standard
asks for. -/
theorem C141_object_keys (h : P.Lawful) (e : Enc) (key : Bytes) (n g : Nat) (hkey : e.encryptKey = key) (data : Bytes) :
    (key ≠ [] → (e.v = 1 ∧ key.length = 5 ∨ e.v = 2 ∧ e.keyLength = key.length) →
      decryptObject P e n g (rc4Xor P (isoObjectKey P false key n g) data) = .ok data) ∧
    (∀ (iv : Bytes) (bs : List Bytes), e.v = 4 → e.keyLength = key.length → 11 ≤ key.length → iv.length = 16 → PaddedBlocks data bs →
      encryptStream P e iv n g data = .ok (iv ++ (isoCbc (P.aesEnc (isoObjectKey P true key n g)) iv bs).flatten) ∧
      decryptObject P e n g (iv ++ (isoCbc (P.aesEnc (isoObjectKey P true key n g)) iv bs).flatten) = .ok data) :=
  ⟨fun hne hv => C83_rc4_conforming e key n g data hkey hne hv,
   fun iv bs hv hl hlo hiv hbs => C83_aes_conforming h e key n g iv data bs hv hkey hl hlo hiv hbs⟩

end

section
open Pdfer.Compare

/-- C142: comparing anything with itself never reports a difference of the metadata, the images or the form, whatever the options; and the list of
pages with differences has a page exactly when both files have it and it differs, or only one of them has it. -/
theorem C142_compare (fmt1 : Rat → Bytes) (o : Opts) :
    (∀ m, compareMetadata o m m = none) ∧ (∀ data (t : List ImgRef), compareImages data data t t = none) ∧
    (∀ f : Option Form, (∀ a, f = some a → a.values.keys.Nodup) → compareForms f f = none) ∧
    ∀ (ps qs : List Page) (k : Nat) (d : List PageDiff), (k, d) ∈ comparePages fmt1 o 1 ps qs ↔ 1 ≤ k ∧
      ((∃ p q, ps[k - 1]? = some p ∧ qs[k - 1]? = some q ∧ d = comparePage fmt1 o p q ∧ d ≠ []) ∨
       (∃ p, ps[k - 1]? = some p ∧ qs[k - 1]? = none ∧ d = [.removed]) ∨
       (∃ q, ps[k - 1]? = none ∧ qs[k - 1]? = some q ∧ d = [.added])) :=
  ⟨C44_metadata o, C44_images, C44_form, C57_page_numbers fmt1 o⟩

end

section
open Pdfer.Forms Pdfer.Spec.Forms

/-- C143: `ValidateFormData` accepts form data exactly when every entry names a field of the form that takes the value, and every field, of the
two levels there are, that is required has an entry under its full name. -/
theorem C143_validate (fs : List Field) (data : List (Bytes × Val)) :
    validateFormData fs data = [] ↔
      (∀ d ∈ data, ∃ f full, findField fs d.1 = some (f, full) ∧ Accepts f.attrs d.2) ∧
      (∀ full f, FieldAt2 fs full f → Flag f.attrs.ff 2 → full ∈ data.map (·.1)) :=
  C48_validate fs data

/-- Data of both kinds for a form with a required field. -/
example : validateFormData exForm [(b!"a", .str b!"x"), (b!"d", .str b!"y"), (b!"a.b", .str b!"abc")] = [] ∧
    validateFormData exForm [(b!"d", .str b!"y")] ≠ [] ∧ validateFormData exForm [(b!"a", .str b!"x"), (b!"d", .str b!"z")] ≠ [] := by decide +kernel

/-- C144: replacing an object in a file changes exactly the text between its header, the first one in the file, and the first `endobj` behind it;
it fails exactly when there is no such text; every other byte is kept. -/
theorem C144_replace (pdf new r : Bytes) (n g : Int) : replaceObject pdf n g new = some r ↔
    ∃ a hd old z, pdf = a ++ hd ++ (old ++ b!"endobj") ++ z ∧ r = a ++ hd ++ (b!"\n" ++ new ++ b!"\nendobj\n") ++ z ∧
      HeaderText n g hd ∧ (∀ j, j < a.length → ¬ HeaderAt n g pdf j) ∧ ¬ b!"endobj" <:+: old ++ b!"endob" :=
  C49_replace_exact pdf new r n g

end

section
open Pdfer.XFA Pdfer.FormXFA
open Pdfer.Spec.XFA (ValidId)
variable {F : Type}

/-- C145: no XFA template crashes the reader, whatever elements it has in whatever order, well formed or not; and every question it returns has
an identifier that is one: letters, digits and underscores, not beginning with a digit. -/
theorem C145_no_crash (lib : Lib F) (toks : List Tok) : ∃ r, parseForm lib toks = .ok r ∧ ∀ q ∈ r.questions, ValidId q.id := by
  obtain ⟨r, h⟩ := C120_no_crash lib toks
  exact ⟨r, h, C120_ids lib toks r h⟩

end

section
open Pdfer.Font

/-- C146: no font file of less than 64 KiB crashes `ParseTTF`, whatever is in it; nor does a list of glyph widths of any font it accepted, nor a
format 12 character map. -/
theorem C146_no_crash (data : Bytes) (hd : data.length < 65536) :
    parseTTF (exact data) ≠ .panic ∧
    (∀ t, parseTTF (exact data) = .ok t → ∀ hmtx, t.tables.get b!"hmtx" = some hmtx → ∀ gs, ∃ ws, widthList hmtx t.unitsPerEm gs = .ok ws) ∧
    ∀ (s : Slice) (_ : s.WF) (fuel : Nat), cmap12 fuel s ≠ some .panic :=
  ⟨C72_parse_small data hd, fun t h hmtx hg gs => C72_widths (exact data) t h hmtx hg gs, C72_format12⟩

/-- A font that is accepted. -/
example : sampleFont.length < 65536 ∧ parseTTF (exact sampleFont) matches .ok _ := by decide +kernel

end

section
open Pdfer.Writer

/-- C147: a JPEG that `AddJPEGImage` accepts is stored as it is: the object written for it is read by the image extraction as a JPEG of the width,
height and colour space that were reported, with exactly the bytes given. -/
theorem C147_jpeg (w w' : Writer) (data : Bytes) (n : Int) (width height : Nat) (cs : Bytes)
    (h : Image.addJPEGImage w data = .ok (w', n, width, height, cs)) (env : Writer.Env) (hcr : env.crypt = none) :
    ∃ o, w'.objects.get n = some o ∧ ∀ (get : Int → Option Bytes) (unz : Bytes → Option Bytes) (t : Bytes),
      t ++ b!"\n" = (objText env w'.heap n o).1 → get n = some t → t.length ≤ 9223372036854775807 →
      Extract.imageData get unz n = .ok ⟨b!"/Im" ++ itoa n, width, height, b!"jpeg", cs, 8, b!"/DCTDecode", data⟩ :=
  C95_jpeg_roundtrip w w' data n width height cs h env hcr

/-- A JPEG that is accepted. -/
example : (Image.addJPEGImage newWriter exJpeg).bind (fun r => .ok r.2) = .ok (1, 640, 480, b!"/DeviceRGB") := by decide +kernel

end

section
open Pdfer.Cli
variable {D E S : Type}

/-- C148: the command line tool tells the truth by its exit status: with 0 the output file holds the filled form and every other file but the log
is as it was; with anything else the status is 1 and no file but the log has changed, except the output file when the disk failed while it was
written. -/
theorem C148_status (w : World D E S) (fs : Files) (a : Args) :
    (Fills a → (main w fs a).2 = 0 → ∃ out, Filled w (atStart fs a) a out ∧ Map.get (main w fs a).1 a.output = some out ∧
      ∀ p, p ≠ a.output → p ≠ a.log → Map.get (main w fs a).1 p = Map.get fs p) ∧
    ((main w fs a).2 ≠ 0 → (main w fs a).2 = 1 ∧
      ∀ p, p ≠ a.log → (p ≠ a.output ∨ ¬ ∃ k, w.write = .cut k) → Map.get (main w fs a).1 p = Map.get fs p) :=
  ⟨C118_success w fs a, C118_failure w fs a⟩

/-- A run that succeeds and one that fails. -/
example : Fills exArgs ∧ (main (exWorld .done) [(b!"i", b!"PDF"), (b!"d", b!"x")] exArgs).2 = 0 ∧
    (main (exWorld .done) [(b!"i", b!"PDF /Encrypt"), (b!"d", b!"x")] exArgs).2 = 1 := by
  refine ⟨⟨rfl, rfl, by decide, by decide, by decide⟩, by decide, by decide⟩

end

end Pdfer.Props
