import Verif.Proofs.ExtractOpen
import Verif.Proofs.ExtractAnnot
import Verif.Proofs.ExtractImage
import Verif.Props.Builder
import Verif.Props.Content

/-! C91 – C95: extracting pages. -/

namespace Pdfer.Props

open Pdfer.Go Pdfer.Writer Pdfer.Builder Pdfer.Spec.Builder Pdfer.Manipulate Pdfer.Incremental Pdfer.Outline
open Pdfer.Extract (XFloats XPage extractPages)
open Pdfer.Spec.PageDict (RefIs RefsAre NameIs IntIs ArrayIs StreamIs SameResources Words kinds)
open Pdfer.Spec.Manipulate (White Ends FirstKey kidsArray refText RotationIs)
open Pdfer.Spec.Extract (FreePage FreeName FontName Fresh StreamOK PlainTexts SeenAs)

/-! ### C91: a built document, extracted -/

/-- C91 (partial: resource and font names that cannot be taken for keys; only standard fonts; the caller overwrites no objects; sizes
printed as digits; table mode, no encryption, the file fits the reader's windows; the compressed contents can be delimited; texts
without apostrophe and backquote, ASCII): for every history of calls on a builder, opening what `Bytes` returns and extracting gives
one page for each finalised page, in order, with its size and with exactly the texts, shapes and images its calls drew. -/
theorem C91_built_pages_partial {F : Type} {A : Spec.Content.Arith F} (hA : A.Laws) (fl : XFloats F) (fmt : F → Bytes)
    (hf : Spec.Content.FormatOK A fl.toFloats fmt) (h0 : fl.parse b!"0" = some fl.zero) (unz : Bytes → Option Bytes)
    (env : Builder.Env) (hord : ∀ l, (env.ord l).Perm l) (hcr : env.wenv.crypt = none) (ops : List BOp) (h : ∀ op ∈ ops, Fresh op)
    (hne : finalised env ops ≠ []) (hfree : ∀ p ∈ finalised env ops, FreePage p)
    (hs : ∀ p ∈ finalised env ops, p.content ≠ [] → StreamOK env.wenv.z unz p.content)
    (hfit : Spec.FileFits env.wenv (finish (brun env ops)).w) (ienv : Incremental.Env)
    (henc : ienv.handleEncryption (Builder.bytes env (brun env ops)).1 = some none) :
    ∃ pdf pages N, openPdf ienv (Builder.bytes env (brun env ops)).1 = .ok pdf ∧
      (∀ fuel, N ≤ fuel → extractPages fl (pdfGet ienv pdf) unz pdf.root fuel = some (.ok pages)) ∧
      InOrder (SeenAs A fl fmt) pages (finalised env ops) := by
  obtain ⟨pdf, pages, N, h1, h2, h3⟩ := Extract.built_pages fl unz env hord hcr (brun env ops) (finalised env ops)
    (binv_run env ops fun op ho => Extract.fresh_adds (h op ho)) (Extract.xinv_run env hcr ops h) (refs_brun env ops) hne hfree hs hfit ienv henc
  refine ⟨pdf, pages, N, h1, h2, Extract.inOrder_imp h3 ?_⟩
  rintro x _ p ⟨fonts, hstd, e1, e2, e3, e4, e5, e6, e7, e8, e9⟩
  refine ⟨?_, e4, e5, e6, ?_⟩
  · intro w hh hw hhh
    have e : x.mediaBox = some (fl.zero, fl.zero, w, hh) := by
      rw [e1]
      simp [List.filterMap_cons, h0, hw, hhh, Extract.rectOf]
    rw [e] at e2 e3
    exact ⟨e, e2, e3⟩
  · intro cs hc hok
    have hok1 : ∀ c ∈ cs, Spec.Content.CallOK c := fun c hc => (hok c hc).1
    have hok2 : ∀ c ∈ cs, PlainTexts c := fun c hc => (hok c hc).2
    have hp := Extract.pageOf_std (A := A) hstd cs hok1 hok2
    rw [e7, e8, e9, hc, ← hp]
    refine ⟨fun hk => C76_texts_partial hf fonts cs hok1 ?_, fun hk => C77_positions_partial hA hf fonts cs hok1 ?_,
      fun hk => C78_shapes_partial hf fonts cs hok1 ?_, fun hk => C79_images_partial hA hf fonts cs hok1 ?_⟩ <;>
    exact Extract.always_std hstd cs hok1 hok2 _ hk

/-- Numbers of ten-thousandths for the examples: texts without a point are integers. -/
def xFix : XFloats Int :=
  { Spec.Content.fixFloats with
    parse := fun s => if 46 ∈ s then Spec.Content.fixParse s else (Spec.Content.fixParse s).map (· * 10000), sub := (· - ·), toInt := (· / 10000) }

theorem xFix_format : Spec.Content.FormatOK Spec.Content.fixArith xFix.toFloats Spec.Content.fixFmt := by
  obtain ⟨h1, h2, h3, h4⟩ := fix_format
  refine ⟨h1, h2, h3, fun x => ⟨(h4 x).1, (h4 x).2.1, ?_⟩⟩
  have h46 : (46 : UInt8) ∈ Spec.Content.fixFmt x := by simp [Spec.Content.fixFmt]
  show (if 46 ∈ Spec.Content.fixFmt x then _ else _) = _
  rw [if_pos h46]
  exact (h4 x).2.2

/-- One page with text in two fonts, a rectangle, a line and an image. -/
def exXOps : List BOp :=
  [.addPage b!"612" b!"792", .font 0 b!"Helvetica", .font 0 b!"Times-Bold", .image 0 b!"Im1" 7, .draw 0 (Content.renderAll Spec.Content.fixFmt sampleCalls), .finalize 0]
def exXUnz (s : Bytes) : Option Bytes := some (s.take (s.length - 1))

theorem exXOps_fresh : ∀ op ∈ exXOps, Fresh op := by
  intro op hop
  simp only [exXOps, List.mem_cons, List.not_mem_nil, or_false] at hop
  have hn : ∀ name : Bytes, (name = b!"Helvetica" ∨ name = b!"Times-Bold") → FontName name := by
    rintro name (rfl | rfl) <;> refine ⟨by decide, by decide, by decide, ?_, ?_⟩ <;> rw [← noOcc_iff_infix, noOcc_iff_index] <;> decide
  rcases hop with rfl | rfl | rfl | rfl | rfl | rfl
  · trivial
  · exact hn _ (.inl rfl)
  · exact hn _ (.inr rfl)
  all_goals trivial

theorem exXOps_final : finalised exBEnv exXOps =
    [⟨b!"612", b!"792", [(b!"F2", 2), (b!"F1", 1)], [(b!"Im1", 7)], Content.renderAll Spec.Content.fixFmt sampleCalls⟩] := by decide +kernel

theorem exXOps_fits : Spec.FileFits plainEnv (finish (brun exBEnv exXOps)).w where
  fair := plainEnv_fair
  table := by decide +kernel
  plain := by decide +kernel
  size := by decide +kernel
  next := by decide +kernel
  once := by
    generalize hf : (write plainEnv (finish (brun exBEnv exXOps)).w).1 = F
    have key : ∀ i, i < F.length → F.length ≤ i + 106 → (b!"startxref").isPrefixOf (F.drop i) = true → i + 20 = F.length := by
      subst hf; decide +kernel
    intro i j hi1 hj1 hi hj
    have lt : ∀ i, Spec.OccursAt b!"startxref" F i → i < F.length := by
      intro i hi
      rw [occursAt_iff (by decide)] at hi
      apply Classical.byContradiction; intro hn
      rw [List.drop_of_length_le (by omega)] at hi
      exact absurd hi (by decide)
    have h1 := key i (lt i hi) hi1 (by rw [occursAt_iff (by decide)] at hi; exact List.isPrefixOf_iff_prefix.2 hi)
    have h2 := key j (lt j hj) hj1 (by rw [occursAt_iff (by decide)] at hj; exact List.isPrefixOf_iff_prefix.2 hj)
    omega
  window := by decide +kernel

/-- All hypotheses of C91 hold for this history; the page is seen with its texts, positions, shapes and image. -/
example : ∃ pdf x N, openPdf readEnv (Builder.bytes exBEnv (brun exBEnv exXOps)).1 = .ok pdf ∧
    (∀ fuel, N ≤ fuel → extractPages xFix (pdfGet readEnv pdf) exXUnz pdf.root fuel = some (.ok [x])) ∧
    x.mediaBox = some (0, 0, 6120000, 7920000) ∧
    x.texts.map Spec.Content.elemWhat = (page sampleCalls).shown.map Spec.Content.shownWhat ∧
    x.graphics.map Spec.Content.shapeOf = (page sampleCalls).shapes ∧ x.images.map (fun i => (i.id, i.transform)) = (page sampleCalls).images := by
  obtain ⟨pdf, pages, N, h1, h2, h3⟩ := C91_built_pages_partial fix_laws xFix Spec.Content.fixFmt xFix_format (by decide +kernel) exXUnz exBEnv
    (fun l => List.Perm.refl l) rfl exXOps exXOps_fresh (by rw [exXOps_final]; simp) (by
      rw [exXOps_final]
      intro p hp
      simp only [List.mem_singleton] at hp
      subst hp
      refine ⟨by decide, by decide, by decide, ?_⟩
      intro e he
      simp only [List.cons_append, List.nil_append, List.mem_cons, List.not_mem_nil, or_false] at he
      rcases he with rfl | rfl | rfl <;> refine ⟨by decide, by decide, by decide, ?_, ?_⟩ <;> rw [← noOcc_iff_infix, noOcc_iff_index] <;> decide) (by
      rw [exXOps_final]
      intro p hp
      simp only [List.mem_singleton] at hp
      subst hp
      intro _
      refine ⟨?_, ?_, ⟨113, (Content.renderAll Spec.Content.fixFmt sampleCalls).drop 1, by decide +kernel, by decide⟩, by decide +kernel⟩ <;>
        rw [← noOcc_iff_infix, noOcc_iff_index] <;> decide +kernel) exXOps_fits readEnv rfl
  rw [exXOps_final] at h3
  obtain ⟨x, hx⟩ : ∃ x, pages = [x] := by
    cases h3 with
    | @cons x _ xs _ _ h => cases h with | nil => exact ⟨x, rfl⟩
  subst hx
  cases h3 with
  | cons hx _ =>
    obtain ⟨q1, -, -, -, q5⟩ := hx
    obtain ⟨t1, -, t3, t4⟩ := q5 sampleCalls rfl (fun c hc => ⟨sampleCalls_ok c hc, by
      simp only [sampleCalls, List.mem_cons, List.not_mem_nil, or_false] at hc
      rcases hc with rfl | rfl | rfl | rfl | rfl | rfl | rfl | rfl | rfl | rfl | rfl | rfl | rfl | rfl | rfl | rfl | rfl | rfl | rfl | rfl | rfl | rfl | rfl | rfl <;>
        first | exact True.intro | (simp only [PlainTexts, Spec.Extract.PlainByte]; decide +kernel) | (
          intro s hs
          simp at hs
          rcases hs with rfl | rfl <;> simp only [Spec.Extract.PlainByte] <;> decide)⟩)
    refine ⟨pdf, x, N, h1, h2, (q1 6120000 7920000 (by decide +kernel) (by decide +kernel)).1, t1 ?_, t3 ?_, t4 ?_⟩
    · simp [sampleCalls, Spec.Content.Always, Spec.Content.KeepsText, Spec.Content.exec, Spec.Content.Page.init, Spec.Content.Page.setPaint,
        Spec.Content.Page.setText, Spec.Content.Page.move, Spec.Content.Page.show]
    · simp [sampleCalls, Spec.Content.Always, Spec.Content.KeepsPaint, Spec.Content.exec, Spec.Content.Page.init, Spec.Content.Page.setPaint,
        Spec.Content.Page.setText, Spec.Content.Page.move, Spec.Content.Page.show, Spec.Content.fixArith]
    · simp [sampleCalls, Spec.Content.Always, Spec.Content.SetsOnce, Spec.Content.exec, Spec.Content.Page.init, Spec.Content.Page.setPaint,
        Spec.Content.Page.setText, Spec.Content.Page.move, Spec.Content.Page.show]

/-- A document for the examples: objects by number. -/
def docGet (l : List (Int × Bytes)) (n : Int) : Option Bytes := Map.get l n

/-- A stream that is not compressed, as it is read. -/
def rawStream (n : Nat) (data : Bytes) : Int × Bytes :=
  ((n : Int), natDec n ++ b!" 0 obj\n<</Length " ++ natDec data.length ++ b!" >>\nstream\n" ++ data ++ b!"\nendstream\nendobj")

/-- Any other object, as it is read. -/
def plainObj (n : Nat) (text : Bytes) : Int × Bytes := ((n : Int), natDec n ++ b!" 0 obj\n" ++ text ++ b!"\nendobj")

/-- What is read of page 4 of these objects. -/
def seen (objs : List (Int × Bytes)) : Res (XPage Int) :=
  match docGet objs 4 with
  | none => .err
  | some s => Extract.page xFix (docGet objs) some 4 s

/-- The texts, and the rotation. -/
def seenTexts (objs : List (Int × Bytes)) : Option (List Bytes) := match seen objs with
  | .ok x => some (x.texts.map Content.Elem.text)
  | _ => none
def seenRotation (objs : List (Int × Bytes)) : Option Int := match seen objs with
  | .ok x => some x.rotation
  | _ => none

/-- C91 does not hold in full: a straight apostrophe or backquote in a standard font comes back as another character (three bytes). -/
theorem C91_apostrophe_violated :
    seenTexts [plainObj 1 (fontText b!"Helvetica"), rawStream 3 (Content.renderAll Spec.Content.fixFmt [.setFont b!"/F1" 120000, .showText b!"It's `x`"]),
      plainObj 4 (pageText id 2 3 ⟨b!"612", b!"792", [(b!"F1", 1)], [], b!"-"⟩)] = some [b!"It’s ‘x‘"] ∧
    b!"It’s ‘x‘" ≠ b!"It's `x`" := by decide +kernel

/-- C91 does not hold in full: a text that is not ASCII comes back as other characters. -/
theorem C91_utf8_violated :
    seenTexts [plainObj 1 (fontText b!"Helvetica"), rawStream 3 (Content.renderAll Spec.Content.fixFmt [.setFont b!"/F1" 120000, .showText b!"naïve"]),
      plainObj 4 (pageText id 2 3 ⟨b!"612", b!"792", [(b!"F1", 1)], [], b!"-"⟩)] ≠ some [b!"naïve"] := by decide +kernel

/-- C91 does not hold in full: an image named Rotate is taken for the rotation of the page (here by 9 degrees, the number of its object). -/
theorem C91_rotate_name_violated :
    seenRotation [plainObj 4 (pageText id 2 3 (addImage (newPage b!"612" b!"792") b!"Rotate" 9).1)] = some 9 ∧
    seenRotation [plainObj 4 (pageText id 2 3 (addImage (newPage b!"612" b!"792") b!"Photo" 9).1)] = some 0 := by decide +kernel

/-! ### C92: several content streams -/

/-- C92 (partial: the array stands directly behind /Contents, which occurs nowhere else, with single spaces between the references; see the
violations): what is found on a page with several content streams is what is found on pages that have these streams one at a time, in
their order. -/
theorem C92_streams_in_order_partial {F : Type} (fl : XFloats F) (get : Int → Option Bytes) (unz : Bytes → Option Bytes) (num : Int)
    (s : Bytes) (nums : List Nat) (h0 : nums ≠ []) (hn : ∀ n ∈ nums, n ≤ 9223372036854775807) (hs : RefsAre s b!"/Contents" nums)
    (x : XPage F) (hx : Extract.page fl get unz num s = .ok x) (t : Nat → Bytes) (y : Nat → XPage F)
    (ht : ∀ n ∈ nums, RefIs (t n) b!"/Contents" n ∧ SameResources s (t n) ∧ Extract.page fl get unz num (t n) = .ok (y n)) :
    x.texts = nums.flatMap (fun n => (y n).texts) ∧ x.graphics = nums.flatMap (fun n => (y n).graphics) ∧
    x.images = nums.flatMap (fun n => (y n).images) := by
  have hc := Extract.contentRefs_array h0 hs
  obtain ⟨-, -, -, -, h1, h2, h3, -⟩ := Extract.page_ok hx
  rw [hc, Extract.contents_array fl get unz _ nums hn, List.flatMap_assoc] at h1 h2 h3
  have hy : ∀ n ∈ nums, _ := fun n hm => Extract.page_ok (ht n hm).2.2
  rw [h1, h2, h3]
  have cong : ∀ {β : Type} (f g : Nat → List β), (∀ n ∈ nums, f n = g n) → nums.flatMap f = nums.flatMap g := by
    intro β f g h
    rw [List.flatMap_def, List.flatMap_def, List.map_congr_left h]
  refine ⟨cong _ _ ?_, cong _ _ ?_, cong _ _ ?_⟩ <;> intro n hm
  · rw [(hy n hm).2.2.2.2.1, ← Extract.resources_same (get := get) (ht n hm).2.1, Extract.contentRefs_one (ht n hm).1]
  · rw [(hy n hm).2.2.2.2.2.1, ← Extract.resources_same (get := get) (ht n hm).2.1, Extract.contentRefs_one (ht n hm).1]
  · rw [(hy n hm).2.2.2.2.2.2.1, ← Extract.resources_same (get := get) (ht n hm).2.1, Extract.contentRefs_one (ht n hm).1]

/-- Two streams, each with a text; the page with both shows both texts. -/
def exStreams : List (Int × Bytes) :=
  [rawStream 5 b!"BT\n/F1 12 Tf\n(one) Tj\nET", rawStream 6 b!"BT\n/F2 9 Tf\n(two) Tj\nET"]

example : RefsAre b!"4 0 obj\n<</Type/Page/Contents[ 5 0 R 6 0 R]/Rotate 0>>\nendobj" b!"/Contents" [5, 6] ∧
    RefIs b!"4 0 obj\n<</Type/Page/Contents 6 0 R>>\nendobj" b!"/Contents" 6 ∧
    seenTexts (exStreams ++ [plainObj 4 b!"<</Type/Page/Contents[ 5 0 R 6 0 R]/Rotate 0>>"]) = some [b!"one", b!"two"] ∧
    seenTexts (exStreams ++ [plainObj 4 b!"<</Type/Page/Contents 6 0 R>>"]) = some [b!"two"] := by
  refine ⟨⟨b!"4 0 obj\n<</Type/Page", b!" ", [], b!"/Rotate 0>>\nendobj", ?_, ?_, ?_, ?_, by decide⟩,
    ⟨b!" ", b!">>\nendobj", by decide, ?_, b!"4 0 obj\n<</Type/Page", ?_, by decide⟩, by decide +kernel, by decide +kernel⟩
  · intro c hc; simp at hc; subst hc; exact .inl rfl
  · simp
  · rw [← noOcc_iff_infix, noOcc_iff_index]; decide
  · rw [← noOcc_iff_infix, noOcc_iff_index]; decide
  · intro c hc; simp at hc; subst hc; exact .inl rfl
  · rw [← noOcc_iff_infix, noOcc_iff_index]; decide

/-- C92 is violated: with white space between /Contents and the array, nothing is found on the page, whatever the streams hold. -/
theorem C92_spaced_array_violated {F : Type} (fl : XFloats F) (get : Int → Option Bytes) (unz : Bytes → Option Bytes) (num : Int)
    (s w rest : Bytes) (hw0 : w ≠ []) (hw : ∀ c ∈ w, White c) (h : FirstKey s b!"/Contents" (w ++ b!"[" ++ rest))
    (x : XPage F) (hx : Extract.page fl get unz num s = .ok x) : x.texts = [] ∧ x.graphics = [] ∧ x.images = [] := by
  obtain ⟨-, -, -, -, h1, h2, h3, -⟩ := Extract.page_ok hx
  rw [Extract.contents_spaced fl get unz _ hw0 hw h] at h1 h2 h3
  exact ⟨h1, h2, h3⟩

example : FirstKey b!"4 0 obj\n<</Type/Page/Contents [5 0 R 6 0 R]>>\nendobj" b!"/Contents" (b!" " ++ b!"[" ++ b!"5 0 R 6 0 R]>>\nendobj") ∧
    seenTexts (exStreams ++ [plainObj 4 b!"<</Type/Page/Contents [5 0 R 6 0 R]>>"]) = some [] := by
  refine ⟨⟨b!"4 0 obj\n<</Type/Page", ?_, by decide⟩, by decide +kernel⟩
  rw [← noOcc_iff_infix, noOcc_iff_index]; decide

/-- C92 is violated: the streams of a page are one content (ISO 32000-1, 7.8.2), but a font set in the first is forgotten in the second. -/
theorem C92_state_not_carried_violated :
    let a := b!"BT\n/F1 12 Tf\n(one) Tj\nET\n"
    let b := b!"BT\n(two) Tj\nET\n"
    (Content.parseContent xFix.toFloats none (a ++ b)).texts.map (fun e => (e.text, e.font, e.size)) = [(b!"one", b!"/F1", 120000), (b!"two", b!"/F1", 120000)] ∧
    (match seen [rawStream 5 a, rawStream 6 b, plainObj 4 b!"<</Type/Page/Contents[5 0 R 6 0 R]>>"] with
      | .ok x => x.texts.map fun e => (e.text, e.font, e.size)
      | _ => []) = [(b!"one", b!"/F1", 120000), (b!"two", [], 0)] := by decide +kernel

/-! ### C93: the size and rotation of a page -/

/-- C93 (partial: the page has its own boxes and rotation, written in place; see the violations): the media box and the crop box of every
page are the four numbers in its text, its size their differences, and its rotation the number behind /Rotate, 0 when there is none. -/
theorem C93_boxes_partial {F : Type} (fl : XFloats F) (get : Int → Option Bytes) (unz : Bytes → Option Bytes) (num : Int) (s : Bytes)
    (x : XPage F) (hx : Extract.page fl get unz num s = .ok x) :
    (∀ ws a b c d, ArrayIs s b!"/MediaBox" ws → ws.map fl.parse = [some a, some b, some c, some d] →
      x.mediaBox = some (a, b, c, d) ∧ x.width = fl.sub c a ∧ x.height = fl.sub d b) ∧
    (∀ ws a b c d, ArrayIs s b!"/CropBox" ws → ws.map fl.parse = [some a, some b, some c, some d] → x.cropBox = some (a, b, c, d)) ∧
    (¬ b!"/CropBox" <:+: s → x.cropBox = none) ∧
    (∀ r, -9223372036854775808 ≤ r → r ≤ 9223372036854775807 → RotationIs s r → x.rotation = r) := by
  obtain ⟨h1, h2, h3, h4, -⟩ := Extract.page_ok hx
  refine ⟨?_, ?_, ?_, ?_⟩
  · intro ws a b c d hw hv
    have e : x.mediaBox = some (a, b, c, d) := by
      rw [h1, Extract.array_words fl (k := b!"MediaBox") (by decide) hw, Extract.filterMap_all (vs := [a, b, c, d]) hv]
      rfl
    exact ⟨e, h3 a b c d e⟩
  · intro ws a b c d hw hv
    rw [h2, Extract.array_words fl (k := b!"CropBox") (by decide) hw, Extract.filterMap_all (vs := [a, b, c, d]) hv]
    rfl
  · intro ha
    rw [h2]
    rw [Extract.array_missing fl ha]
    rfl
  · intro r hr1 hr2 hr
    rw [h4]
    exact (rotation_read hr hr1 hr2).2

example : ArrayIs b!"<</Type /Page /MediaBox [ 0 0 612\n792 ] /Rotate -90 >>" b!"/MediaBox" [b!"0", b!"0", b!"612", b!"792"] ∧
    RotationIs b!"<</Type /Page /MediaBox [ 0 0 612\n792 ] /Rotate -90 >>" (-90) ∧
    (match seen [plainObj 4 b!"<</Type /Page /MediaBox [ 0 0 612\n792 ] /Rotate -90 >>"] with
      | .ok x => (x.mediaBox, x.cropBox, x.rotation, x.width, x.height)
      | _ => (none, none, 0, 0, 0)) = (some (0, 0, 6120000, 7920000), none, -90, 6120000, 7920000) := by
  have hws : ∀ w : Bytes, (w = b!" " ∨ w = b!"\n" ∨ w = []) → ∀ c ∈ w, White c := by
    rintro w (rfl | rfl | rfl) <;> simp [White]
  refine ⟨⟨b!" ", b!" 0 0 612\n792 ", b!" /Rotate -90 >>", hws _ (.inl rfl), by decide, by decide, ?_, b!"<</Type /Page ", ?_, by decide⟩, ?_, by decide +kernel⟩
  · refine Words.cons b!" " b!"0" 32 b!"0 612\n792 " _ (hws _ (.inl rfl)) (by decide) (by decide) (.inl rfl) ?_
    refine Words.cons b!" " b!"0" 32 b!"612\n792 " _ (hws _ (.inl rfl)) (by decide) (by decide) (.inl rfl) ?_
    refine Words.cons b!" " b!"612" 10 b!"792 " _ (hws _ (.inl rfl)) (by decide) (by decide) (by simp [White]) ?_
    refine Words.cons b!"\n" b!"792" 32 b!"" _ (hws _ (.inr (.inl rfl))) (by decide) (by decide) (.inl rfl) ?_
    exact Words.nil b!" " (hws _ (.inl rfl))
  · rw [← noOcc_iff_infix, noOcc_iff_index]; decide
  · refine RotationIs.value b!"<</Type /Page /MediaBox [ 0 0 612\n792 ] " b!" " b!" >>" (-90) ?_ (by decide) (hws _ (.inl rfl)) ?_
    · rw [← noOcc_iff_infix, noOcc_iff_index]; decide
    · intro c hc; simp at hc; subst hc; exact .inl (.inl rfl)

/-- C93 is violated: a page that inherits everything from its parent (ISO 32000-1, 7.7.3.4) has no box, no rotation and no resources. -/
theorem C93_inherited_violated :
    let node := plainObj 2 b!"<</Type/Pages/Kids[4 0 R]/Count 1/MediaBox[0 0 612 792]/Rotate 90/Resources 3 0 R>>"
    let res := plainObj 3 b!"<</Font<</F1 7 0 R>>>>"
    let root := plainObj 1 b!"<</Type/Catalog/Pages 2 0 R>>"
    let pg := plainObj 4 b!"<</Type/Page/Parent 2 0 R>>"
    (match extractPages xFix (docGet [root, node, res, pg]) some b!"1 0 R" 9 with
      | some (.ok [x]) => some (x.mediaBox, x.width, x.rotation, x.resources.isSome)
      | _ => none) = some (none, 0, 0, false) := by decide +kernel

/-- C93 is violated: a box in an object of its own is not found. -/
theorem C93_indirect_box_violated :
    (match seen [plainObj 5 b!"[0 0 612 792]", plainObj 4 b!"<</Type/Page/MediaBox 5 0 R>>"] with
      | .ok x => some (x.mediaBox, x.width)
      | _ => none) = some (none, 0) := by decide +kernel

/-- C93 is violated: a box given by its other two corners (ISO 32000-1, 7.9.5) has a negative size. -/
theorem C93_corners_violated :
    (match seen [plainObj 4 b!"<</Type/Page/MediaBox[612 792 0 0]>>"] with
      | .ok x => some (x.width, x.height)
      | _ => none) = some (-6120000, -7920000) := by decide +kernel

/-! ### C94: annotations -/

/-- The characters of a plain name after the slash: no white space, no angle bracket, no slash. -/
def NameText (nm : Bytes) : Prop := nm ≠ [] ∧ ∀ c ∈ nm, ¬ White c ∧ c ≠ 60 ∧ c ≠ 62 ∧ c ≠ 47

theorem nameText_bytes {nm : Bytes} (h : NameText nm) : ∀ c ∈ nm, nameByte c = true := by
  intro c hc
  obtain ⟨h1, h2, h3, h4⟩ := h.2 c hc
  have : reSpace c = false := by
    cases hr : reSpace c with
    | false => rfl
    | true => exact absurd (white_reSpace.2 hr) h1
  simp [nameByte, tokByte, this, h2, h3, h4]

/-- C94 (partial: the array of references stands directly behind /Annots; the kinds are those of the list; see the violations): for every
page, the annotations found are those of the array in order, each with its kind and, if its rectangle is given by four numbers, its
rectangle; the target of a link is found if it stands behind the first /URI, is written as a string in parentheses and has no spaces,
angle brackets or backslashes. -/
theorem C94_annotations_partial {F : Type} (fl : XFloats F) (get : Int → Option Bytes) (unz : Bytes → Option Bytes) (num : Int)
    (s : Bytes) (nums : List Nat) (h0 : nums ≠ []) (hn : ∀ n ∈ nums, n ≤ 9223372036854775807) (hs : RefsAre s b!"/Annots" nums)
    (text kind name : Nat → Bytes) (ht : ∀ n ∈ nums, get n = some (text n) ∧ (kind n, name n) ∈ kinds ∧ NameIs (text n) b!"/Subtype" (kind n))
    (x : XPage F) (hx : Extract.page fl get unz num s = .ok x) :
    InOrder (fun a (n : Nat) => a.id = (n : Int) ∧ a.type = name n ∧
      (∀ ws p q r t, ArrayIs (text n) b!"/Rect" ws → ws.map fl.parse = [some p, some q, some r, some t] → a.rect = some (p, q, r, t)) ∧
      (name n = b!"link" → ∀ w u rest, w ≠ [] → (∀ c ∈ w, White c) → (∀ c ∈ u, ¬ White c ∧ c ≠ 60 ∧ c ≠ 62 ∧ c ≠ 92) → Ends rest →
        FirstKey (text n) b!"/URI" (w ++ b!"(" ++ u ++ b!")" ++ rest) → a.uri = u) ∧
      (∀ ws vs, ArrayIs (text n) b!"/C" ws → ws.map fl.parse = vs.map some → (vs.length = 3 ∨ vs.length = 4) → a.color = vs) ∧
      (name n ∈ [b!"highlight", b!"underline", b!"strikeout", b!"squiggly"] → ∀ ws vs more, ArrayIs (text n) b!"/QuadPoints" ws →
        ws.map fl.parse = (vs ++ more).map some → vs.length = 8 → a.quad = vs) ∧
      (name n = b!"text" → ∀ nm, NameText nm → NameIs (text n) b!"/Name" (47 :: nm) → a.icon = 47 :: nm) ∧
      (name n = b!"link" → ∀ nm, NameText nm → NameIs (text n) b!"/Dest" (47 :: nm) → a.dest = 47 :: nm) ∧
      (name n = b!"text" → ¬ b!"/Open" <:+: text n → a.isOpen = false) ∧
      (name n = b!"text" → ∀ w rest, w ≠ [] → (∀ c ∈ w, White c) → Ends rest → FirstKey (text n) b!"/Open" (w ++ b!"true" ++ rest) →
        a.isOpen = true)) x.annots nums := by
  obtain ⟨-, -, -, -, -, -, -, h⟩ := Extract.page_ok hx
  rw [Extract.annots_array fl get num h0 hs] at h
  refine Extract.annotLoop_known fl get num _ nums x.annots ?_ h
  intro n hm
  refine ⟨hn n hm, fun r hr => ?_⟩
  obtain ⟨g1, g2, g3⟩ := ht n hm
  obtain ⟨a, e1, e2, e3, -, e5, e6, e7, e8, e9, e10, e11⟩ := Extract.annotation_known fl get num n g1 g2 g3 hr
  refine ⟨a, e1, e2, e3, ?_, ?_, ?_, ?_, ?_, ?_, ?_, ?_⟩
  rotate_left 2
  · intro ws vs hw hv hl
    rw [e7, Extract.array_words fl (k := b!"C") (by decide) hw, Extract.filterMap_all hv, if_pos (by omega), List.take_of_length_le (by omega)]
  · intro hk ws vs more hw hv hl
    rw [e8, Extract.array_words fl (k := b!"QuadPoints") (by decide) hw, Extract.filterMap_all hv, if_pos ⟨by simpa using hk, by simp; omega⟩,
      ← hl, List.take_left]
  · intro hk nm hn hname
    rw [e9, if_pos hk, Extract.xDict_name (k := b!"Name") (by decide) hn.1 (nameText_bytes hn) hname]
  · intro hk nm hn hname
    rw [e10, if_pos hk, Extract.xDict_name (k := b!"Dest") (by decide) hn.1 (nameText_bytes hn) hname]
  · intro hk hno
    rw [e11, Extract.xDict_missing hno]
    simp
  · intro hk w rest hw0 hw hr ⟨pre, hpre, e⟩
    have e' : text n = pre ++ (b!"/Open" ++ (w ++ (b!"true" ++ rest))) := by rw [e]; simp
    rw [e11, e', Manipulate.xDict_value (k := b!"Open") (by decide) (noOcc_iff_infix.2 hpre) hw0 hw ⟨by simp, by decide, by decide⟩ hr]
    simp [hk]
  · intro ws p q r t hw hv
    rw [e5, Extract.array_words fl (k := b!"Rect") (by decide) hw, Extract.filterMap_all (vs := [p, q, r, t]) hv]
    rfl
  · intro hl w u rest hw0 hw hu hr hf
    have := e6 hl
    rw [Extract.linkUri_direct hw0 hw ?_ hr hf] at this
    · exact (Res.ok.inj this).symm
    · intro c hc
      obtain ⟨h1, h2, h3, h4⟩ := hu c hc
      refine ⟨?_, h4⟩
      have : reSpace c = false := by
        cases hr : reSpace c with
        | false => rfl
        | true => exact absurd (white_reSpace.2 hr) h1
      simp [tokByte, this, h2, h3]

/-- What is read of the annotations. -/
def seenAnnots (objs : List (Int × Bytes)) : Option (List (Int × Bytes × List Int × Bytes)) :=
  match seen objs with
  | .ok x => some (x.annots.map fun a => (a.id, a.type, (match a.rect with | some (p, q, r, t) => [p, q, r, t] | none => []), a.uri))
  | _ => none

example : NameIs b!"5 0 obj\n<</Type/Annot/Subtype/Link/Rect[0 0 9 9]/A<</URI (http://x.y/z) /S/URI>>>>\nendobj" b!"/Subtype" b!"/Link" ∧
    RefsAre b!"4 0 obj\n<</Type/Page/Annots[5 0 R 6 0 R]>>\nendobj" b!"/Annots" [5, 6] ∧
    seenAnnots [plainObj 5 b!"<</Type/Annot/Subtype/Link/Rect[0 0 9 9]/A<</URI (http://x.y/z) /S/URI>>>>", plainObj 6 b!"<</Subtype /Stamp /Rect [1 2 3 4]>>",
      plainObj 4 b!"<</Type/Page/Annots[5 0 R 6 0 R]>>"] =
      some [(5, b!"link", [0, 0, 90000, 90000], b!"http://x.y/z"), (6, b!"stamp", [10000, 20000, 30000, 40000], [])] := by
  refine ⟨.inr ⟨b!"/Rect[0 0 9 9]/A<</URI (http://x.y/z) /S/URI>>>>\nendobj", ?_, ⟨b!"5 0 obj\n<</Type/Annot", ?_, by decide⟩, ?_⟩,
    ⟨b!"4 0 obj\n<</Type/Page", [], [], b!">>\nendobj", by simp, by simp, ?_, ?_, by decide⟩, by decide +kernel⟩
  · intro c hc; simp at hc; subst hc; simp
  · rw [← noOcc_iff_infix, noOcc_iff_index]; decide
  · intro a c b e hc
    have hlen : a.length < 90 := by
      have := congrArg List.length e
      simp at this
      omega
    have key : ∀ i, i < 90 → (b!"/Subtype").isPrefixOf (b!"5 0 obj\n<</Type/Annot/Subtype/Link/Rect[0 0 9 9]/A<</URI (http://x.y/z) /S/URI>>>>\nendobj".drop i) = true →
        (b!"5 0 obj\n<</Type/Annot/Subtype/Link/Rect[0 0 9 9]/A<</URI (http://x.y/z) /S/URI>>>>\nendobj".drop (i + 8)).head? = some 47 := by decide
    have h1 := key a.length hlen (by rw [e]; simp [List.isPrefixOf])
    rw [e] at h1
    have e2 : (a ++ b!"/Subtype" ++ c :: b).drop (a.length + 8) = c :: b := by
      rw [← List.drop_drop, List.append_assoc, List.drop_left]; rfl
    rw [e2] at h1
    simp at h1
    subst h1
    simp [White] at hc
  · rw [← noOcc_iff_infix, noOcc_iff_index]; decide
  · rw [← noOcc_iff_infix, noOcc_iff_index]; decide

/-- C94 (partial: documents without /URI): reading a page never crashes. -/
theorem C94_no_crash_partial {F : Type} (fl : XFloats F) (get : Int → Option Bytes) (unz : Bytes → Option Bytes) (num : Int) (s : Bytes)
    (h : ∀ n t, get n = some t → ¬ b!"/URI" <:+: t) : ∃ x, Extract.page fl get unz num s = .ok x :=
  Extract.page_no_panic fl get unz num s h

/-- C94 is violated: with white space between /Annots and the array, no annotation is found. -/
theorem C94_spaced_array_violated {F : Type} (fl : XFloats F) (get : Int → Option Bytes) (unz : Bytes → Option Bytes) (num : Int)
    (s w rest : Bytes) (hw0 : w ≠ []) (hw : ∀ c ∈ w, White c) (h : FirstKey s b!"/Annots" (w ++ b!"[" ++ rest))
    (x : XPage F) (hx : Extract.page fl get unz num s = .ok x) : x.annots = [] := by
  obtain ⟨-, -, -, -, -, -, -, h1⟩ := Extract.page_ok hx
  rw [Extract.annots_spaced fl get num hw0 hw h] at h1
  exact (Res.ok.inj h1).symm

example : FirstKey b!"4 0 obj\n<</Type/Page /Annots [5 0 R]>>\nendobj" b!"/Annots" (b!" " ++ b!"[" ++ b!"5 0 R]>>\nendobj") ∧
    seenAnnots [plainObj 5 b!"<</Subtype/Text>>", plainObj 4 b!"<</Type/Page /Annots [5 0 R]>>"] = some [] := by
  refine ⟨⟨b!"4 0 obj\n<</Type/Page ", ?_, by decide⟩, by decide +kernel⟩
  rw [← noOcc_iff_infix, noOcc_iff_index]; decide

/-- Reading the page crashes. -/
def crashes (objs : List (Int × Bytes)) : Bool := match seen objs with
  | .panic => true
  | _ => false

/-- C94 is violated: a target that begins with a space makes the whole extraction crash; so does a target of one character in an action
object. -/
theorem C94_uri_crash_violated :
    crashes [plainObj 5 b!"<</Subtype/Link/A<</URI ( http://x)>>>>", plainObj 4 b!"<</Type/Page/Annots[5 0 R]>>"] = true ∧
    crashes [plainObj 6 b!"<</URI x>>", plainObj 5 b!"<</Subtype/Link/URI 6 0 R>>", plainObj 4 b!"<</Type/Page/Annots[5 0 R]>>"] = true := by
  constructor <;> decide +kernel

/-- C94 is violated: the target of a link action written as ISO 32000-1, 12.6.4.7 shows it, with the type of the action first, is lost,
with or without spaces. -/
theorem C94_uri_action_violated :
    seenAnnots [plainObj 5 b!"<</Subtype /Link /A << /S /URI /URI (http://x) >> >>", plainObj 4 b!"<</Type/Page/Annots[5 0 R]>>"] = some [(5, b!"link", [], [])] ∧
    seenAnnots [plainObj 5 b!"<</Subtype/Link/A<</S/URI/URI(http://x)>>>>", plainObj 4 b!"<</Type/Page/Annots[5 0 R]>>"] = some [(5, b!"link", [], [])] := by
  constructor <;> decide +kernel

/-- C94 is violated: of a note with several words only the first is kept, with the parenthesis; without a space after the key it is lost. -/
theorem C94_contents_violated :
    (match seen [plainObj 5 b!"<</Subtype/Text/Contents (two words) /T(Author)>>", plainObj 4 b!"<</Type/Page/Annots[5 0 R]>>"] with
      | .ok x => some (x.annots.map fun a => (a.contents, a.title))
      | _ => none) = some [(b!"(two", [])] := by decide +kernel

/-- C94 is violated: the kind PolyLine is not among those known, and the page of an annotation is the number of the page's object. -/
theorem C94_polyline_violated :
    (match seen [plainObj 5 b!"<</Subtype/PolyLine>>", plainObj 4 b!"<</Type/Page/Annots[5 0 R]>>"] with
      | .ok x => some (x.annots.map fun a => (a.type, a.page))
      | _ => none) = some [(b!"PolyLine", 4)] := by decide +kernel

/-- C94 is violated: of a border [h v w] (ISO 32000-1, 12.5.2: horizontal and vertical radius, width) the first number is taken for the width,
with or without a space after the key. -/
theorem C94_border_violated :
    (match seen [plainObj 5 b!"<</Subtype/Link/Border [0 0 2] >>", plainObj 6 b!"<</Subtype/Link/Border[0 0 2]>>", plainObj 4 b!"<</Type/Page/Annots[5 0 R 6 0 R]>>"] with
      | .ok x => some (x.annots.map fun a => a.border.map fun b => b.1)
      | _ => none) = some [some 0, some 0] := by decide +kernel

/-! ### C95: images -/

/-- C95 (partial: the length is in the dictionary itself and right; the values are written with white space; see the violations): the
data of an image are exactly the bytes of its stream, decompressed if the filter is FlateDecode, and size, depth and colour space are those
in its dictionary. -/
theorem C95_image_data_partial (get : Int → Option Bytes) (unz : Bytes → Option Bytes) (num : Int) (s data : Bytes) (hg : get num = some s)
    (hl : s.length ≤ 9223372036854775807) (h0 : data ≠ []) (hs : StreamIs s data) :
    ∃ i, Extract.imageData get unz num = .ok i ∧
      (∀ r, -9223372036854775808 ≤ r → r ≤ 9223372036854775807 → IntIs s b!"/Width" r → i.width = r) ∧
      (∀ r, -9223372036854775808 ≤ r → r ≤ 9223372036854775807 → IntIs s b!"/Height" r → i.height = r) ∧
      (∀ r, -9223372036854775808 ≤ r → r ≤ 9223372036854775807 → IntIs s b!"/BitsPerComponent" r → i.bits = r) ∧
      (∀ name, name ≠ [] → (∀ c ∈ name, nameByte c = true) → NameIs s b!"/ColorSpace" (47 :: name) → i.colorSpace = 47 :: name) ∧
      (NameIs s b!"/Filter" b!"/DCTDecode" → i.data = data ∧ i.format = b!"jpeg") ∧
      (NameIs s b!"/Filter" b!"/JPXDecode" → i.data = data ∧ i.format = b!"jpeg2000") ∧
      (¬ b!"/Filter" <:+: s → i.data = data) ∧
      (NameIs s b!"/Filter" b!"/FlateDecode" → ∀ d, unz data = some d → i.data = d ∧ i.format = b!"png") := by
  refine ⟨⟨b!"/Im" ++ itoa num, Extract.intValue s b!"/Width", Extract.intValue s b!"/Height", Extract.formatOf (xDictValue s b!"/Filter"),
    xDictValue s b!"/ColorSpace", Extract.intValue s b!"/BitsPerComponent", xDictValue s b!"/Filter",
    if contains (xDictValue s b!"/Filter") b!"FlateDecode" then (unz data).getD data else data⟩, ?_, ?_, ?_, ?_, ?_, ?_, ?_, ?_, ?_⟩
  · unfold Extract.imageData
    rw [hg]
    simp only [Res.ofOption, Res.bind, Extract.imageStream_exact h0 hl hs]
    rw [if_neg h0]
  · intro r h1 h2 h; exact Extract.int_value (k := b!"Width") (by decide) h h1 h2
  · intro r h1 h2 h; exact Extract.int_value (k := b!"Height") (by decide) h h1 h2
  · intro r h1 h2 h; exact Extract.int_value (k := b!"BitsPerComponent") (by decide) h h1 h2
  · intro name hn0 hn h; exact Extract.xDict_name (k := b!"ColorSpace") (by decide) hn0 hn h
  · intro h
    have e : xDictValue s b!"/Filter" = b!"/DCTDecode" := Extract.xDict_name (k := b!"Filter") (name := b!"DCTDecode") (by decide) (by decide) (by decide) h
    simp only [e]
    exact ⟨rfl, rfl⟩
  · intro h
    have e : xDictValue s b!"/Filter" = b!"/JPXDecode" := Extract.xDict_name (k := b!"Filter") (name := b!"JPXDecode") (by decide) (by decide) (by decide) h
    simp only [e]
    exact ⟨rfl, rfl⟩
  · intro h
    simp only [Extract.xDict_missing h]
    rfl
  · intro h d hd
    have e : xDictValue s b!"/Filter" = b!"/FlateDecode" := Extract.xDict_name (k := b!"Filter") (name := b!"FlateDecode") (by decide) (by decide) (by decide) h
    simp only [e, hd]
    exact ⟨rfl, rfl⟩

/-- C95: every JPEG file that AddJPEGImage accepts is read back from the object it stored (written without encryption) exactly, with the
width, height and colour space that AddJPEGImage reported. -/
theorem C95_jpeg_roundtrip (w w' : Writer) (data : Bytes) (n : Int) (width height : Nat) (cs : Bytes)
    (h : Image.addJPEGImage w data = .ok (w', n, width, height, cs)) (env : Writer.Env) (hcr : env.crypt = none) :
    ∃ o, w'.objects.get n = some o ∧ ∀ (get : Int → Option Bytes) (unz : Bytes → Option Bytes) (t : Bytes),
      t ++ b!"\n" = (objText env w'.heap n o).1 → get n = some t → t.length ≤ 9223372036854775807 →
      Extract.imageData get unz n = .ok ⟨b!"/Im" ++ itoa n, width, height, b!"jpeg", cs, 8, b!"/DCTDecode", data⟩ := by
  unfold Image.addJPEGImage at h
  cases hh : Image.parseJPEGHeader data with
  | err => rw [hh] at h; simp [Res.bind] at h
  | panic => rw [hh] at h; simp [Res.bind] at h
  | ok r =>
    obtain ⟨a, b, c⟩ := r
    rw [hh] at h
    simp only [Res.bind, Res.ok.injEq, Prod.mk.injEq] at h
    obtain ⟨rfl, rfl, rfl, rfl, rfl⟩ := h
    refine ⟨_, by rw [Map.get_set, if_pos rfl], ?_⟩
    intro get unz t ht hg hl
    have et : t = Extract.jpegObject w.nextObjNum a b c data := by
      have e : (objText env (w.heap ++ [Image.jpegDict a b c data.length]) w.nextObjNum { content := none, stream := some data, dict := some w.heap.length }).1 =
          Extract.jpegObject w.nextObjNum a b c data ++ b!"\n" := by
        simp [objText, hcr, Extract.jpegObject, wrapped]
      simp only at ht
      rw [e] at ht
      exact List.append_cancel_right ht
    subst et
    exact Extract.jpeg_readback get unz hh hg hl

/-- A picture of 3 by 2 points, in a document. -/
def exJpegX : Bytes := [0xFF, 0xD8, 0xFF, 0xC0, 0, 17, 8, 0, 2, 0, 3, 3, 1, 2, 3, 0xFF, 0xD9]

/-- Its size and data, read back. -/
def jpegBack (data : Bytes) : Option (List Int × Bytes) :=
  match Image.addJPEGImage newWriter data with
  | .ok (w', n, _, _, _) => (w'.objects.get n).bind fun o =>
    match Extract.imageData (docGet [(n, (objText plainEnv w'.heap n o).1.dropLast)]) some n with
    | .ok i => some ([n, i.width, i.height], i.data)
    | _ => none
  | _ => none

example : jpegBack exJpegX = some ([1, 3, 2], exJpegX) := by decide +kernel

/-- Two pages with an image each, both called Im1 in their resources. -/
def exTwoImages : List (Int × Bytes) :=
  [plainObj 1 b!"<</Type/Catalog/Pages 2 0 R>>", plainObj 2 b!"<</Type/Pages/Kids[4 0 R 5 0 R]/Count 2>>",
   plainObj 4 b!"<</Type/Page/Parent 2 0 R/Resources<</XObject<</Im1 6 0 R>>>>>>", plainObj 5 b!"<</Type/Page/Parent 2 0 R/Resources<</XObject<</Im1 7 0 R>>>>>>",
   rawStream 6 b!"AAAA", rawStream 7 b!"BBBB"]

/-- The images found in a document. -/
def seenImages (objs : List (Int × Bytes)) : Option (List (Bytes × Bytes)) :=
  match extractPages xFix (docGet objs) some b!"1 0 R" 9, Extract.pageNumbers (docGet objs) 9 2 with
  | some (.ok ps), some ns => match Extract.allImages (docGet objs) some id id ns ps with
    | .ok is => some (is.map fun i => (i.id, i.data))
    | _ => none
  | _, _ => none

/-- C95 is violated: of two images with the same name on different pages only the first is extracted; its ID is not its name. -/
theorem C95_same_name_violated : seenImages exTwoImages = some [(b!"/Im6", b!"AAAA")] := by decide +kernel

/-- C95 is violated: a length in an object of its own is taken for the length itself: the data are cut after as many bytes as the number
of that object. -/
theorem C95_indirect_length_violated (get : Int → Option Bytes) (unz : Bytes → Option Bytes) (data : Bytes) (hd : 8 ≤ data.length)
    (hl : data.length ≤ 9223372036854700000)
    (hg : get 6 = some (b!"6 0 obj\n<</Subtype/Image/Filter /DCTDecode /Length 8 0 R>>\nstream\n" ++ data ++ b!"\nendstream\nendobj")) :
    ∃ i, Extract.imageData get unz 6 = .ok i ∧ i.data = data.take 8 := by
  have hst : StreamIs (b!"6 0 obj\n<</Subtype/Image/Filter /DCTDecode /Length 8 0 R>>\nstream\n" ++ data ++ b!"\nendstream\nendobj") (data.take 8) := by
    refine ⟨b!"6 0 obj\n<</Subtype/Image/Filter /DCTDecode ", b!" ", b!" 0 R>>\n", b!"\n", data.drop 8 ++ b!"\nendstream\nendobj", ?_, by decide, ?_, ?_, ?_, .inl rfl, ?_⟩
    · rw [← noOcc_iff_infix, noOcc_iff_index]; decide
    · intro c hc; simp at hc; subst hc; exact .inl rfl
    · intro c hc; simp at hc; subst hc; decide
    · rw [← noOcc_iff_infix, noOcc_iff_index, List.length_take, Nat.min_eq_left hd]; decide
    · rw [List.length_take, Nat.min_eq_left hd]
      have h8 : natDec 8 = b!"8" := by decide
      have h9 : data.take 8 ++ (data.drop 8 ++ b!"\nendstream\nendobj") = data ++ b!"\nendstream\nendobj" := by
        rw [← List.append_assoc, List.take_append_drop]
      simp only [h8, List.append_assoc, h9]
      rfl
  obtain ⟨i, h1, -, -, -, -, h2, -⟩ := C95_image_data_partial get unz 6 _ (data.take 8) hg (by simp; omega) (by
    intro e
    have := congrArg List.length e
    rw [List.length_take, List.length_nil] at this
    omega) hst
  refine ⟨i, h1, (h2 (.inl ⟨b!" ", b!" /Length 8 0 R>>\nstream\n" ++ data ++ b!"\nendstream\nendobj", by decide, ?_, ?_, b!"6 0 obj\n<</Subtype/Image", ?_, by simp⟩)).1⟩
  · intro c hc; simp at hc; subst hc; exact .inl rfl
  · intro c hc; simp at hc; subst hc; exact .inl (.inl rfl)
  · rw [← noOcc_iff_infix, noOcc_iff_index]; decide

/-- C95 is violated: a length of 2^63-1 makes the extraction crash. -/
theorem C95_length_crash_violated :
    Extract.imageData (docGet [plainObj 6 b!"<</Subtype/Image/Length 9223372036854775807>>\nstream\nAAAA\nendstream"]) some 6 = .panic := by decide +kernel

end Pdfer.Props
