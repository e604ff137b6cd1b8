import Verif.Proofs.Embed
import Verif.Props.Encoding
import Verif.Props.Font
import Verif.Props.Builder

/-! C96, C97, and more of C53, C72 and C73: embedding a font (resources/font/pdf.go `ToPDFObjects`). -/

namespace Pdfer.Props

open Pdfer.Go Pdfer.Font Pdfer.Embed Pdfer.Spec.Font Pdfer.Spec.Manipulate Pdfer.Spec.PageDict

/-! ### C96: the objects of an embedded font -/

/-- The numbers of the objects of an embedded font. -/
def embeddedNums (o : FontObjects) : List Int := [o.fontFile, o.descriptor, o.toUnicode, o.fontDict]

/-- C96 (partial: an identification that is not set by the caller to something else than hexadecimal digits; see also the violations):
for every history of calls on a writer and every font that is embedded without an error: four new objects, with different numbers that
were not in use; nothing else changes; the font file object holds the data of the font compressed; the descriptor ends with the
reference to the font file; the font is a TrueType font that refers to the descriptor and to the ToUnicode map. -/
theorem C96_linked_partial (env : FEnv) (ops : List Writer.Op) (hord : ∀ l, (env.order l).Perm l) (f : FontFace) (hid : hexId f.fontID) (w' : Writer.Writer) (o : FontObjects)
    (h : toPDFObjects env (Writer.run env.wenv ops) f = some (.ok (w', o))) :
    let w := Writer.run env.wenv ops
    (embeddedNums o).Nodup ∧ (∀ n ∈ embeddedNums o, 0 < n ∧ w.objects.get n = none) ∧
    (∀ n, n ∉ embeddedNums o → w'.objects.get n = w.objects.get n) ∧ (∀ i, i < w.heap.length → w'.heap[i]? = w.heap[i]?) ∧
    w'.rootRef = w.rootRef ∧ w'.infoRef = w.infoRef ∧ w'.encryptRef = w.encryptRef ∧
    Writer.getObject w' o.fontFile = some (env.wenv.z f.data) ∧
    (∃ d pre, Writer.getObject w' o.descriptor = some d ∧ d = b!"<<\n/Type /FontDescriptor\n" ++ pre ++ b!"/FontFile2 " ++ refText o.fontFile.toNat ++ b!"\n>>") ∧
    (∃ d, Writer.getObject w' o.fontDict = some d ∧ b!"<<\n/Type /Font\n" <+: d ∧ NameIs d b!"/Subtype" b!"/TrueType" ∧
      RefIs d b!"/FontDescriptor" o.descriptor.toNat ∧ RefIs d b!"/ToUnicode" o.toUnicode.toNat) := by
  intro w
  obtain ⟨t, gm, glyphs, widths, he⟩ := embedded h
  obtain ⟨n1, n2, n3, n4, n5⟩ := embedded_nums he
  have ho := embedded_objects he
  have hh := embedded_heap he
  have hinv : Writer.Inv w := Writer.inv_run env.wenv ops
  have hpos := hinv.next_pos
  have hw : (Writer.run env.wenv ops) = w := rfl
  rw [hw] at n1 n2 n3 n4 n5 ho hh
  have hge := id_hex (env := env) (t := t) hid
  have hrefs : w'.rootRef = w.rootRef ∧ w'.infoRef = w.infoRef ∧ w'.encryptRef = w.encryptRef := by
    have e1 : w' = (addObjects env w f t glyphs widths (toUnicodeData env.visit gm glyphs)).1 := by rw [← he.out]
    rw [e1]
    exact ⟨rfl, rfl, rfl⟩
  have hdi := ho o.fontDict
  rw [if_pos rfl] at hdi
  have hde := ho o.descriptor
  rw [if_neg (by omega), if_neg (by omega), if_pos rfl] at hde
  have hfi := ho o.fontFile
  rw [if_neg (by omega), if_neg (by omega), if_neg (by omega), if_pos rfl] at hfi
  have hwn : widths ≠ [] := by
    obtain ⟨hm, _, h2⟩ := he.widthsEq
    have := (widthList_spec hm t.unitsPerEm glyphs widths h2).1
    intro hn
    rw [hn, he.glyphsEq] at this
    have h0 : (glyphList env.order gm f.subset) = [] := List.length_eq_zero_iff.1 this.symm
    exact absurd h0 (glyphs_ne hord gm f.subset)
  refine ⟨?_, ?_, ?_, ?_, hrefs.1, hrefs.2.1, hrefs.2.2, ?_, ?_, ?_⟩
  · rw [embeddedNums, n1, n2, n3, n4]
    simp only [List.nodup_cons, List.mem_cons, List.not_mem_nil, or_false, not_or, not_false_eq_true, List.nodup_nil, and_true]
    omega
  · intro n hn
    rw [embeddedNums, n1, n2, n3, n4] at hn
    simp only [List.mem_cons, List.not_mem_nil, or_false] at hn
    refine ⟨by omega, ?_⟩
    cases hg : w.objects.get n with
    | none => rfl
    | some x =>
      have := hinv.lt_next n ((Map.get_isSome_iff _ _).1 (by rw [hg]; rfl))
      omega
  · intro n hn
    rw [embeddedNums] at hn
    simp only [List.mem_cons, List.not_mem_nil, or_false, not_or] at hn
    rw [ho n, if_neg hn.2.2.2, if_neg hn.2.2.1, if_neg hn.2.1, if_neg hn.1]
  · intro i hi
    rw [hh, List.append_assoc, List.getElem?_append_left hi]
  · unfold Writer.getObject
    rw [hfi]
  · obtain ⟨pre, hpre⟩ := descriptor_end env t (n := o.fontFile) (by omega)
    refine ⟨descriptorText env t o.fontFile, pre, ?_, hpre⟩
    unfold Writer.getObject
    rw [hde]
  · refine ⟨_, by unfold Writer.getObject; rw [hdi], ?_, (fontDict_widths hge _ _ hwn).1, ?_⟩
    · rw [fontDict_parts]; unfold dictHead; exact ⟨_, by simp only [List.append_assoc]; rfl⟩
    · have := fontDict_refs (name := t.fontName) hge (desc := o.descriptor) (tou := o.toUnicode) (by omega) (by omega) glyphs widths (pre := []) (by simp) []
      simpa using this

/-- Parameters for the examples: a hash of eight bytes, maps visited in order. -/
def embedEnv : FEnv := { wenv := plainEnv, fuel := 9, order := id, visit := id, md5 := fun _ => [0x0A, 0x1B, 0xFF, 0, 1, 2, 3, 4], angle := fun _ => b!"0.0000" }

/-- A history before the embedding: a catalog. -/
def embedOps0 : List Writer.Op := [.addObject (some b!"<</Type/Catalog>>"), .setRoot 1]

/-- The sample font with the characters C and A. -/
def embedFace : FontFace := ⟨sampleFont, [67, 65], []⟩

/-- What a successful embedding made. -/
def embeddedText (env : FEnv) (w : Writer.Writer) (f : FontFace) (num : FontObjects → Int) : Option Bytes :=
  match toPDFObjects env w f with
  | some (.ok (w', o)) => Writer.getObject w' (num o)
  | _ => none

/-- The written text of an object of an embedded font. -/
def embeddedWritten (env : FEnv) (w : Writer.Writer) (f : FontFace) (num : FontObjects → Int) : Option Bytes :=
  match toPDFObjects env w f with
  | some (.ok (w', o)) => (w'.objects.get (num o)).map fun x => (Writer.objText env.wenv w'.heap (num o) x).1
  | _ => none

example : hexId embedFace.fontID ∧ (toPDFObjects embedEnv (Writer.run plainEnv embedOps0) embedFace matches some (.ok _)) ∧
    embeddedText embedEnv (Writer.run plainEnv embedOps0) embedFace (·.fontDict) =
      some b!"<<\n/Type /Font\n/Subtype /TrueType\n/BaseFont /0a1bff000102+\n/FirstChar 0\n/LastChar 2\n/Widths [500 600 620]\n/FontDescriptor 3 0 R\n/ToUnicode 4 0 R\n>>" ∧
    embeddedText embedEnv (Writer.run plainEnv embedOps0) embedFace (·.descriptor) =
      some b!"<<\n/Type /FontDescriptor\n/FontName /\n/FontFamily ()\n/Flags 32\n/FontBBox [-100 -100 1100 1100]\n/ItalicAngle 0.0000\n/Ascent 0\n/Descent 0\n/CapHeight 0\n/StemV 80\n/FontFile2 2 0 R\n>>" := by
  refine ⟨by intro c hc; simp [embedFace] at hc, ?_, ?_, ?_⟩ <;> decide +kernel

/-- C96 does not hold in full: the font file of an embedded font is written with two /Length entries, and the first gives the length
of the data before compression: for every font and every compression that changes the length, the entry that readers find first is
wrong. -/
theorem C96_length_violated (env : FEnv) (hcr : env.wenv.crypt = none) (w w' : Writer.Writer) (f : FontFace) (o : FontObjects)
    (h : toPDFObjects env w f = some (.ok (w', o))) :
    ∃ x, w'.objects.get o.fontFile = some x ∧ (Writer.objText env.wenv w'.heap o.fontFile x).1 =
      itoa o.fontFile ++ b!" 0 obj\n<</Length " ++ itoa f.data.length ++ b!" /Length1 " ++ itoa f.data.length ++ b!" /Filter /FlateDecode /Length " ++
        itoa (env.wenv.z f.data).length ++ b!" >>\nstream\n" ++ env.wenv.z f.data ++ b!"\nendstream\nendobj\n" := by
  obtain ⟨t, gm, glyphs, widths, he⟩ := embedded h
  obtain ⟨n1, n2, n3, n4, n5⟩ := embedded_nums he
  have hfi := embedded_objects he o.fontFile
  rw [if_neg (by omega), if_neg (by omega), if_neg (by omega), if_pos rfl] at hfi
  refine ⟨_, hfi, ?_⟩
  have hd : w'.heap.getD w.heap.length [] = ((fileDict f.data).set b!"Filter" (.str b!"/FlateDecode")).set b!"Length" (.int (env.wenv.z f.data).length) := by
    rw [embedded_heap he]
    simp
  simp only [Writer.objText, hcr, Option.getD_some, hd, fileDict_text, List.append_assoc, List.cons_append, List.nil_append]

/-- C96 does not hold in full: the dictionary of every ToUnicode map is not valid PDF: the value of /CIDSystemInfo is the text of a Go
map. -/
theorem C96_cidsysteminfo_violated (env : FEnv) (hcr : env.wenv.crypt = none) (w w' : Writer.Writer) (f : FontFace) (o : FontObjects)
    (h : toPDFObjects env w f = some (.ok (w', o))) :
    ∃ x, w'.objects.get o.toUnicode = some x ∧
      itoa o.toUnicode ++ b!" 0 obj\n<</CIDSystemInfo map[/Ordering:(UCS) /Registry:(Adobe) /Supplement:0] /CMapName /Adobe-Identity-UCS /Type /CMap /Length " <+:
        (Writer.objText env.wenv w'.heap o.toUnicode x).1 := by
  obtain ⟨t, gm, glyphs, widths, he⟩ := embedded h
  obtain ⟨n1, n2, n3, n4, n5⟩ := embedded_nums he
  have hfi := embedded_objects he o.toUnicode
  rw [if_neg (by omega), if_pos rfl] at hfi
  refine ⟨_, hfi, ?_⟩
  have hd : w'.heap.getD (w.heap.length + 1) [] = cmapDict.set b!"Length" (.int (toUnicodeData env.visit gm glyphs).length) := by
    rw [embedded_heap he]
    simp
  simp only [Writer.objText, hcr, Option.getD_some, hd, cmapDict_text, cmapDictHead]
  exact ⟨itoa (toUnicodeData env.visit gm glyphs).length ++ b!" >>\nstream\n" ++ toUnicodeData env.visit gm glyphs ++ b!"\nendstream\nendobj\n", by
    simp only [List.append_assoc, List.cons_append, List.nil_append]⟩

/-- C96 does not hold in full: the name of a font subset begins with six capital letters and a plus sign (ISO 32000-1, 9.6.4); here it
begins with twelve hexadecimal digits, and the descriptor has another name than the font. -/
theorem C96_names_violated (env : FEnv) (w w' : Writer.Writer) (f : FontFace) (o : FontObjects) (hf : f.fontID = []) (hm : ∀ b, 6 ≤ (env.md5 b).length)
    (h : toPDFObjects env w f = some (.ok (w', o))) :
    o.subsetPrefix.length = 13 ∧ (∀ c ∈ o.subsetPrefix, ¬ (65 ≤ c ∧ c ≤ 90)) ∧ ∃ name d e,
      Writer.getObject w' o.fontDict = some d ∧ b!"<<\n/Type /Font\n/Subtype /TrueType\n/BaseFont /" ++ o.subsetPrefix ++ name ++ b!"\n" <+: d ∧
      Writer.getObject w' o.descriptor = some e ∧ b!"<<\n/Type /FontDescriptor\n/FontName /" ++ name ++ b!"\n" <+: e := by
  obtain ⟨t, gm, glyphs, widths, he⟩ := embedded h
  obtain ⟨n1, n2, n3, n4, n5⟩ := embedded_nums he
  have ho := embedded_objects he
  have hdi := ho o.fontDict
  rw [if_pos rfl] at hdi
  have hde := ho o.descriptor
  rw [if_neg (by omega), if_neg (by omega), if_pos rfl] at hde
  have hp : o.subsetPrefix = fontIdOf env f t ++ b!"+" := by
    have e2 : o = (addObjects env w f t glyphs widths (toUnicodeData env.visit gm glyphs)).2 := by rw [← he.out]
    rw [e2]; rfl
  have hx : hexId (fontIdOf env f t) := id_hex (by rw [hf]; intro c hc; simp at hc)
  have hl : ∀ l : Bytes, (l.flatMap hexLow).length = 2 * l.length := by
    intro l
    induction l with
    | nil => rfl
    | cons a l ih => rw [List.flatMap_cons, List.length_append, ih]; simp [hexLow]; omega
  refine ⟨?_, ?_, Strings.escapeName t.fontName, _, _, by unfold Writer.getObject; rw [hdi], ?_, by unfold Writer.getObject; rw [hde], ?_⟩
  · rw [hp, List.length_append]
    unfold fontIdOf
    rw [if_pos hf, hl, List.length_take]
    have := hm t.fontName
    simp only [List.length_singleton]
    omega
  · rw [hp]
    intro c hc
    rcases List.mem_append.1 hc with hc | hc
    · have := hx c hc
      revert this
      exact forall_byte (p := fun c => (48 ≤ c ∧ c ≤ 57) ∨ (97 ≤ c ∧ c ≤ 102) → ¬ (65 ≤ c ∧ c ≤ 90)) (by decide +kernel) c
    · simp at hc; subst hc; decide
  · have hesc : ∀ id : Bytes, hexId id → ∀ name, Strings.escapeName (id ++ b!"+" ++ name) = id ++ b!"+" ++ Strings.escapeName name := by
      intro id
      induction id with
      | nil => intro _ name; exact escapeName_ascii (.inr (.inr rfl)) name
      | cons c id ih =>
        intro hi name
        have hc := hi c (by simp)
        have := escapeName_ascii (c := c) (by rcases hc with h | h; exact .inl h; exact .inr (.inl h)) (id ++ b!"+" ++ name)
        rw [ih (fun x hx => hi x (by simp [hx]))] at this
        exact this
    rw [fontDict_parts, hesc _ hx, hp]
    unfold dictHead
    have := prefix_dict (fontIdOf env f t ++ b!"+") (Strings.escapeName t.fontName)
    simp only [List.append_assoc] at this ⊢
    exact this _
  · unfold descriptorText
    simp only [List.append_assoc]
    exact prefix_desc _ _

example : (∀ b, 6 ≤ (embedEnv.md5 b).length) ∧ embedFace.fontID = [] := ⟨fun _ => (by decide : 6 ≤ [0x0A, 0x1B, 0xFF, 0, 1, 2, 3, (4 : UInt8)].length), rfl⟩

/-- C96 does not hold in full: the font file is the whole font, whatever characters were asked for. -/
theorem C96_subset_violated (env : FEnv) (w w1 w2 : Writer.Writer) (data : Bytes) (s1 s2 : List Int) (id1 id2 : Bytes) (o1 o2 : FontObjects)
    (h1 : toPDFObjects env w ⟨data, s1, id1⟩ = some (.ok (w1, o1))) (h2 : toPDFObjects env w ⟨data, s2, id2⟩ = some (.ok (w2, o2))) :
    Writer.getObject w1 o1.fontFile = Writer.getObject w2 o2.fontFile := by
  have key : ∀ s i w' o, toPDFObjects env w ⟨data, s, i⟩ = some (.ok (w', o)) → Writer.getObject w' o.fontFile = some (env.wenv.z data) := by
    intro s i w' o h
    obtain ⟨t, gm, glyphs, widths, he⟩ := embedded h
    obtain ⟨n1, n2, n3, n4, n5⟩ := embedded_nums he
    have hfi := embedded_objects he o.fontFile
    rw [if_neg (by omega), if_neg (by omega), if_neg (by omega), if_pos rfl] at hfi
    unfold Writer.getObject
    rw [hfi]
  rw [key _ _ _ _ h1, key _ _ _ _ h2]

/-! ### C97: the widths of an embedded font -/

/-- C97 (partial: see the violations): for every font that is embedded without an error: the codes of the font dictionary run from 0 to
the number of glyphs less one, and the array has one width per glyph, for glyph 0 and the glyphs of the mapped characters of the subset in
increasing order: the width at the start of the glyph's own entry of the hmtx table, or the units per em if the table is too short. -/
theorem C97_widths_partial (env : FEnv) (hord : ∀ l, (env.order l).Perm l) (w w' : Writer.Writer) (f : FontFace) (hid : hexId f.fontID)
    (o : FontObjects) (h : toPDFObjects env w f = some (.ok (w', o))) :
    ∃ (t : TTF) (gm : Map Int Nat) (hmtx : Slice) (d : Bytes) (glyphs widths : List Nat), parseTTF (exact f.data) = .ok t ∧ glyphMap env.fuel (exact f.data) = some (.ok gm) ∧
      t.tables.get b!"hmtx" = some hmtx ∧ Writer.getObject w' o.fontDict = some d ∧
      glyphs.Pairwise (· < ·) ∧ (∀ g, g ∈ glyphs ↔ g = 0 ∨ ∃ r ∈ f.subset, gm.get r = some g) ∧
      IntIs d b!"/FirstChar" 0 ∧ IntIs d b!"/LastChar" ((glyphs.length : Int) - 1) ∧ ArrayIs d b!"/Widths" (widths.map natDec) ∧
      widths.length = glyphs.length ∧ ∀ p ∈ glyphs.zip widths, p.1 < 16384 →
        p.2 = if 4 * p.1 + 2 ≤ hmtx.len then Spec.Font.u16 hmtx.data (4 * p.1) else t.unitsPerEm := by
  obtain ⟨t, gm, glyphs, widths, he⟩ := embedded h
  have hdi := embedded_objects he o.fontDict
  rw [if_pos rfl] at hdi
  obtain ⟨hmtx, hm1, hm2⟩ := he.widthsEq
  obtain ⟨hl, hws⟩ := widthList_spec hmtx t.unitsPerEm glyphs widths hm2
  have hg := glyphList_spec env.order hord gm f.subset
  rw [← he.glyphsEq] at hg
  have hne := glyphs_ne hord gm f.subset
  rw [← he.glyphsEq] at hne
  have hwn : widths ≠ [] := by
    intro hn
    rw [hn] at hl
    exact hne (List.length_eq_zero_iff.1 hl.symm)
  have hfd := fontDict_widths (name := t.fontName) (id_hex (env := env) (t := t) hid) o.descriptor o.toUnicode (glyphs := glyphs) hwn
  refine ⟨t, gm, hmtx, _, glyphs, widths, he.ttf, he.gmap, hm1, by unfold Writer.getObject; rw [hdi], hg.1, hg.2, hfd.2.1, hfd.2.2.1, hfd.2.2.2, hl, ?_⟩
  intro p hp h16
  have hwf := tables_wf he.ttf _ _ hm1
  have := hws p hp
  unfold width at this
  split at this
  · rename_i hle
    rw [if_pos (by omega)]
    have hb := be16_ok hwf (i := 4 * p.1) (by omega)
    rw [Slice.be16] at hb
    rw [Nat.mod_eq_of_lt (by omega), Nat.mod_eq_of_lt (by omega), Nat.mul_comm p.1 4, hb] at this
    exact (Res.ok.inj this).symm
  · rename_i hle
    rw [if_neg (by omega)]
    exact (Res.ok.inj this).symm

/-- C97 does not hold in full: text is shown with the bytes of its characters (C73), but the codes with a width end at the number of
characters asked for: in every font embedded with at most 64 characters, no letter has a width. -/
theorem C97_letters_violated (env : FEnv) (hord : ∀ l, (env.order l).Perm l) (w w' : Writer.Writer) (f : FontFace) (hid : hexId f.fontID)
    (hs : f.subset.length ≤ 64) (o : FontObjects) (h : toPDFObjects env w f = some (.ok (w', o))) :
    ∃ d last, Writer.getObject w' o.fontDict = some d ∧ IntIs d b!"/LastChar" last ∧ last < 65 := by
  obtain ⟨t, gm, glyphs, widths, he⟩ := embedded h
  have hdi := embedded_objects he o.fontDict
  rw [if_pos rfl] at hdi
  obtain ⟨hmtx, hm1, hm2⟩ := he.widthsEq
  obtain ⟨hl, _⟩ := widthList_spec hmtx t.unitsPerEm glyphs widths hm2
  have hlen := glyphList_length hord gm f.subset
  rw [← he.glyphsEq] at hlen
  have hwn : widths ≠ [] := by
    intro hn
    rw [hn] at hl
    simp at hl
    omega
  have hfd := fontDict_widths (name := t.fontName) (id_hex (env := env) (t := t) hid) o.descriptor o.toUnicode (glyphs := glyphs) hwn
  exact ⟨_, _, by unfold Writer.getObject; rw [hdi], hfd.2.2.1, by omega⟩

/-- The sample font with 2048 units per em. -/
def wideFont : Bytes := fontFile ((b!"head", List.replicate 18 0 ++ w16 2048 ++ List.replicate 34 0) :: (baseTables 6).drop 1 ++
  [(b!"cmap", cmapOf 3 10 (format12 [(65, 65, 1), (66, 68, 2)])), (b!"hmtx", w16 1024 ++ w16 0 ++ w16 2048 ++ w16 7 ++ w16 610 ++ w16 0 ++ w16 512 ++ w16 0)])

/-- C97 does not hold in full: widths are given in thousandths of the em, but the numbers of the font file are written as they are: the
letter A of this font is as wide as the em, 1000 thousandths, and is written with 2048. -/
theorem C97_scale_violated : (parseTTF (exact wideFont) matches .ok { unitsPerEm := 2048, .. }) ∧
    embeddedText embedEnv (Writer.run plainEnv []) ⟨wideFont, [65], []⟩ (·.fontDict) =
      some b!"<<\n/Type /Font\n/Subtype /TrueType\n/BaseFont /0a1bff000102+\n/FirstChar 0\n/LastChar 1\n/Widths [1024 2048]\n/FontDescriptor 2 0 R\n/ToUnicode 3 0 R\n>>" := by
  decide +kernel

/-- C97 does not hold in full: the widths are counted through, but the codes of the ToUnicode map are glyph numbers: here the code of the
letter C is 3, and the codes with a width end at 2. -/
theorem C97_codes_violated :
    embeddedText embedEnv (Writer.run plainEnv embedOps0) embedFace (·.fontDict) =
      some b!"<<\n/Type /Font\n/Subtype /TrueType\n/BaseFont /0a1bff000102+\n/FirstChar 0\n/LastChar 2\n/Widths [500 600 620]\n/FontDescriptor 3 0 R\n/ToUnicode 4 0 R\n>>" ∧
    ∃ s, embeddedText embedEnv (Writer.run plainEnv embedOps0) embedFace (·.toUnicode) = some s ∧ contains s b!"\n<03> <0043>\n" = true := by
  refine ⟨by decide +kernel, ?_⟩
  have h : (embeddedText embedEnv (Writer.run plainEnv embedOps0) embedFace (·.toUnicode)).any (fun s => contains s b!"\n<03> <0043>\n") = true := by decide +kernel
  rw [Option.any_eq_true] at h
  exact h

/-! ### C73: the text of an embedded font in a written document -/

/-- C73 (partial: no two characters with the same glyph, characters of the basic plane, glyph numbers that fit 16 bits; no encryption,
table mode, the file fits the reader's windows; the font's name does not contain the keyword `endobj`; see the violations): after any
history of calls, embed a font and write the file; open it and look up the font: for every character of the subset, its glyph number is
read as that character. -/
theorem C73_document_partial (env : FEnv) (hord : ∀ l, (env.order l).Perm l) (hcr : env.wenv.crypt = none)
    (ops : List Writer.Op) (f : FontFace) (hid : hexId f.fontID) (w' : Writer.Writer) (o : FontObjects)
    (h : toPDFObjects env (Writer.run env.wenv ops) f = some (.ok (w', o)))
    (hfit : Spec.FileFits env.wenv w') (hdel : ∀ d, Writer.getObject w' o.fontDict = some d → Spec.Delimitable d)
    (gm : Map Int Nat) (hgm : glyphMap env.fuel (exact f.data) = some (.ok gm))
    (hv : ∀ c g, (c, g) ∈ env.visit gm ↔ gm.get c = some g)
    (hinj : ∀ c c' g, gm.get c = some g → gm.get c' = some g → c = c') (hbmp : ∀ c g, gm.get c = some g → 0 ≤ c ∧ c < 65536)
    (hsm : ∀ c g, gm.get c = some g → g ≤ 65535)
    (renv : Incremental.Env) (henc : renv.handleEncryption (Writer.write env.wenv w').1 = some none) :
    ∃ pdf d, Incremental.openPdf renv (Writer.write env.wenv w').1 = .ok pdf ∧ Incremental.getObject renv pdf o.fontDict = .ok d ∧
      ∀ c ∈ f.subset, ∀ g, gm.get c = some g →
        Spec.Enc.CharOf (Enc.fontDecoder (Outline.pdfGet renv pdf) renv.unz d) g c := by
  obtain ⟨t, gm', glyphs, widths, he⟩ := embedded h
  have hgg : gm' = gm := by
    have := he.gmap
    rw [hgm] at this
    simpa using this.symm
  subst hgg
  obtain ⟨n1, n2, n3, n4, n5⟩ := embedded_nums he
  have hpos := (Writer.inv_run env.wenv ops).next_pos
  have hw' : w' = Writer.run env.wenv (ops ++ embedOps (Writer.run env.wenv ops) env f t glyphs widths (toUnicodeData env.visit gm' glyphs)) := by
    rw [← addObjects_run, ← he.out]
  have hinv : Writer.Inv w' := by rw [hw']; exact Writer.inv_run _ _
  have hrefs := Incremental.refOrNil_run env.wenv (ops ++ embedOps (Writer.run env.wenv ops) env f t glyphs widths (toUnicodeData env.visit gm' glyphs))
  rw [← hw'] at hrefs
  obtain ⟨pdf, g1, _, _, _, g5⟩ := Incremental.open_writer_dict env.wenv w' hinv hrefs hfit renv henc
  have hdi := embedded_objects he o.fontDict
  rw [if_pos rfl] at hdi
  have hto := embedded_objects he o.toUnicode
  rw [if_neg (by omega), if_pos rfl] at hto
  have hd0 : w'.heap.getD ((Writer.run env.wenv ops).heap.length + 1) [] = cmapDict.set b!"Length" (.int (toUnicodeData env.visit gm' glyphs).length) := by
    rw [embedded_heap he]
    simp
  obtain ⟨c1, k1, -, k3⟩ := g5 o.fontDict _ (by omega) hdi
  have e1 : c1 = fontDict t.fontName (fontIdOf env f t ++ b!"+") o.descriptor o.toUnicode glyphs widths := k1
  have hgo := k3 (by rw [e1]; apply hdel; unfold Writer.getObject; rw [hdi])
  rw [e1] at hgo
  obtain ⟨c2, -, m2, m3⟩ := g5 o.toUnicode _ (by omega) hto
  have e2 : c2 = cmapBody (toUnicodeData env.visit gm' glyphs) := by
    rw [m2 hcr _ rfl]
    simp only [Option.getD_some]
    rw [hd0, cmapDict_text]
    rfl
  have hgt := m3 (by rw [e2]; exact cmap_delimitable _ _ _)
  rw [e2] at hgt
  refine ⟨pdf, _, g1, hgo, ?_⟩
  have hmax := hfit.next
  obtain ⟨d, hd, hdec⟩ := embedded_decoder (Outline.pdfGet renv pdf) renv.unz (name := t.fontName) (id_hex (env := env) (t := t) hid) (num := o.fontDict)
    (desc := o.descriptor) (tou := o.toUnicode) (by omega) (by omega) (by omega) glyphs widths env.visit gm' (by unfold Outline.pdfGet; rw [hgt])
  rw [hdec]
  intro c hc g hg
  have hgl := glyphList_spec env.order hord gm' f.subset
  rw [← he.glyphsEq] at hgl
  have hmem : g ∈ glyphs := (hgl.2 g).2 (.inr ⟨c, hc, hg⟩)
  have hb : ∀ g ∈ glyphs, g ≤ 65535 := by
    intro g hgm
    rcases (hgl.2 g).1 hgm with rfl | ⟨r, _, hr⟩
    · omega
    · exact hsm r g hr
  refine .toUnicode ((Enc.read_back_tail b!"\n" (by rw [noOcc_iff_index]; decide +kernel) env.visit gm' glyphs (List.ne_nil_of_mem hmem)
    (fun e he => hbmp e.1 e.2 ((hv e.1 e.2).1 he)) (fun g hg => by have := hb g hg; omega) d hd g c).2 ⟨g, hmem, rfl, ?_⟩)
  exact (written_unique hv hinj hg (hbmp c g hg).1).symm

/-- The writer after embedding the wide font in the example, and the objects. -/
def exEmbedded : Writer.Writer × FontObjects :=
  match toPDFObjects embedEnv (Writer.run plainEnv embedOps0) ⟨wideFont, [65, 67], []⟩ with
  | some (.ok r) => r
  | _ => (Writer.newWriter, ⟨0, 0, 0, 0, [], []⟩)

theorem exEmbedded_fits : Spec.FileFits plainEnv exEmbedded.1 where
  fair := plainEnv_fair
  table := by decide +kernel
  plain := by decide +kernel
  size := by decide +kernel
  next := by decide +kernel
  once := by
    generalize hf : (Writer.write plainEnv exEmbedded.1).1 = F
    have key : ∀ i, i < F.length → F.length ≤ i + 106 → (b!"startxref").isPrefixOf (F.drop i) = true → i + 21 = F.length := by
      subst hf; decide +kernel
    intro i j hi1 hj1 hi hj
    have lt : ∀ i, Spec.OccursAt b!"startxref" F i → i < F.length := by
      intro i hi
      rw [Incremental.occursAt_iff (by decide)] at hi
      apply Classical.byContradiction; intro hn
      rw [List.drop_of_length_le (by omega)] at hi
      simp at hi
    have h1 := key i (lt i hi) hi1 (by rw [Incremental.occursAt_iff (by decide)] at hi; exact List.isPrefixOf_iff_prefix.2 hi)
    have h2 := key j (lt j hj) hj1 (by rw [Incremental.occursAt_iff (by decide)] at hj; exact List.isPrefixOf_iff_prefix.2 hj)
    omega
  window := by decide +kernel

example : ∃ pdf d, Incremental.openPdf readEnv (Writer.write plainEnv exEmbedded.1).1 = .ok pdf ∧
    Incremental.getObject readEnv pdf 5 = .ok d ∧ Spec.Enc.CharOf (Enc.fontDecoder (Outline.pdfGet readEnv pdf) readEnv.unz d) 3 67 := by
  have hg : glyphMap embedEnv.fuel (exact wideFont) = some (.ok [(68, 4), (67, 3), (66, 2), (65, 1)]) := by decide +kernel
  have hemb : toPDFObjects embedEnv (Writer.run embedEnv.wenv embedOps0) ⟨wideFont, [65, 67], []⟩ = some (.ok (exEmbedded.1, exEmbedded.2)) := by
    show toPDFObjects embedEnv (Writer.run plainEnv embedOps0) ⟨wideFont, [65, 67], []⟩ = some (.ok (exEmbedded.1, exEmbedded.2))
    have hok : (toPDFObjects embedEnv (Writer.run plainEnv embedOps0) ⟨wideFont, [65, 67], []⟩ matches some (.ok _)) = true := by decide +kernel
    unfold exEmbedded
    split at hok
    · rename_i r hr
      rw [hr]
    · simp at hok
  have hget : ∀ (c : Int) (g : Nat), Map.get [(68, 4), (67, 3), (66, 2), (65, 1)] c = some g ↔ (c, g) ∈ [((68 : Int), 4), (67, 3), (66, 2), (65, 1)] := by
    intro c g
    simp only [Map.get, List.find?_cons, List.find?_nil, List.mem_cons, List.not_mem_nil, or_false, Prod.mk.injEq]
    by_cases h1 : 68 = c
    · subst h1; simp; omega
    · by_cases h2 : 67 = c
      · subst h2; simp; omega
      · by_cases h3 : 66 = c
        · subst h3; simp; omega
        · by_cases h4 : 65 = c
          · subst h4; simp; omega
          · simp [h1, h2, h3, h4]; omega
  have hcase : ∀ (c : Int) (g : Nat), Map.get [(68, 4), (67, 3), (66, 2), (65, 1)] c = some g → c = g + 64 ∧ g ≤ 4 := by
    intro c g h
    rw [hget] at h
    simp only [List.mem_cons, List.not_mem_nil, or_false, Prod.mk.injEq] at h
    omega
  obtain ⟨pdf, d, h1, h2, h3⟩ := C73_document_partial embedEnv (fun _ => .refl _) rfl embedOps0 ⟨wideFont, [65, 67], []⟩
    (by intro c hc; simp at hc) exEmbedded.1 exEmbedded.2 hemb exEmbedded_fits
    (by
      intro d hd
      have : d = b!"<<\n/Type /Font\n/Subtype /TrueType\n/BaseFont /0a1bff000102+\n/FirstChar 0\n/LastChar 2\n/Widths [1024 2048 512]\n/FontDescriptor 3 0 R\n/ToUnicode 4 0 R\n>>" := by
        have : Writer.getObject exEmbedded.1 exEmbedded.2.fontDict = some b!"<<\n/Type /Font\n/Subtype /TrueType\n/BaseFont /0a1bff000102+\n/FirstChar 0\n/LastChar 2\n/Widths [1024 2048 512]\n/FontDescriptor 3 0 R\n/ToUnicode 4 0 R\n>>" := by
          decide +kernel
        rw [this] at hd
        exact (Option.some.inj hd).symm
      subst this
      refine ⟨?_, by decide +kernel, .inl ?_⟩ <;> (rw [Incremental.absent_iff (by decide), noOcc_iff_index]; decide +kernel))
    _ hg (fun c g => (hget c g).symm) (fun c c' g h h' => by have := hcase _ _ h; have := hcase _ _ h'; omega)
    (fun c g h => by have := hcase _ _ h; omega) (fun c g h => by have := hcase _ _ h; omega) readEnv rfl
  have e5 : exEmbedded.2.fontDict = 5 := by decide +kernel
  rw [e5] at h2
  exact ⟨pdf, d, h1, h2, h3 67 (by simp) 3 (by decide)⟩

/-! ### C53, C72: widths -/

/-- C53: the width of a glyph without an entry in the hmtx table is the units per em. -/
theorem C53_width_missing (hmtx : Slice) (upem gid : Nat) (h : hmtx.len < 4 * gid + 2) : width hmtx upem gid = .ok upem := by
  unfold width
  rw [if_neg (by omega)]

/-- C72: reading widths never crashes, for every font file that `ParseTTF` accepts and every list of glyphs. -/
theorem C72_widths (data : Slice) (t : TTF) (h : parseTTF data = .ok t) (hmtx : Slice) (hg : t.tables.get b!"hmtx" = some hmtx) (gs : List Nat) :
    ∃ ws, widthList hmtx t.unitsPerEm gs = .ok ws := by
  have hw := tables_wf h _ _ hg
  induction gs with
  | nil => exact ⟨[], rfl⟩
  | cons g gs ih =>
    obtain ⟨w, hw⟩ := width_ok hw t.unitsPerEm (g := g)
    obtain ⟨ws, hws⟩ := ih
    exact ⟨w :: ws, by rw [widthList, hw, hws]; rfl⟩

end Pdfer.Props
