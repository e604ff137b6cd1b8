import Verif.Proofs.Encoding

/-! Properties C51, C73, C74 and C75: from the codes of a font to text (content/extract/encoding.go, resources/font/pdf.go). -/

namespace Pdfer.Props

open Pdfer.Go Pdfer.Enc Pdfer.Spec Pdfer.Spec.Enc Pdfer.Font

/-! ### C51: decoding -/

/-- C51: the character of a code is unique. -/
theorem C51_char_unique (d : Decoder) (c u v : Int) (hu : CharOf d c u) (hv : CharOf d c v) : u = v := by
  have h : ∀ w, CharOf d c w → w = byteChar d c := by
    intro w hw
    unfold byteChar
    cases hw with
    | toUnicode h => rw [h]
    | differences h1 h2 => rw [h1, h2]
    | base h1 h2 h3 => rw [h1, h2, h3]
    | code h1 h2 h3 => rw [h1, h2, h3]
  rw [h u hu, h v hv]

/-- C51: for every font and every byte string: `Decode` gives one character per byte, the character of that byte. -/
theorem C51_decode_partial (d : Decoder) (data : Bytes) :
    ∃ us : List Int, us.length = data.length ∧ (∀ p ∈ data.zip us, CharOf d p.1.toNat p.2) ∧ decode d data = Spec.Enc.utf8 us := by
  refine ⟨data.map fun b => byteChar d b.toNat, by simp, ?_, ?_⟩
  · intro p hp
    rw [List.zip_map_right, List.mem_map] at hp
    obtain ⟨q, hq, rfl⟩ := hp
    have : q.1 = q.2 := by
      rw [List.zip_eq_zipWith, ← List.map_id data, ] at hq
      simp only [List.zipWith_map, List.mem_iff_getElem] at hq
      obtain ⟨i, hi, rfl⟩ := hq
      simp
    simp only [Prod.map, this, id]
    exact charOf_byteChar d _
  · rw [decode, ← flatMap_write, List.flatMap_map]

/-- A WinAnsi font with two Differences and one ToUnicode entry. -/
def sampleDecoder : Decoder :=
  parseToUnicode (parseDifferences (setBase .new b!"WinAnsiEncoding") b!"[65 /B /C]") b!"1 beginbfchar\n<66> <0041>\nendbfchar"

example : decode sampleDecoder [65, 66, 0x66, 0x80, 0xE9, 1] = b!"BCA€é\x01" := by decide +kernel
example : CharOf sampleDecoder 0x66 65 ∧ CharOf sampleDecoder 66 67 ∧ CharOf sampleDecoder 0x80 0x20AC ∧ CharOf sampleDecoder 1 1 :=
  ⟨.toUnicode (by decide +kernel), .differences (by decide +kernel) (by decide +kernel),
    .base (by decide +kernel) (by decide +kernel) (by decide +kernel), .code (by decide +kernel) (by decide +kernel) (by decide +kernel)⟩

/-- C51: the angle brackets around a hexadecimal string make no difference. -/
theorem C51_hex_brackets (d : Decoder) (t : Bytes) (h : ∀ c ∈ t, c ≠ 60 ∧ c ≠ 62) :
    decodeHex d t = decodeHex d (b!"<" ++ t ++ b!">") := by
  have e1 : (b!"<").isPrefixOf (b!"<" ++ t ++ b!">") = true := by simp [List.isPrefixOf]
  have e2 : (b!">").isSuffixOf ((b!"<" ++ t ++ b!">").drop 1) = true := by
    rw [List.isSuffixOf_iff_suffix]
    exact ⟨t, by simp⟩
  have e3 : ((b!"<" ++ t ++ b!">").drop 1).take (((b!"<" ++ t ++ b!">").drop 1).length - 1) = t := by simp
  have e4 : ¬ (b!"<").isPrefixOf t = true := by
    rw [List.isPrefixOf_iff_prefix]
    rintro ⟨u, rfl⟩
    exact (h 60 (by simp)).1 rfl
  have e5 : ¬ (b!">").isSuffixOf t = true := by
    rw [List.isSuffixOf_iff_suffix]
    rintro ⟨u, rfl⟩
    exact (h 62 (by simp)).2 rfl
  unfold decodeHex
  simp only [hexClean, e1, if_true, e2, e3, e4, e5, Bool.false_eq_true, if_false]

/-- C51: for every font whose ToUnicode codes are single bytes, a hexadecimal string with spaces and line ends anywhere is decoded
exactly as the literal string with the same bytes. -/
theorem C51_hex_partial (d : Decoder) (hd : ∀ c ∈ d.toU.keys, c ≤ 255) (t data : Bytes) (ht : hexBytes t = some data)
    (hw : ∀ c ∈ t, c ≠ 9 ∧ c ≠ 12 ∧ c ≠ 0) : decodeHex d (b!"<" ++ t ++ b!">") = decode d data := by
  have h2 : has2Byte d = false := by
    unfold has2Byte
    rw [List.any_eq_false]
    intro c hc
    simpa using hd c hc
  have hbr : ∀ c ∈ t, c ≠ 60 ∧ c ≠ 62 := by
    intro c hc
    have hh := pairUp_hex ht
    by_cases hwc : white c = true
    · constructor <;> (intro h; subst h; exact absurd hwc (by decide))
    · have := hh c (List.mem_filter.2 ⟨hc, by simpa using hwc⟩)
      constructor <;> (intro h; subst h; exact absurd this (by decide +kernel))
  have hws : ∀ c ∈ t, white c = true → c = 32 ∨ c = 10 ∨ c = 13 := by
    intro c hc hwc
    have := hw c hc
    simp only [white, Bool.or_eq_true, beq_iff_eq] at hwc
    rcases hwc with ((((h | h) | h) | h) | h) | h
    · exact absurd h this.2.2
    · exact absurd h this.1
    · exact .inr (.inl h)
    · exact absurd h this.2.1
    · exact .inr (.inr h)
    · exact .inl h
  have hp : pairUp (hexClean (b!"<" ++ t ++ b!">")) = some data := by
    rw [hexClean_eq hbr hws, pairUp_pad]
    exact ht
  have hlen : (hexClean (b!"<" ++ t ++ b!">")).length % 2 = 0 := by
    rw [hexClean_eq hbr hws]
    split
    · rw [List.length_append]; simp only [List.length_singleton]; omega
    · omega
  rw [decodeHex, h2]
  simp only [Bool.false_and, Bool.false_eq_true, if_false]
  have e : (fun b : UInt8 => writeRuneI (lookupCode d b.toNat)) = fun b => writeRuneI (byteChar d b.toNat) := by
    funext b
    rw [lookup_byte]
  rw [chunks2_decode d _ _ hlen hp, decode, e]

example : hexBytes b!"41 42\n6 " = some b!"AB`" ∧ (∀ c ∈ sampleDecoder.toU.keys, c ≤ 255) ∧
    decodeHex sampleDecoder b!"<41 42\n6 >" = b!"BC`" := by decide +kernel

/-- C51: for every font with a two-byte ToUnicode code, a hexadecimal string of two-byte codes gives one character per code, the
character of that code. -/
theorem C51_hex2_partial (d : Decoder) (h2 : ∃ c ∈ d.toU.keys, 255 < c) (hb : ∀ c : Int, 255 < c → d.base.get c = none)
    (t data : Bytes) (ht : hexBytes t = some data) (hw : ∀ c ∈ t, c ≠ 9 ∧ c ≠ 12 ∧ c ≠ 0)
    (h4 : (t.filter fun c => !white c).length % 4 = 0) :
    ∃ us : List Int, us.length = (codes2 data).length ∧ (∀ p ∈ (codes2 data).zip us, CharOf d (p.1 : Nat) p.2) ∧
      decodeHex d (b!"<" ++ t ++ b!">") = Spec.Enc.utf8 us := by
  have h2 : has2Byte d = true := by
    unfold has2Byte
    rw [List.any_eq_true]
    obtain ⟨c, hc, h⟩ := h2
    exact ⟨c, hc, by simpa using h⟩
  have hbr : ∀ c ∈ t, c ≠ 60 ∧ c ≠ 62 := by
    intro c hc
    have hh := pairUp_hex ht
    by_cases hwc : white c = true
    · constructor <;> (intro h; subst h; exact absurd hwc (by decide))
    · have := hh c (List.mem_filter.2 ⟨hc, by simpa using hwc⟩)
      constructor <;> (intro h; subst h; exact absurd this (by decide +kernel))
  have hws : ∀ c ∈ t, white c = true → c = 32 ∨ c = 10 ∨ c = 13 := by
    intro c hc hwc
    have := hw c hc
    simp only [white, Bool.or_eq_true, beq_iff_eq] at hwc
    rcases hwc with ((((h | h) | h) | h) | h) | h
    · exact absurd h this.2.2
    · exact absurd h this.1
    · exact .inr (.inl h)
    · exact absurd h this.2.1
    · exact .inr (.inr h)
    · exact .inl h
  have hcl : hexClean (b!"<" ++ t ++ b!">") = t.filter fun c => !white c := by
    rw [hexClean_eq hbr hws, if_neg (by omega)]
  refine ⟨(codes2 data).map fun (c : Nat) => lookupCode d c, by simp, ?_, ?_⟩
  · intro p hp
    rw [List.zip_map_right, List.mem_map] at hp
    obtain ⟨q, hq, rfl⟩ := hp
    have he : q.1 = q.2 := by
      rw [List.zip_eq_zipWith, ← List.map_id (codes2 data)] at hq
      simp only [List.zipWith_map, List.mem_iff_getElem] at hq
      obtain ⟨i, hi, rfl⟩ := hq
      simp
    have hlt : ∀ (x : Bytes), ∀ c ∈ codes2 x, c < 65536 := by
      intro x
      fun_induction codes2 x with
      | case1 a b r ih =>
        intro c hc
        rcases List.mem_cons.1 hc with rfl | hc
        · have := a.toNat_lt; have := b.toNat_lt; omega
        · exact ih c hc
      | case2 => simp
    simp only [Prod.map, he, id]
    have := hlt data q.2 (by have := List.of_mem_zip hq; exact this.2)
    exact charOf_lookup d hb _ (by omega)
  · rw [decodeHex, h2, hcl]
    by_cases h0 : (t.filter fun c => !white c) = []
    · rw [h0]
      unfold hexBytes at ht
      rw [h0] at ht
      simp only [pairUp, Option.some.injEq] at ht
      subst ht
      rfl
    · have : 4 ≤ (t.filter fun c => !white c).length := by
        have := List.length_pos_iff.2 h0
        omega
      simp only [Bool.true_and, this, decide_true, if_true]
      rw [chunks4_decode d ((t.filter fun c => !white c).length / 4) _ data (by omega) ht, ← flatMap_write, List.flatMap_map]

/-- A font with two-byte codes. -/
def sampleDecoder2 : Decoder := parseToUnicode .new b!"2 beginbfchar\n<0102> <0041>\n<0003> <0042>\nendbfchar"

example : (∃ c ∈ sampleDecoder2.toU.keys, 255 < c) ∧ hexBytes b!"0102 0003\n0043" = some [1, 2, 0, 3, 0, 0x43] ∧
    decodeHex sampleDecoder2 b!"<0102 0003\n0043>" = b!"ABC" := by decide +kernel

/-- C51: the hypothesis about the base encoding holds for every font the library builds. -/
theorem C51_base_bytes (get : Int → Option Bytes) (unz : Bytes → Option Bytes) (font : Bytes) (c : Int) (hc : 255 < c) :
    (fontDecoder get unz font).base.get c = none := by
  have ht : ∀ t ∈ [winAnsi, macRoman, standard, macExpert], t.get c = none := by
    have hk : ∀ t ∈ [winAnsi, macRoman, standard, macExpert], ∀ k ∈ t.keys, k < 256 := by decide +kernel
    have hg : ∀ m : Map Int Int, (∀ k ∈ m.keys, k < 256) → m.get c = none := by
      intro m hm
      cases h : m.get c with
      | none => rfl
      | some v =>
        have : c ∈ m.keys := by
          unfold Map.get at h
          unfold Map.keys
          cases hf : m.find? (fun e => decide (e.1 = c)) with
          | none => rw [hf] at h; simp at h
          | some p =>
            have h1 := List.mem_of_find?_eq_some hf
            have h2 := List.find?_some hf
            simp only [decide_eq_true_eq] at h2
            exact List.mem_map.2 ⟨p, h1, h2⟩
        have := hm c this
        omega
    exact fun t h => hg t (hk t h)
  have hs : ∀ d : Decoder, d.base.get c = none → ∀ n, (setBase d n).base.get c = none := by
    intro d hd n
    simp only [setBase]
    repeat' split
    all_goals first | exact hd | exact ht winAnsi (by simp) | exact ht macRoman (by simp) | exact ht standard (by simp) |
      exact ht macExpert (by simp)
  have ha : ∀ d : Decoder, d.base.get c = none → ∀ s, (applyDiffs d s).base.get c = none := by
    intro d hd s
    unfold applyDiffs
    split
    · exact hd
    · exact hd
  have h0 : (Decoder.new).base.get c = none := rfl
  have hb : (baseDecoder get font).base.get c = none := by
    unfold baseDecoder
    simp only
    split
    · split
      · exact hs _ h0 _
      · split
        · exact h0
        · apply ha
          split
          · exact hs _ h0 _
          · exact h0
    · split
      · exact hs _ h0 _
      · exact h0
  unfold fontDecoder
  simp only
  split
  · exact ha _ hb _
  · split
    · exact ha _ hb _
    · split
      · exact ha _ hb _
      · exact ha _ hb _

/-- C51 does not hold in full: a font with two-byte codes shows "AB" with the bytes 01 02 00 03; from a hexadecimal string they are
read as "AB", from a literal string as four characters. -/
theorem C51_literal_two_bytes_violated : decodeHex sampleDecoder2 b!"<01020003>" = b!"AB" ∧
    decode sampleDecoder2 [1, 2, 0, 3] = [1, 2, 0, 66] := by decide +kernel

/-- C51 does not hold in full: when no code of a two-byte font is above 255, each of its codes is read as two characters. -/
theorem C51_small_codes_violated :
    ∃ d : Decoder, d = parseToUnicode .new b!"2 beginbfchar\n<0001> <0041>\n<0002> <0042>\nendbfchar" ∧
      decodeHex d b!"<00010002>" = [0, 65, 0, 66] := ⟨_, rfl, by decide +kernel⟩

/-- C51 does not hold in full: white space other than spaces and line ends in a hexadecimal string shifts the digits. -/
theorem C51_tab_violated : hexBytes b!"41\t4243" = some b!"ABC" ∧
    decodeHex (setBase .new b!"WinAnsiEncoding") b!"<41\t4243>" = b!"A$0" := by decide +kernel

/-! ### C74: ToUnicode maps are read -/

/-- C74: for every ToUnicode map text with any number of sections of single codes and of ranges (runs, and arrays of one or two
characters), codes of any width, characters of the basic plane, any white space between the parts: the font gets exactly the
characters of the map. -/
theorem C74_map_partial (st : Style) (hst : st.ok) (pre post : Bytes) (hpre : ¬ Occurs b!"beginbf" pre) (hpost : ¬ Occurs b!"beginbf" post)
    (ss : List Sect) (hs : ∀ s ∈ ss, s.ok) (d : Decoder) (hd : d.toU = [])
    (hf : ∀ s ∈ ss, ∀ s' ∈ ss, ∀ c u u', s.maps c u → s'.maps c u' → u = u') (k v : Int) :
    ((parseToUnicode d (cmapText st pre ss post)).toU.get k = some v ↔ ∃ c u : Nat, k = c ∧ v = u ∧ ∃ s ∈ ss, s.maps c u) :=
  parse_cmap st hst pre post (XRefStream.noOcc_of_not_occurs hpre) (XRefStream.noOcc_of_not_occurs hpost) ss hs d hd hf k v

/-- A map with all kinds of entries. -/
def sampleSections : List Sect := [.chars [(1, 65), (0x102, 0x20AC)], .ranges [.run 5 9 97, .list 20 [0x3B1], .list 30 [66, 68]]]

example : cmapText ⟨4, b!" ", b!"\r\n"⟩ b!"begincmap" sampleSections b!"endcmap" =
    b!"begincmap\r\n2 beginbfchar\r\n<0001> <0041>\r\n<0102> <20AC>\r\nendbfchar\r\n3 beginbfrange\r\n<0005> <0009> <0061>\r\n<0014> <0014> [<03B1>]\r\n<001E> <001F> [<0042> <0044>]\r\nendbfrange\r\nendcmap" ∧
    (parseToUnicode .new (cmapText ⟨4, b!" ", b!"\r\n"⟩ b!"begincmap" sampleSections b!"endcmap")).toU.get 31 = some 68 := by
  decide +kernel
example : Style.ok ⟨4, b!" ", b!"\r\n"⟩ := by refine ⟨?_, ?_, ?_⟩ <;> decide +kernel
example : ∀ s ∈ sampleSections, s.ok := by
  intro s hs
  simp only [sampleSections, List.mem_cons, List.not_mem_nil, or_false] at hs
  rcases hs with rfl | rfl
  · intro p hp
    simp only [List.mem_cons, List.not_mem_nil, or_false] at hp
    rcases hp with rfl | rfl <;> decide
  · intro e he
    simp only [List.mem_cons, List.not_mem_nil, or_false] at he
    rcases he with rfl | rfl | rfl
    · simp [Entry.ok]
    · simp [Entry.ok]
    · simp [Entry.ok]

/-- C74 does not hold in full: an array of three characters also maps codes that are not in the map. -/
theorem C74_array_violated : (parseToUnicode .new b!"1 beginbfrange\n<01> <03> [<0041> <0043> <0045>]\nendbfrange\n").toU.get 66 = some 70 := by
  decide +kernel

/-- C74 does not hold in full: a character outside the basic plane (two UTF-16 units) becomes its first unit, which is no
character. -/
theorem C74_surrogates_violated :
    decode (parseToUnicode .new b!"1 beginbfchar\n<01> <D83DDE00>\nendbfchar\n") [1] = b!"\uFFFD" := by decide +kernel

/-- C74 does not hold in full: of a ligature only the first character is kept. -/
theorem C74_ligature_violated : decode (parseToUnicode .new b!"1 beginbfchar\n<01> <00660069>\nendbfchar\n") [1] = b!"f" := by
  decide +kernel

/-- C74 does not hold in full: when a code occurs in a range and later in a section of single codes, the range wins. -/
theorem C74_order_violated :
    decode (parseToUnicode .new b!"1 beginbfrange\n<01> <02> <0041>\nendbfrange\n1 beginbfchar\n<01> <0061>\nendbfchar\n") [1] = b!"A" := by
  decide +kernel

/-! ### C75: Differences arrays -/

/-- C75: for every Differences array whose elements are separated by spaces, with every number and name and each code named once:
the font gets exactly the characters of the named glyphs, each at its code. -/
theorem C75_differences_partial (ds : List Diff) (d : Decoder) (hd : d.diff = [])
    (hn : ∀ n, .num n ∈ ds → n ≤ 9223372036854775807) (hs : ∀ s, .name s ∈ ds → ∀ c ∈ s, isSpace c = false)
    (hf : ∀ k s s', (k, s) ∈ Diff.named 0 ds → (k, s') ∈ Diff.named 0 ds → s = s') (k v : Int) :
    (parseDifferences d (b!"[" ++ spaced (ds.map Diff.text) ++ b!"]")).diff.get k = some v ↔
      ∃ (c : Nat) (s : Bytes), k = c ∧ (c, s) ∈ Diff.named 0 ds ∧ v = glyphUnicode s ∧ v ≠ 0 :=
  parse_differences ds d hd hn hs hf k v

example : Diff.named 0 [.num 65, .name b!"B", .name b!"Euro", .num 100, .name b!"uni0041"] =
      [(65, b!"B"), (66, b!"Euro"), (100, b!"uni0041")] ∧
    b!"[" ++ spaced ([Diff.num 65, .name b!"B", .name b!"Euro", .num 100, .name b!"uni0041"].map Diff.text) ++ b!"]" =
      b!"[65 /B /Euro 100 /uni0041]" ∧
    (parseDifferences .new b!"[65 /B /Euro 100 /uni0041]").diff = [(100, 65), (66, 0x20AC), (65, 66)] := by decide +kernel

/-- C75: glyph names made of a code (`uni` and four digits, or `u` and four or five digits) stand for that character, unless they
are in the list of names. -/
theorem C75_glyph_code (u : Nat) (hu : u < 65536) :
    (glyphNames.get (b!"uni" ++ hexPad 4 u) = none → glyphUnicode (b!"uni" ++ hexPad 4 u) = u) := by
  intro h
  have hl : (hexPad 4 u).length = 4 := hexPad_length (by omega)
  have hp : (b!"uni").isPrefixOf (b!"uni" ++ hexPad 4 u) = true := by simp [List.isPrefixOf]
  have hd : (b!"uni" ++ hexPad 4 u).drop 3 = hexPad 4 u := rfl
  unfold glyphUnicode
  rw [h]
  simp only
  rw [if_pos ⟨hp, by simp [hl]⟩, hd, parseHex_pad 4 u (by omega)]

example : glyphUnicode b!"uni20AC" = 0x20AC ∧ glyphNames.get b!"uni20AC" = none ∧ glyphUnicode b!"eacute" = 0xE9 := by decide +kernel

/-- C75 does not hold in full: names without white space between them, as most producers write them, are lost. -/
theorem C75_no_spaces_violated : (parseDifferences .new b!"[65/B/C]").diff = [] ∧
    decode (parseDifferences (setBase .new b!"WinAnsiEncoding") b!"[65/B/C]") b!"AB" = b!"AB" := by decide +kernel

/-- C75 does not hold in full: the base encoding of an encoding dictionary inside the font object is ignored. -/
theorem C75_inline_base_violated :
    (fontDecoder (fun _ => none) some b!"<</Type /Font /Subtype /Type3 /Encoding <</BaseEncoding /WinAnsiEncoding /Differences [65 /B]>>>>").base = [] := by
  decide +kernel

/-- C75 does not hold in full: glyph names with six digits are not known. -/
theorem C75_six_digits_violated : glyphUnicode b!"u10FFFD" = 0 := by decide +kernel

/-! ### C73: the ToUnicode map of an embedded font -/

/-- C73: for every font whose character map `gm` has no two characters with the same glyph and only characters of the basic
plane, every list of glyphs, and every order in which Go visits the map: reading the ToUnicode map that the library writes gives
every glyph of the list its character. -/
theorem C73_round_trip_partial (visit : Map Int Nat → List (Int × Nat)) (gm : Map Int Nat)
    (hv : ∀ c g, (c, g) ∈ visit gm ↔ gm.get c = some g) (hinj : ∀ c c' g, gm.get c = some g → gm.get c' = some g → c = c')
    (hbmp : ∀ c g, gm.get c = some g → 0 ≤ c ∧ c < 65536) (glyphs : List Nat) (hb : ∀ g ∈ glyphs, g ≤ 65535)
    (d : Decoder) (hd : d.toU = []) (c : Int) (g : Nat) (hg : g ∈ glyphs) (hc : gm.get c = some g) :
    CharOf (parseToUnicode d (toUnicodeData visit gm glyphs)) g c := by
  refine .toUnicode ((read_back visit gm glyphs (List.ne_nil_of_mem hg) (fun e he => hbmp e.1 e.2 ((hv e.1 e.2).1 he))
    (fun g hg => by have := hb g hg; omega) d hd g c).2 ⟨g, hg, rfl, ?_⟩)
  have hm : ∀ u, u ∈ unicodesOf (visit gm) g ↔ u = c := by
    intro u
    unfold unicodesOf
    simp only [List.mem_map, List.mem_filter, decide_eq_true_eq]
    constructor
    · rintro ⟨⟨a, b⟩, ⟨h1, h2⟩, rfl⟩
      simp only at h2
      subst h2
      exact hinj _ _ _ ((hv a b).1 h1) hc
    · rintro rfl
      exact ⟨(u, g), ⟨(hv u g).2 hc, rfl⟩, rfl⟩
  unfold written
  cases hu : unicodesOf (visit gm) g with
  | nil => rw [hu] at hm; simpa using (hm c).2 rfl
  | cons a l =>
    have : a = c := (hm a).1 (by rw [hu]; simp)
    have h0 := (hbmp c g hc).1
    simp only [List.head?_cons, Option.getD_some, this]
    omega

/-- C73: a glyph of the list without a character is read as a space. -/
theorem C73_no_character (visit : Map Int Nat → List (Int × Nat)) (gm : Map Int Nat)
    (hv : ∀ c g, (c, g) ∈ visit gm ↔ gm.get c = some g) (hbmp : ∀ c g, gm.get c = some g → 0 ≤ c ∧ c < 65536)
    (glyphs : List Nat) (hb : ∀ g ∈ glyphs, g ≤ 65535) (d : Decoder) (hd : d.toU = []) (g : Nat) (hg : g ∈ glyphs)
    (hno : ∀ c, gm.get c ≠ some g) : CharOf (parseToUnicode d (toUnicodeData visit gm glyphs)) g 32 := by
  refine .toUnicode ((read_back visit gm glyphs (List.ne_nil_of_mem hg) (fun e he => hbmp e.1 e.2 ((hv e.1 e.2).1 he))
    (fun g hg => by have := hb g hg; omega) d hd g 32).2 ⟨g, hg, rfl, ?_⟩)
  have : unicodesOf (visit gm) g = [] := by
    rw [List.eq_nil_iff_forall_not_mem]
    intro u hu
    unfold unicodesOf at hu
    simp only [List.mem_map, List.mem_filter, decide_eq_true_eq] at hu
    obtain ⟨⟨a, b⟩, ⟨h1, h2⟩, rfl⟩ := hu
    simp only at h2
    subst h2
    exact hno a ((hv a b).1 h1)
  unfold written
  rw [this]
  rfl

example : (parseToUnicode .new (toUnicodeData id [(65, 3), (0x20AC, 1)] [0, 1, 3])).toU = [(3, 65), (1, 0x20AC), (0, 32)] := by
  decide +kernel

/-- C73 does not hold in full: a character outside the basic plane is written with five digits instead of two UTF-16 units, and the
library itself reads another character. -/
theorem C73_astral_violated :
    (parseToUnicode .new (toUnicodeData id [(0x1F600, 5)] [0, 5])).toU.get 5 = some 0x1F60 := by decide +kernel

/-- C73 does not hold in full: when two characters share a glyph (space and no-break space in most fonts), the written map depends on
the order in which Go visits its map: two runs can write different files. -/
theorem C73_order_violated : ∃ v1 v2 : Map Int Nat → List (Int × Nat), (∀ m, (v1 m).Perm m) ∧ (∀ m, (v2 m).Perm m) ∧
    (parseToUnicode .new (toUnicodeData v1 [(32, 3), (160, 3)] [0, 3])).toU.get 3 = some 32 ∧
    (parseToUnicode .new (toUnicodeData v2 [(32, 3), (160, 3)] [0, 3])).toU.get 3 = some 160 :=
  ⟨id, List.reverse, fun m => .refl m, fun m => m.reverse_perm, by decide +kernel, by decide +kernel⟩

/-- C73 does not hold in full: the map gives the characters of glyph numbers, but text is shown with the bytes of its characters,
so the text "A" of a font whose glyph 65 is the letter B is read back as "B". -/
theorem C73_shown_text_violated :
    decode (parseToUnicode .new (toUnicodeData id [(65, 36), (66, 65)] [0, 36, 65])) b!"A" = b!"B" := by decide +kernel

end Pdfer.Props
