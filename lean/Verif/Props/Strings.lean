import Verif.Proofs.InfoDict

/-! Properties C18–C22: strings and names written and read (core/write/content.go, core/write/metadata.go,
content/extract/metadata.go, forms/acroform, resources/font). -/

namespace Pdfer.Props

open Pdfer.Go Pdfer.Spec Pdfer.Strings

/-! ### C18 -/

/-- C18: for every text, a PDF reader that reads the literal string written for it gets the UTF-8 bytes of the
text, and the string ends exactly at the closing parenthesis the writer put there. -/
theorem C18_escape_faithful (t : List Char) (rest : Bytes) :
    readLiteral (b!"(" ++ escapePDFString (utf8 t) ++ b!")" ++ rest) = some (utf8 t, rest) := by
  apply reads_literal
  rw [escapePDFString_utf8]
  have := reads_flatMap escByte (fun c => [c]) (utf8 t) (fun c _ => reads_escByte c)
  simpa using this

/-- C18 for metadata: the same for every byte string. -/
theorem C18_metadata_escape_faithful (s rest : Bytes) :
    readLiteral (b!"(" ++ escapeMeta s ++ b!")" ++ rest) = some (s, rest) := by
  apply reads_literal
  rw [escapeMeta_eq]
  have := reads_flatMap escByte (fun c => [c]) s (fun c _ => reads_escByte c)
  simpa using this

/-- On texts the two escaping functions of the library agree. -/
theorem C18_escapers_agree (t : List Char) : escapePDFString (utf8 t) = escapeMeta (utf8 t) := by
  rw [escapePDFString_utf8, escapeMeta_eq]

example : readLiteral (b!"(" ++ escapePDFString (utf8 "a(b\\)\n€".toList) ++ b!") Tj") =
    some (utf8 "a(b\\)\n€".toList, b!" Tj") := by decide +kernel

/-- C18 is violated for bytes that are not UTF-8 (e.g. Latin-1 text): they are replaced by U+FFFD. -/
theorem C18_not_utf8_violated :
    readLiteral (b!"(" ++ escapePDFString [0xE9] ++ b!")") = some ([0xEF, 0xBF, 0xBD], []) := by decide +kernel

/-! ### C19 -/

/-- C19: exactly what the library's own unescaping makes of what it escaped: a backslash followed by n, r or t
in the text becomes a backslash followed by a control character, everything else is unchanged. -/
theorem C19_unescape_escape (s : Bytes) : unescapePDFString (escapeMeta s) = mangled s := by
  rw [escapeMeta_eq, unescape_escape]

/-- C19: the text survives exactly when it contains no backslash followed by n, r or t. -/
theorem C19_survives_iff (s : Bytes) :
    unescapePDFString (escapeMeta s) = s ↔ ∀ u x v, s = u ++ 92 :: x :: v → x ≠ 110 ∧ x ≠ 114 ∧ x ≠ 116 := by
  rw [C19_unescape_escape]
  exact mangled_eq_iff s

/-- C19 (partial: no backslash followed by n, r or t), for text written with `escapePDFString`. -/
theorem C19_text_survives_partial (t : List Char)
    (h : ∀ u x v, utf8 t = u ++ 92 :: x :: v → x ≠ 110 ∧ x ≠ 114 ∧ x ≠ 116) :
    unescapePDFString (escapePDFString (utf8 t)) = utf8 t := by
  rw [C18_escapers_agree, C19_survives_iff]
  exact h

example : unescapePDFString (escapePDFString (utf8 "(a)\\\n€\\x".toList)) = utf8 "(a)\\\n€\\x".toList := by decide +kernel

/-- C19 is violated: the Windows path `C:\new` comes back with a line feed in it. -/
theorem C19_backslash_violated :
    unescapePDFString (escapeMeta b!"C:\\new") = b!"C:\\\new" ∧ b!"C:\\\new" ≠ b!"C:\\new" := by decide +kernel

/-- C19 is also violated for strings of other producers: octal escapes are not decoded. -/
theorem C19_octal_violated :
    readLiteral b!"(\\101)" = some (b!"A", []) ∧ unescapePDFString b!"\\101" = b!"\\101" := by decide +kernel

/-! ### C20 -/

/-- The text fields of the metadata with their keys. -/
def textFields (m : Metadata) : List (Bytes × Bytes) :=
  [(b!"/Title", m.title), (b!"/Author", m.author), (b!"/Subject", m.subject), (b!"/Keywords", m.keywords),
   (b!"/Creator", m.creator), (b!"/Producer", m.producer)]

/-- A custom key of regular characters, with or without the slash, that is not the key of a standard field. -/
def CustomKey (k : Bytes) : Prop :=
  (∀ c ∈ (if k.head? = some 47 then k.tail else k), c ≠ 47 ∧ c ≠ 40 ∧ reSpace c = false) ∧
  ∀ s ∈ [b!"/Title", b!"/Author", b!"/Subject", b!"/Keywords", b!"/Creator", b!"/Producer"], k ≠ s ∧ 47 :: k ≠ s

private theorem slashKey_good {k : Bytes} (h : CustomKey k) :
    GoodKey (Writer.slashKey k) ∧
    ∀ s ∈ [b!"/Title", b!"/Author", b!"/Subject", b!"/Keywords", b!"/Creator", b!"/Producer"], Writer.slashKey k ≠ s := by
  unfold Writer.slashKey
  obtain ⟨h1, h2⟩ := h
  cases k with
  | nil =>
    refine ⟨⟨[], by simp, by simp⟩, fun s hs => ?_⟩
    have := (h2 s hs).2
    simpa using this
  | cons c k =>
    by_cases hc : c = 47
    · subst hc
      rw [if_pos (by simp)]
      refine ⟨⟨k, rfl, by simpa using h1⟩, fun s hs => (h2 s hs).1⟩
    · rw [if_neg (by simp; exact fun e => hc e.symm)]
      refine ⟨⟨c :: k, rfl, ?_⟩, fun s hs => (h2 s hs).2⟩
      rw [if_neg (by simpa using hc)] at h1
      exact h1

/-- C20 (partial): whatever the other fields, the dates and the custom fields contain, a non-empty text field
written by `SetMetadata` is read back unchanged by the library, provided its value has no ')', no backslash
followed by n, r or t, does not begin with '/' and does not end with " R". -/
theorem C20_metadata_readback_partial (norm : Bytes → Bytes) (now : Bytes) (m : Metadata) (key v : Bytes)
    (hkv : (key, v) ∈ textFields m) (hv : v ≠ []) (hc : ∀ e ∈ m.custom, CustomKey e.1)
    (h1 : (41 : UInt8) ∉ v) (h2 : ∀ u x w, v = u ++ 92 :: x :: w → x ≠ 110 ∧ x ≠ 114 ∧ x ≠ 116)
    (h3 : v.head? ≠ some 47) (h4 : ¬ b!" R" <:+ v) :
    readInfo key (infoText norm now m) = some v := by
  have hmem : key ∈ [b!"/Title", b!"/Author", b!"/Subject", b!"/Keywords", b!"/Creator", b!"/Producer"] := by
    have := List.mem_map_of_mem (f := Prod.fst) hkv
    simpa [textFields] using this
  have hkey : SearchKey key ∧ GoodKey key := by
    have : ∀ k ∈ [b!"/Title", b!"/Author", b!"/Subject", b!"/Keywords", b!"/Creator", b!"/Producer"],
        k.head? = some 47 ∧ (92 : UInt8) ∉ k ∧ (32 : UInt8) ∉ k ∧ (41 : UInt8) ∉ k ∧
        k.tail.all (fun c => c ≠ 47 ∧ c ≠ 40 ∧ reSpace c = false) = true := by decide
    obtain ⟨a, b, c, d, e⟩ := this key hmem
    refine ⟨⟨?_, b, c, d⟩, goodKey_lit key ⟨a, e⟩⟩
    cases key with
    | nil => simp at a
    | cons x k => simp at a; exact ⟨k, by rw [a]⟩
  have hgd := goodDict_info norm now m (fun e he => (slashKey_good (hc e he)).1)
  have hget := get_info norm now m key v hkv hv (fun e he => (slashKey_good (hc e he)).2 key hmem)
  unfold infoText
  rw [readInfo_dict hkey.1 hkey.2 _ hgd.nodup hgd.good v hget h1 (escape_not_raw v h3 h4)]
  rw [(C19_survives_iff v).2 h2]

/-- A document with hostile other fields. -/
def meta1 : Metadata :=
  { title := b!"Report (draft", author := b!"/Title (x", subject := b!"1 0 R", custom := [(b!"Foo", b!"/Title(y")] }
example : readInfo b!"/Title" (infoText id b!"D:20240101" meta1) = some b!"Report (draft" := by decide +kernel

/-- C20 is violated: a value beginning with '/' or ending in " R" is written as a name or a reference and not
read back at all; a value with a parenthesis is cut there. -/
theorem C20_values_violated :
    readInfo b!"/Title" (infoText id b!"D:20240101" { title := b!"/etc/passwd" }) = none ∧
    readInfo b!"/Title" (infoText id b!"D:20240101" { title := b!"Vitamin R" }) = none ∧
    readInfo b!"/Title" (infoText id b!"D:20240101" { title := b!"f(x) = 1" }) = some b!"f(x\\" := by decide +kernel

/-- C20: the text written for a value ending in " R" is not even a string for other readers: the value is
written without parentheses. -/
theorem C20_injection_violated :
    infoText id b!"D:1" { title := b!"x >> R" } = b!"<</ModDate (D:1) /Title x >> R >>" := by decide +kernel

/-! ### C21 -/

/-- C21 (partial: characters up to U+00FF): a reader of the string written for a form-field value gets its
Latin-1 bytes, and the string ends where the writer ended it. -/
theorem C21_field_value_partial (t : List Char) (h : ∀ c ∈ t, c.toNat < 256) (rest : Bytes) :
    readLiteral (b!"(" ++ escapeFieldValue (utf8 t) ++ b!")" ++ rest) = some (latin1 t, rest) := by
  apply reads_literal
  unfold escapeFieldValue
  rw [runes_utf8]
  have := reads_flatMap escRuneOct (fun r => [UInt8.ofNat r]) (t.map Char.toNat) (by
    intro r hr
    obtain ⟨c, hc, rfl⟩ := List.mem_map.1 hr
    have := h c hc
    exact reads_escRuneOct _ (by omega))
  have e : (t.map Char.toNat).flatMap (fun r => [UInt8.ofNat r]) = latin1 t := by
    unfold latin1
    rw [List.flatMap_map]
    induction t with
    | nil => rfl
    | cons c t ih =>
      rw [List.flatMap_cons, List.map_cons, ih (fun d hd => h d (by simp [hd]))]
      · rfl
      · exact reads_flatMap escRuneOct (fun r => [UInt8.ofNat r]) (t.map Char.toNat) (by
          intro r hr
          obtain ⟨c, hc, rfl⟩ := List.mem_map.1 hr
          have := h c (by simp [hc])
          exact reads_escRuneOct _ (by omega))
  rw [e] at this
  exact this

example : readLiteral (b!"(" ++ escapeFieldValue (utf8 "Müller (\\)\n".toList) ++ b!")") =
    some (latin1 "Müller (\\)\n".toList, []) := by decide +kernel

/-- C21 is violated for characters from U+0100 to U+01FF, each of which is read back as the character 256
below it. -/
theorem C21_wraps_violated (c : Char) (h : 256 ≤ c.toNat) (h2 : c.toNat < 512) (rest : Bytes) :
    readLiteral (b!"(" ++ escapeFieldValue (utf8 [c]) ++ b!")" ++ rest) = some ([UInt8.ofNat (c.toNat - 256)], rest) := by
  apply reads_literal
  unfold escapeFieldValue
  rw [runes_utf8]
  have := reads_escRuneOct c.toNat h2
  simp only [List.map_cons, List.map_nil, List.flatMap_cons, List.flatMap_nil, List.append_nil]
  rw [show UInt8.ofNat (c.toNat - 256) = UInt8.ofNat c.toNat by
    rw [← UInt8.toNat_inj, UInt8.toNat_ofNat', UInt8.toNat_ofNat']; omega]
  exact this

/-- C21 is violated above: the euro sign is read back as the byte 0x82 and the digits 54. -/
theorem C21_euro_violated :
    readLiteral (b!"(" ++ escapeFieldValue (utf8 "€".toList) ++ b!")") = some ([0x82, 53, 52], []) := by decide +kernel

/-! ### C22 -/

/-- C22 (partial: characters up to U+00FF except NUL, TAB, LF, FF, CR): a reader of the name written for a text
gets its Latin-1 bytes and stops where the name ends. -/
theorem C22_name_partial (t : List Char)
    (h : ∀ c ∈ t, c.toNat < 256 ∧ c.toNat ≠ 0 ∧ c.toNat ≠ 9 ∧ c.toNat ≠ 10 ∧ c.toNat ≠ 12 ∧ c.toNat ≠ 13)
    (rest : Bytes) (hr : ∀ c, rest.head? = some c → pdfWs c = true ∨ pdfDelim c = true) :
    readName (b!"/" ++ escapeName (utf8 t) ++ rest) = some (latin1 t, rest) := by
  have key : nameFrom (escapeName (utf8 t) ++ rest) = (latin1 t, rest) := by
    unfold escapeName
    rw [runes_utf8, List.flatMap_map]
    induction t with
    | nil =>
      cases rest with
      | nil => rfl
      | cons c s =>
        have hc := hr c rfl
        have hne : c ≠ 35 := by rintro rfl; revert hc; decide
        simp only [List.flatMap_nil, List.nil_append]
        rw [nameFrom]
        · rw [if_pos (by simpa using hc)]; rfl
        · intro h l s' e; exact absurd e hne
    | cons c t ih =>
      rw [List.flatMap_cons, List.append_assoc, name_escRune _ (h c (by simp)).1 (h c (by simp)).2,
        ih (fun d hd => h d (by simp [hd]))]
      rfl
  simp only [List.cons_append, List.nil_append, readName, key]

example : readName (b!"/" ++ escapeName (utf8 "Foo Bär#/(1)".toList) ++ b!" ") =
    some (latin1 "Foo Bär#/(1)".toList, b!" ") := by decide +kernel

/-- C22 is violated: two different font names are written as the same PDF name. -/
theorem C22_collision_violated :
    escapeName (utf8 "€".toList) = escapeName (utf8 " AC".toList) ∧ "€".toList ≠ " AC".toList := by decide +kernel

/-- C22 is violated: a line feed or other control white space ends the name. -/
theorem C22_whitespace_violated :
    readName (b!"/" ++ escapeName (utf8 "A\nB".toList) ++ b!" ") = some (b!"A", b!"\nB ") := by decide +kernel

end Pdfer.Props
