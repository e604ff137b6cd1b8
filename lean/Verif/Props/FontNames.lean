import Verif.Spec.FontNames
import Verif.Proofs.Embed
import Verif.Props.Encoding

/-! C98 and C99: named encodings and the names of a font. -/

namespace Pdfer.Props

open Pdfer.Go Pdfer.Font Pdfer.Spec.FontNames Pdfer.Spec.Font Pdfer.Spec.Manipulate Pdfer.Spec.PageDict Pdfer.Spec.Enc Pdfer.Manipulate

/-! ### C98: named encodings -/

/-- The tables of the library. -/
theorem tables_right : (∀ c : Fin 256, Enc.winAnsi.get (c.val : Int) = (winAnsi c.val).map Int.ofNat) ∧
    (∀ c : Fin 256, c.val ≠ 219 → Enc.macRoman.get (c.val : Int) = (macRoman c.val).map Int.ofNat) ∧
    (∀ c : Fin 256, Enc.standard.get (c.val : Int) = (standard c.val).map Int.ofNat) := by decide +kernel

/-- C98 (partial: no Differences and no ToUnicode map, see C74 and C75; the encoding's name directly in the font; code 219 of
MacRomanEncoding, see the violation): for every font object that names WinAnsiEncoding, MacRomanEncoding or StandardEncoding, every code
of the encoding is read as its character, and every other byte as itself. -/
theorem C98_named_encoding_partial (get : Int → Option Bytes) (unz : Bytes → Option Bytes) (font name : Bytes) (enc : Nat → Option Nat)
    (hn : (name, enc) ∈ named) (he : NameIs font b!"/Encoding" (47 :: name)) (hd : ¬ b!"/Differences" <:+: font) (ht : ¬ b!"/ToUnicode" <:+: font)
    (c : Nat) (hc : c ≤ 255) (h219 : name = b!"MacRomanEncoding" → c ≠ 219) :
    CharOf (Enc.fontDecoder get unz font) c ((enc c).getD c) := by
  have hnb : name ≠ [] ∧ ∀ x ∈ name, nameByte x = true := by
    simp only [named, List.mem_cons, List.not_mem_nil, or_false, Prod.mk.injEq] at hn
    rcases hn with ⟨rfl, _⟩ | ⟨rfl, _⟩ | ⟨rfl, _⟩ <;> decide +kernel
  have hx : xDictValue font b!"/Encoding" = 47 :: name := Extract.xDict_name (by decide) hnb.1 hnb.2 he
  have hfd : Enc.fontDecoder get unz font = Enc.setBase .new (47 :: name) := by
    unfold Enc.fontDecoder Enc.baseDecoder Enc.applyDiffs
    simp only
    rw [Extract.xDict_missing ht, Embed.no_differences hd, hx]
    simp [List.isPrefixOf]
  rw [hfd]
  have key : ∀ (t : Map Int Int), (∀ n : Bytes, n = 47 :: name → (Enc.setBase .new n) = { Enc.Decoder.new with base := t }) →
      t.get (c : Int) = (enc c).map Int.ofNat → CharOf (Enc.setBase .new (47 :: name)) c ((enc c).getD c) := by
    intro t h1 h2
    rw [h1 _ rfl]
    cases h : enc c with
    | none => rw [h] at h2; exact .code rfl rfl h2
    | some u => rw [h] at h2; exact .base rfl rfl h2
  simp only [named, List.mem_cons, List.not_mem_nil, or_false, Prod.mk.injEq] at hn
  obtain ⟨t1, t2, t3⟩ := tables_right
  rcases hn with ⟨rfl, rfl⟩ | ⟨rfl, rfl⟩ | ⟨rfl, rfl⟩
  · exact key Enc.winAnsi (by rintro n rfl; rfl) (t1 ⟨c, by omega⟩)
  · exact key Enc.macRoman (by rintro n rfl; rfl) (t2 ⟨c, by omega⟩ (h219 rfl))
  · exact key Enc.standard (by rintro n rfl; rfl) (t3 ⟨c, by omega⟩)

/-- A font with MacRomanEncoding. -/
def macFont : Bytes := b!"7 0 obj\n<</Type /Font /Subtype /TrueType /BaseFont /Geneva /Encoding /MacRomanEncoding>>\nendobj"

example : NameIs macFont b!"/Encoding" b!"/MacRomanEncoding" ∧ ¬ b!"/Differences" <:+: macFont ∧ ¬ b!"/ToUnicode" <:+: macFont :=
  ⟨.inl ⟨b!" ", b!">>\nendobj", by simp, by decide, by intro c hc; simp at hc; subst hc; decide,
      b!"7 0 obj\n<</Type /Font /Subtype /TrueType /BaseFont /Geneva ", by rw [← Manipulate.noOcc_iff_infix, noOcc_iff_index]; decide +kernel, by decide +kernel⟩,
    by rw [← Manipulate.noOcc_iff_infix, noOcc_iff_index]; decide +kernel, by rw [← Manipulate.noOcc_iff_infix, noOcc_iff_index]; decide +kernel⟩
example : Enc.decode (Enc.fontDecoder (fun _ => none) some macFont) [0x8E, 65, 0xD2] = b!"éA“" := by decide +kernel

/-- C98: a font object without an encoding of its own, of type Type1 or TrueType, is read with StandardEncoding. -/
theorem C98_default_encoding (get : Int → Option Bytes) (unz : Bytes → Option Bytes) (font sub : Bytes) (hs : sub = b!"Type1" ∨ sub = b!"TrueType")
    (hsub : NameIs font b!"/Subtype" (47 :: sub)) (he : ¬ b!"/Encoding" <:+: font) (hd : ¬ b!"/Differences" <:+: font)
    (ht : ¬ b!"/ToUnicode" <:+: font) (c : Nat) (hc : c ≤ 255) :
    CharOf (Enc.fontDecoder get unz font) c ((standard c).getD c) := by
  have hx : xDictValue font b!"/Subtype" = 47 :: sub :=
    Extract.xDict_name (by decide) (by rcases hs with rfl | rfl <;> decide) (by rcases hs with rfl | rfl <;> decide +kernel) hsub
  have hfd : Enc.fontDecoder get unz font = Enc.setBase .new b!"StandardEncoding" := by
    unfold Enc.fontDecoder Enc.baseDecoder Enc.applyDiffs
    simp only
    rw [Extract.xDict_missing ht, Extract.xDict_missing he, Embed.no_differences hd, hx]
    rcases hs with rfl | rfl <;> simp
  rw [hfd]
  have h2 := tables_right.2.2 ⟨c, by omega⟩
  have h1 : Enc.setBase .new b!"StandardEncoding" = { Enc.Decoder.new with base := Enc.standard } := rfl
  rw [h1]
  simp only at h2
  cases h : standard c with
  | none => rw [h] at h2; exact .code rfl rfl h2
  | some u => rw [h] at h2; exact .base rfl rfl h2

/-- C98 does not hold in full: code 219 of MacRomanEncoding is the currency sign (ISO 32000-1, table D.2); it is read as the Euro
sign. -/
theorem C98_currency_violated : macRoman 219 = some 0xA4 ∧ Enc.decode (Enc.fontDecoder (fun _ => none) some macFont) [219] = b!"€" := by
  decide +kernel

/-- C98 does not hold in full: a font without an encoding has the encoding of its font file; the codes of the standard font Symbol are
read with the characters of StandardEncoding (the letter alpha as "a"). -/
theorem C98_symbol_violated :
    Enc.decode (Enc.fontDecoder (fun _ => none) some b!"<</Type /Font /Subtype /Type1 /BaseFont /Symbol>>") b!"a" = b!"a" := by decide +kernel

/-! ### C99: the names of a font -/

/-- The texts of the records `i`, …, `i + k - 1`. -/
def textsFrom (b : Bytes) (id i k : Nat) : List Bytes :=
  (List.range' i k).filterMap fun i =>
    if Inside b i ∧ nameId b i = id then
      if platform b i = 3 then (if textLength b i % 2 = 0 then some (windowsText (textBytes b i)) else none)
      else if platform b i = 0 then some (textBytes b i) else none
    else none

/-- A name stays, else the first of the texts. -/
def pick (a : Bytes) (l : List Bytes) : Bytes := if a = [] then first l else a

theorem pick_cons (a t : Bytes) (l : List Bytes) : pick (if a = [] then t else a) l = pick a (t :: l) := by
  unfold pick
  by_cases h : a = []
  · simp [h, first]
  · simp [h]

theorem pick_nil (a : Bytes) : pick a [] = a := by
  unfold pick
  split
  · rename_i h; rw [h]; rfl
  · rfl

theorem units_pairs (d : Bytes) : (pairs16 d).flatMap Strings.writeRune = windowsText d := by
  unfold windowsText
  rw [← Enc.flatMap_write]
  induction d using pairs16.induct with
  | case1 a b r ih => rw [pairs16, units, List.flatMap_cons, List.flatMap_cons, ih]; rfl
  | case2 d h => 
    rw [pairs16, units]
    · rfl
    · exact h
    · exact h

theorem textsFrom_cons (b : Bytes) (id i k : Nat) : textsFrom b id i (k + 1) =
    (if Inside b i ∧ nameId b i = id then
      if platform b i = 3 then (if textLength b i % 2 = 0 then [windowsText (textBytes b i)] else [])
      else if platform b i = 0 then [textBytes b i] else []
    else []) ++ textsFrom b id (i + 1) k := by
  unfold textsFrom
  rw [List.range'_succ, List.filterMap_cons]
  repeat' split
  all_goals simp_all

theorem textsFrom_outside {b : Bytes} {i : Nat} (h : b.length < 18 + 12 * i) (id k : Nat) : textsFrom b id i k = [] := by
  induction k generalizing i with
  | zero => rfl
  | succ k ih =>
    rw [textsFrom_cons, if_neg (by intro hi; have := hi.1.2.1; omega), ih (by omega)]
    rfl

theorem setName_eq (n : Names) (id : Nat) (x : Bytes) : setName n id x =
    ⟨if id = 1 then (if n.family = [] then x else n.family) else n.family, if id = 4 then (if n.full = [] then x else n.full) else n.full,
     if id = 6 then (if n.postScript = [] then x else n.postScript) else n.postScript⟩ := by
  unfold setName
  by_cases h1 : id = 1
  · subst h1
    by_cases h : n.family = [] <;> simp [h]
  · by_cases h4 : id = 4
    · subst h4
      by_cases h : n.full = [] <;> simp [h]
    · by_cases h6 : id = 6
      · subst h6
        by_cases h : n.postScript = [] <;> simp [h]
      · simp [h1, h4, h6]

theorem nameLoop_names {s : Slice} (hw : s.WF) (hl : s.len < 65536) : ∀ (k i : Nat) (n : Names), i + k = u16 s.data 2 →
    nameLoop s (u16 s.data 4) k (6 + 12 * i) n =
      .ok ⟨pick n.family (textsFrom s.data 1 i k), pick n.full (textsFrom s.data 4 i k), pick n.postScript (textsFrom s.data 6 i k)⟩ := by
  have hw' : s.len ≤ s.mem.length := hw
  have hdl := data_length hw
  intro k
  induction k with
  | zero => intro i n _; simp only [nameLoop, textsFrom, List.range', List.filterMap_nil, pick_nil]
  | succ k ih =>
    intro i n hik
    rw [nameLoop]
    split
    · rename_i hshort
      have ho := fun id => textsFrom_outside (b := s.data) (i := i) (by omega) id (k + 1)
      rw [ho, ho, ho]
      simp only [pick_nil]
    · rw [be16_ok hw (by omega), Res.bind, be16_ok hw (by omega), Res.bind, be16_ok hw (by omega), Res.bind, be16_ok hw (by omega), Res.bind]
      have e6 : 6 + 12 * i + 6 = 12 + 12 * i := by omega
      have e8 : 6 + 12 * i + 8 = 14 + 12 * i := by omega
      have e10 : 6 + 12 * i + 10 = 16 + 12 * i := by omega
      have e12 : 6 + 12 * i + 12 = 6 + 12 * (i + 1) := by omega
      rw [e6, e8, e10, e12]
      have hplat : u16 s.data (6 + 12 * i) = platform s.data i := rfl
      have hid : u16 s.data (12 + 12 * i) = nameId s.data i := rfl
      have hlen : u16 s.data (14 + 12 * i) = textLength s.data i := rfl
      have hst : u16 s.data 4 + u16 s.data (16 + 12 * i) = textStart s.data i := rfl
      rw [hplat, hid, hlen, hst]
      split
      · rename_i h
        rw [Nat.mod_eq_of_lt (by omega), Nat.mod_eq_of_lt (by omega), sub_ok (by omega) (by omega), Res.bind, ih (i + 1) _ (by omega)]
        have hins : Inside s.data i := ⟨by omega, by omega, by omega⟩
        have hd : (⟨s.mem.drop (textStart s.data i), textStart s.data i + textLength s.data i - textStart s.data i⟩ : Slice).data = textBytes s.data i := by
          have gen : ∀ st ln, st + ln ≤ s.len → (⟨s.mem.drop st, st + ln - st⟩ : Slice).data = (s.data.drop st).take ln := by
            intro st ln hsl
            unfold Slice.data
            rw [List.drop_take, List.take_take]
            congr 1
            simp only
            omega
          exact gen _ _ h.2
        rw [hd]
        have hnt : (textBytes s.data i).length = textLength s.data i := by
          unfold textBytes
          rw [List.length_take, List.length_drop]
          omega
        have hsel : ∀ id (a : Bytes), pick (if nameId s.data i = id then (if a = [] then nameText (platform s.data i) (textBytes s.data i) else a) else a)
            (textsFrom s.data id (i + 1) k) = pick a (textsFrom s.data id i (k + 1)) := by
          intro id a
          rw [textsFrom_cons]
          by_cases hx : nameId s.data i = id
          · rw [if_pos hx, if_pos (show Inside s.data i ∧ nameId s.data i = id from ⟨hins, hx⟩)]
            unfold nameText
            rw [hnt]
            by_cases h3 : platform s.data i = 3
            · rw [if_pos h3, if_pos h3]
              by_cases hev : textLength s.data i % 2 = 0
              · rw [if_pos hev, if_pos hev, units_pairs, pick_cons]; rfl
              · rw [if_neg hev, if_neg hev, List.nil_append]
                congr 1
                split
                · rename_i ha; exact ha.symm
                · rfl
            · have h0 : platform s.data i = 0 := by omega
              rw [if_neg h3, if_neg h3, if_pos h0, pick_cons]; rfl
          · rw [if_neg hx, if_neg (show ¬ (Inside s.data i ∧ nameId s.data i = id) from fun hc => hx hc.2), List.nil_append]
        have hset : setName n (nameId s.data i) (nameText (platform s.data i) (textBytes s.data i)) =
            ⟨if nameId s.data i = 1 then (if n.family = [] then nameText (platform s.data i) (textBytes s.data i) else n.family) else n.family,
             if nameId s.data i = 4 then (if n.full = [] then nameText (platform s.data i) (textBytes s.data i) else n.full) else n.full,
             if nameId s.data i = 6 then (if n.postScript = [] then nameText (platform s.data i) (textBytes s.data i) else n.postScript) else n.postScript⟩ := by
          exact setName_eq n _ _
        rw [hset]
        simp only [hsel]
      · rename_i h
        rw [ih (i + 1) n (by omega)]
        have hsel : ∀ id, textsFrom s.data id i (k + 1) = textsFrom s.data id (i + 1) k := by
          intro id
          rw [textsFrom_cons]
          split
          · rename_i hi
            have := hi.1.2.2
            rw [if_neg (by intro h3; exact h ⟨.inl h3, by omega⟩), if_neg (by intro h3; exact h ⟨.inr h3, by omega⟩)]
            rfl
          · rfl
        rw [hsel, hsel, hsel]

/-- C99 (partial: a name table shorter than 65536 bytes, the others can crash, see C72; names of the Unicode platform, surrogates and the
Macintosh platform, see the violations): for every font file that `ParseTTF` accepts, family, full and PostScript name are the first texts
that are not empty with the identifiers 1, 4 and 6, and the font's name is the PostScript name, else the full name, else the family. -/
theorem C99_names_partial (data : Slice) (t : TTF) (h : parseTTF data = .ok t) (name : Slice) (hn : t.tables.get b!"name" = some name)
    (hl : name.len < 65536) :
    t.names.family = first (texts name.data 1) ∧ t.names.full = first (texts name.data 4) ∧ t.names.postScript = first (texts name.data 6) ∧
    t.fontName = first [first (texts name.data 6), first (texts name.data 4), first (texts name.data 1)] := by
  have hwf := Embed.tables_wf h _ _ hn
  have key : t.names = ⟨first (texts name.data 1), first (texts name.data 4), first (texts name.data 6)⟩ := by
    unfold parseTTF at h
    split at h
    · simp at h
    · obtain ⟨sig, _, h⟩ := Embed.bind_ok h
      split at h
      · simp at h
      · obtain ⟨n, _, h⟩ := Embed.bind_ok h
        obtain ⟨m, hm, h⟩ := Embed.bind_ok h
        iterate 7 obtain ⟨_, _, h⟩ := Embed.bind_ok h
        obtain ⟨nm, hnm, h⟩ := Embed.bind_ok h
        obtain ⟨count, hcount, h⟩ := Embed.bind_ok h
        obtain ⟨so, hso, h⟩ := Embed.bind_ok h
        obtain ⟨names, hnames, h⟩ := Embed.bind_ok h
        iterate 4 obtain ⟨_, _, h⟩ := Embed.bind_ok h
        have := Res.ok.inj h
        subst this
        simp only at hn ⊢
        unfold table at hnm
        rw [hn] at hnm
        simp only at hnm
        split at hnm
        · simp at hnm
        · have := Res.ok.inj hnm
          subst this
          rw [be16_ok hwf (by omega)] at hcount hso
          have h1 := Res.ok.inj hcount
          have h2 := Res.ok.inj hso
          subst h1
          subst h2
          have := nameLoop_names hwf hl (u16 name.data 2) 0 ⟨[], [], []⟩ (by omega)
          rw [hnames] at this
          have := Res.ok.inj this
          rw [this]
          have e : ∀ id, textsFrom name.data id 0 (u16 name.data 2) = texts name.data id := by
            intro id
            unfold textsFrom texts
            rw [List.range_eq_range']
          simp only [pick, if_true, e]
  refine ⟨by rw [key], by rw [key], by rw [key], ?_⟩
  unfold TTF.fontName
  rw [key]
  simp only [first]
  by_cases h6 : first (texts name.data 6) = []
  · by_cases h4 : first (texts name.data 4) = []
    · by_cases h1 : first (texts name.data 1) = []
      · simp [h6, h4, h1]
      · simp [h6, h4, h1]
    · simp [h6, h4]
  · simp [h6]

/-- A name record. -/
def nameRec (plat id len off : Nat) : Bytes := w16 plat ++ w16 1 ++ w16 0x409 ++ w16 id ++ w16 len ++ w16 off

/-- A font with the names "Ab" (family, Macintosh), "Cd" (family, Windows) and "Ef" (full, Unicode platform). -/
def namedFont : Bytes :=
  fontFile ((baseTables 6).take 3 ++ [(b!"name", w16 0 ++ w16 3 ++ w16 42 ++ nameRec 1 1 2 0 ++ nameRec 3 1 4 2 ++ nameRec 0 4 4 6 ++
    b!"Ab" ++ [0, 67, 0, 100] ++ [0, 69, 0, 102])] ++ (baseTables 6).drop 4)

/-- The names that are read. -/
def namesOf (data : Bytes) : Option (Bytes × Bytes × Bytes × Bytes) :=
  match parseTTF (exact data) with
  | .ok t => some (t.names.family, t.names.full, t.names.postScript, t.fontName)
  | _ => none

example : (namesOf namedFont).map (·.1) = some b!"Cd" := by decide +kernel

/-- C99 does not hold in full: texts of the Unicode platform are UTF-16 too, but are taken as bytes: the full name "Ef" of this font is
read with zero bytes. -/
theorem C99_unicode_platform_violated : (namesOf namedFont).map (·.2.1) = some [0, 69, 0, 102] ∧ windowsText [0, 69, 0, 102] = b!"Ef" := by decide +kernel

/-- C99 does not hold in full: a character outside the basic plane becomes two replacement characters. -/
theorem C99_surrogates_violated :
    (namesOf (fontFile ((baseTables 6).take 3 ++ [(b!"name", w16 0 ++ w16 1 ++ w16 18 ++ nameRec 3 6 4 0 ++ [0xD8, 0x3D, 0xDE, 0x00])] ++
      (baseTables 6).drop 4))).map (·.2.2.1) = some b!"\uFFFD\uFFFD" := by decide +kernel

/-- C99 does not hold in full: a font with names of the Macintosh platform only has no name. -/
theorem C99_macintosh_violated :
    (namesOf (fontFile ((baseTables 6).take 3 ++ [(b!"name", w16 0 ++ w16 1 ++ w16 18 ++ nameRec 1 6 2 0 ++ b!"Ab")] ++ (baseTables 6).drop 4))).map (·.2.2.2) =
      some [] := by decide +kernel

end Pdfer.Props
