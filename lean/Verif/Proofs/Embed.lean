import Verif.Model.Embed
import Verif.Proofs.Encoding
import Verif.Proofs.Font
import Verif.Proofs.FontFile
import Verif.Proofs.ExtractDict
import Verif.Proofs.ExtractStream
import Verif.Proofs.OpenWritten

/-! The objects of an embedded font. -/

namespace Pdfer.Embed

open Pdfer.Go Pdfer.Strings Pdfer.Font Pdfer.Writer Pdfer.Crypto Pdfer.Builder

/-! ### The writer -/

/-- The four calls. -/
def embedOps (w : Writer) (env : FEnv) (f : FontFace) (t : TTF) (glyphs widths : List Nat) (cmap : Bytes) : List Op :=
  [.addStream (.fresh (fileDict f.data)) (some f.data) true,
   .addObject (some (descriptorText env t w.nextObjNum)),
   .addStream (.fresh cmapDict) (some cmap) false,
   .addObject (some (fontDict t.fontName (fontIdOf env f t ++ b!"+") (w.nextObjNum + 1) (w.nextObjNum + 1 + 1) glyphs widths))]

theorem addObjects_run (env : FEnv) (ops : List Op) (f : FontFace) (t : TTF) (glyphs widths : List Nat) (cmap : Bytes) :
    (addObjects env (run env.wenv ops) f t glyphs widths cmap).1 =
      run env.wenv (ops ++ embedOps (run env.wenv ops) env f t glyphs widths cmap) := by
  unfold run
  rw [List.foldl_append]
  rfl

/-- What comes out of a successful embedding. -/
structure Embedded (env : FEnv) (w : Writer) (f : FontFace) (t : TTF) (gm : Map Int Nat) (glyphs widths : List Nat) (w' : Writer) (o : FontObjects) :
    Prop where
  ttf : parseTTF (exact f.data) = .ok t
  gmap : glyphMap env.fuel (exact f.data) = some (.ok gm)
  glyphsEq : glyphs = glyphList env.order gm f.subset
  widthsEq : ∃ h, t.tables.get b!"hmtx" = some h ∧ widthList h t.unitsPerEm glyphs = .ok widths
  out : (w', o) = addObjects env w f t glyphs widths (toUnicodeData env.visit gm glyphs)

theorem embedded {env : FEnv} {w w' : Writer} {f : FontFace} {o : FontObjects} (h : toPDFObjects env w f = some (.ok (w', o))) :
    ∃ t gm glyphs widths, Embedded env w f t gm glyphs widths w' o := by
  unfold toPDFObjects at h
  cases ht : parseTTF (exact f.data) with
  | err => rw [ht] at h; simp at h
  | panic => rw [ht] at h; simp at h
  | ok t =>
    rw [ht] at h
    simp only at h
    unfold getWidths subsetGlyphs toUnicodeText at h
    cases hm : glyphMap env.fuel (exact f.data) with
    | none => rw [hm] at h; simp at h
    | some r =>
      rw [hm, ht] at h
      cases r with
      | err => simp [Res.bind] at h
      | panic => simp [Res.bind] at h
      | ok gm =>
        simp only [Option.map_some, Option.bind_some, Res.bind] at h
        cases hh : t.tables.get b!"hmtx" with
        | none => rw [hh] at h; simp [Res.ofOption] at h
        | some hs =>
          rw [hh] at h
          simp only [Res.ofOption] at h
          cases hw : widthList hs t.unitsPerEm (glyphList env.order gm f.subset) with
          | err => rw [hw] at h; simp at h
          | panic => rw [hw] at h; simp at h
          | ok ws =>
            rw [hw] at h
            simp only [Option.some.injEq, Res.ok.injEq] at h
            exact ⟨t, gm, _, ws, ht, hm, rfl, ⟨hs, hh, hw⟩, h.symm⟩

theorem data_ne {data : Bytes} {t : TTF} (h : parseTTF (exact data) = .ok t) : data ≠ [] := by
  rintro rfl
  unfold parseTTF at h
  simp [exact] at h

/-- The numbers of the new objects. -/
theorem embedded_nums {env : FEnv} {w w' : Writer} {f : FontFace} {t : TTF} {gm : Map Int Nat} {glyphs widths : List Nat} {o : FontObjects}
    (h : Embedded env w f t gm glyphs widths w' o) :
    o.fontFile = w.nextObjNum ∧ o.descriptor = w.nextObjNum + 1 ∧ o.toUnicode = w.nextObjNum + 1 + 1 ∧ o.fontDict = w.nextObjNum + 1 + 1 + 1 ∧
    w'.nextObjNum = w.nextObjNum + 1 + 1 + 1 + 1 := by
  have e1 : w' = (addObjects env w f t glyphs widths (toUnicodeData env.visit gm glyphs)).1 := by rw [← h.out]
  have e2 : o = (addObjects env w f t glyphs widths (toUnicodeData env.visit gm glyphs)).2 := by rw [← h.out]
  subst e1
  subst e2
  exact ⟨rfl, rfl, rfl, rfl, rfl⟩

/-- The objects of the writer after the embedding. -/
theorem embedded_objects {env : FEnv} {w w' : Writer} {f : FontFace} {t : TTF} {gm : Map Int Nat} {glyphs widths : List Nat} {o : FontObjects}
    (h : Embedded env w f t gm glyphs widths w' o) (n : Int) :
    w'.objects.get n =
      if n = o.fontDict then some { content := some (fontDict t.fontName (fontIdOf env f t ++ b!"+") o.descriptor o.toUnicode glyphs widths), stream := none, dict := none }
      else if n = o.toUnicode then some { content := none, stream := some (toUnicodeData env.visit gm glyphs), dict := some (w.heap.length + 1) }
      else if n = o.descriptor then some { content := some (descriptorText env t o.fontFile), stream := none, dict := none }
      else if n = o.fontFile then some { content := none, stream := some (env.wenv.z f.data), dict := some w.heap.length }
      else w.objects.get n := by
  have hd := data_ne h.ttf
  have hz : (0 < f.data.length) = True := by simp [List.length_pos_iff, hd]
  have e1 : w' = (addObjects env w f t glyphs widths (toUnicodeData env.visit gm glyphs)).1 := by rw [← h.out]
  have e2 : o = (addObjects env w f t glyphs widths (toUnicodeData env.visit gm glyphs)).2 := by rw [← h.out]
  subst e1
  subst e2
  simp only [addObjects, addObject, addStreamObject, prepareStream, Map.get_set, Option.getD_some, List.length_append,
    List.length_cons, List.length_nil, Bool.true_and, Bool.false_and, gt_iff_lt, hz, decide_true, if_true, Bool.false_eq_true, if_false, eq_comm]

theorem embedded_heap {env : FEnv} {w w' : Writer} {f : FontFace} {t : TTF} {gm : Map Int Nat} {glyphs widths : List Nat} {o : FontObjects}
    (h : Embedded env w f t gm glyphs widths w' o) :
    w'.heap = w.heap ++ [((fileDict f.data).set b!"Filter" (.str b!"/FlateDecode")).set b!"Length" (.int (env.wenv.z f.data).length)] ++
      [cmapDict.set b!"Length" (.int (toUnicodeData env.visit gm glyphs).length)] := by
  have hd := data_ne h.ttf
  have hz : (0 < f.data.length) = True := by simp [List.length_pos_iff, hd]
  have e1 : w' = (addObjects env w f t glyphs widths (toUnicodeData env.visit gm glyphs)).1 := by rw [← h.out]
  subst e1
  simp only [addObjects, addObject, addStreamObject, prepareStream, Option.getD_some,
    Bool.true_and, Bool.false_and, gt_iff_lt, hz, decide_true, if_true, Bool.false_eq_true, if_false]

/-! ### Names and numbers -/

theorem hex2_eq (n : Nat) : hex2 n = hexPad 2 n := rfl

theorem upHex_ne {c d : UInt8} (h : Enc.UpHex c) (hd : ¬ Enc.UpHex d) : c ≠ d := fun e => hd (e ▸ h)

theorem not_upHex_slash : ¬ Enc.UpHex 47 := by unfold Enc.UpHex; decide

theorem writeRune_ascii_free {r : Nat} {d : UInt8} (hd : d.toNat ≠ r) (hr : ¬ 127 < r) : d ∉ writeRune r := by
  unfold writeRune
  rw [if_pos (by omega)]
  intro h
  simp only [List.mem_singleton] at h
  subst h
  simp at hd
  omega

theorem name_free (s : Bytes) : (47 : UInt8) ∉ escapeName s := by
  have hx : ∀ n : Nat, (47 : UInt8) ∉ b!"#" ++ hex2 n := by
    intro n h
    simp only [List.mem_append] at h
    rcases h with h | h
    · simp at h
    · rw [hex2_eq] at h
      exact not_upHex_slash ((Enc.hexPad_spec 2 n).1 _ h).1
  unfold escapeName
  intro h
  rw [List.mem_flatMap] at h
  obtain ⟨r, _, h⟩ := h
  unfold escNameRune at h
  split at h
  · exact hx _ h
  · split at h
    · exact hx _ h
    · rename_i h1 h2
      exact writeRune_ascii_free (d := 47) (by simp; omega) h2 h

/-- The identification of a font as `ToPDFObjects` makes it: lower-case hexadecimal digits (or empty, before the first call). -/
def hexId (id : Bytes) : Prop := ∀ c ∈ id, (48 ≤ c ∧ c ≤ 57) ∨ (97 ≤ c ∧ c ≤ 102)

theorem hexLow_hex (b : UInt8) : hexId (hexLow b) := by
  unfold hexId
  exact forall_byte (p := fun b => ∀ c ∈ hexLow b, (48 ≤ c ∧ c ≤ 57) ∨ (97 ≤ c ∧ c ≤ 102)) (by decide +kernel) b

theorem id_hex {env : FEnv} {f : FontFace} {t : TTF} (h : hexId f.fontID) : hexId (fontIdOf env f t) := by
  unfold fontIdOf
  split
  · intro c hc
    rw [List.mem_flatMap] at hc
    obtain ⟨b, _, hb⟩ := hc
    exact hexLow_hex b c hb
  · exact h

theorem escapeName_ascii {c : UInt8} (h : (48 ≤ c ∧ c ≤ 57) ∨ (97 ≤ c ∧ c ≤ 102) ∨ c = 43) (s : Bytes) :
    escapeName (c :: s) = c :: escapeName s := by
  have h1 : runes (c :: s) = c.toNat :: runes s := by
    have hlt : c.toNat < 128 := by
      revert h
      exact forall_byte (p := fun c => ((48 ≤ c ∧ c ≤ 57) ∨ (97 ≤ c ∧ c ≤ 102) ∨ c = 43) → c.toNat < 128) (by decide +kernel) c
    unfold runes
    rw [runesFrom]
    have : decodeRune c s = (c.toNat, 1) := by
      unfold decodeRune
      rw [if_pos (by simpa [UInt8.lt_iff_toNat_lt] using hlt)]
    rw [this]
    rfl
  unfold escapeName
  rw [h1, List.flatMap_cons]
  have h2 : escNameRune c.toNat = [c] := by
    revert h
    exact forall_byte (p := fun c => ((48 ≤ c ∧ c ≤ 57) ∨ (97 ≤ c ∧ c ≤ 102) ∨ c = 43) → escNameRune c.toNat = [c]) (by decide +kernel) c
  rw [h2]
  rfl

theorem name_head {id name : Bytes} (h : hexId id) :
    ∃ c r, escapeName (id ++ b!"+" ++ name) = c :: r ∧ ((48 ≤ c ∧ c ≤ 57) ∨ (97 ≤ c ∧ c ≤ 102) ∨ c = 43) := by
  cases id with
  | nil => exact ⟨43, _, escapeName_ascii (.inr (.inr rfl)) name, .inr (.inr rfl)⟩
  | cons c id =>
    have hc := h c (by simp)
    have hc' : (48 ≤ c ∧ c ≤ 57) ∨ (97 ≤ c ∧ c ≤ 102) ∨ c = 43 := by
      rcases hc with h | h
      · exact .inl h
      · exact .inr (.inl h)
    exact ⟨c, _, escapeName_ascii hc' _, hc'⟩

/-- A key that starts with a capital letter is not in the name. -/
theorem avoid_name {k : Bytes} {x : UInt8} (hx : 65 ≤ x ∧ x ≤ 90) {id name : Bytes} (h : hexId id) :
    Avoid (47 :: x :: k) (b!"/" ++ escapeName (id ++ b!"+" ++ name)) := by
  obtain ⟨c, r, e, hc⟩ := name_head (name := name) h
  refine avoid_cons ?_ (avoid_head (name_free _))
  rw [e]
  rintro s ⟨u, hu⟩
  simp only [List.cons_append, List.cons.injEq, true_and] at hu
  have hu' : x :: (k ++ u) = c :: (r ++ s) := hu
  have : x = c := (List.cons.inj hu').1
  subst this
  revert hx hc
  exact forall_byte (p := fun x => (65 ≤ x ∧ x ≤ 90) → ((48 ≤ x ∧ x ≤ 57) ∨ (97 ≤ x ∧ x ≤ 102) ∨ x = 43) → False) (by decide +kernel) x

theorem avoid_itoa {k : Bytes} (n : Int) : Avoid (47 :: k) (itoa n) := avoid_head (Incremental.not_mem_itoa _ (by decide) (by decide))

theorem widths_chars (ws : List Nat) : ∀ c ∈ Font.joinSp (ws.map natDec), isDigit c = true ∨ c = 32 := by
  induction ws with
  | nil => simp [Font.joinSp]
  | cons a ws ih =>
    cases ws with
    | nil =>
      intro c hc
      exact .inl (natDec_digits a c (by simpa [Font.joinSp] using hc))
    | cons b ws =>
      intro c hc
      simp only [List.map_cons, Font.joinSp, List.mem_append] at hc
      rcases hc with (hc | hc) | hc
      · exact .inl (natDec_digits a c hc)
      · simp at hc; exact .inr hc
      · exact ih c (by simpa using hc)

theorem avoid_widths {k : Bytes} (ws : List Nat) : Avoid (47 :: k) (Font.joinSp (ws.map natDec)) := by
  apply avoid_head
  intro h
  rcases widths_chars ws _ h with h | h <;> revert h <;> decide

/-! ### The font dictionary -/

/-- The text before the name. -/
def dictHead : Bytes := b!"<<\n/Type /Font\n/Subtype /TrueType\n/BaseFont "

/-- The parts of the text of the font dictionary. -/
theorem fontDict_parts (name id : Bytes) (desc tou : Int) (glyphs widths : List Nat) :
    fontDict name (id ++ b!"+") desc tou glyphs widths = dictHead ++ (b!"/" ++ escapeName (id ++ b!"+" ++ name)) ++ b!"\n/FirstChar 0\n/LastChar " ++
      itoa ((glyphs.length : Int) - 1) ++ b!"\n/Widths [" ++ Font.joinSp (widths.map natDec) ++ b!"]\n/FontDescriptor " ++ itoa desc ++
      b!" 0 R\n/ToUnicode " ++ itoa tou ++ b!" 0 R\n>>" := by
  unfold fontDict dictHead
  simp

theorem avoid_dictHead {k : Bytes} {x : UInt8} (hx : 65 ≤ x ∧ x ≤ 90) {id name : Bytes} (h : hexId id) (hc : clash (47 :: x :: k) dictHead = true) :
    Avoid (47 :: x :: k) (dictHead ++ (b!"/" ++ escapeName (id ++ b!"+" ++ name))) :=
  avoid_append (avoid_clash hc) (avoid_name hx h)

open Pdfer.Spec.Manipulate Pdfer.Spec.PageDict Pdfer.Manipulate

instance : DecidablePred Spec.Manipulate.White := fun c => by unfold Spec.Manipulate.White; infer_instance

theorem infix_of_avoid {key a : Bytes} (h : Avoid key a) (hk : key ≠ []) : ¬ key <:+: a := noOcc_iff_infix.1 (avoid_noOcc h hk)

theorem itoa_pos {n : Int} (h : 0 < n) : itoa n = natDec n.toNat := by
  obtain ⟨m, rfl⟩ : ∃ m : Nat, n = m := ⟨n.toNat, by omega⟩
  rfl

/-- The references of the font dictionary, also inside the text `pre … post` of an object. -/
theorem fontDict_refs {name id : Bytes} (hid : hexId id) {desc tou : Int} (hd : 0 < desc) (ht : 0 < tou) (glyphs widths : List Nat)
    {pre : Bytes} (hpre : (47 : UInt8) ∉ pre) (post : Bytes) :
    RefIs (pre ++ fontDict name (id ++ b!"+") desc tou glyphs widths ++ post) b!"/FontDescriptor" desc.toNat ∧
    RefIs (pre ++ fontDict name (id ++ b!"+") desc tou glyphs widths ++ post) b!"/ToUnicode" tou.toNat := by
  rw [fontDict_parts]
  constructor
  · refine ⟨b!" ", b!"\n/ToUnicode " ++ itoa tou ++ b!" 0 R\n>>" ++ post, by simp, by decide,
      pre ++ (dictHead ++ (b!"/" ++ escapeName (id ++ b!"+" ++ name))) ++ b!"\n/FirstChar 0\n/LastChar " ++
      itoa ((glyphs.length : Int) - 1) ++ b!"\n/Widths [" ++ Font.joinSp (widths.map natDec) ++ b!"]\n", ?_, ?_⟩
    · apply infix_of_avoid _ (by simp)
      exact avoid_append (avoid_append (avoid_append (avoid_append (avoid_append (avoid_append (avoid_head hpre)
        (avoid_dictHead (by decide) hid (by decide))) (avoid_clash (by decide))) (avoid_itoa _)) (avoid_clash (by decide))) (avoid_widths _))
        (avoid_clash (by decide))
    · rw [refText, itoa_pos hd]
      simp
  · refine ⟨b!" ", b!"\n>>" ++ post, by simp, by decide,
      pre ++ (dictHead ++ (b!"/" ++ escapeName (id ++ b!"+" ++ name))) ++ b!"\n/FirstChar 0\n/LastChar " ++
      itoa ((glyphs.length : Int) - 1) ++ b!"\n/Widths [" ++ Font.joinSp (widths.map natDec) ++ b!"]\n/FontDescriptor " ++ itoa desc ++ b!" 0 R\n", ?_, ?_⟩
    · apply infix_of_avoid _ (by simp)
      exact avoid_append (avoid_append (avoid_append (avoid_append (avoid_append (avoid_append (avoid_append (avoid_append (avoid_head hpre)
        (avoid_dictHead (by decide) hid (by decide))) (avoid_clash (by decide))) (avoid_itoa _)) (avoid_clash (by decide))) (avoid_widths _))
        (avoid_clash (by decide))) (avoid_itoa _)) (avoid_clash (by decide))
    · rw [refText, itoa_pos ht]
      simp

/-- A key that is in none of the parts is not in the text. -/
theorem fontDict_avoid {name id : Bytes} (hid : hexId id) (desc tou : Int) (glyphs widths : List Nat) {k : Bytes} {x : UInt8}
    (hx : 65 ≤ x ∧ x ≤ 90) (h1 : clash (47 :: x :: k) dictHead = true) (h2 : clash (47 :: x :: k) b!"\n/FirstChar 0\n/LastChar " = true)
    (h3 : clash (47 :: x :: k) b!"\n/Widths [" = true) (h4 : clash (47 :: x :: k) b!"]\n/FontDescriptor " = true)
    (h5 : clash (47 :: x :: k) b!" 0 R\n/ToUnicode " = true) (h6 : clash (47 :: x :: k) b!" 0 R\n>>" = true) :
    Avoid (47 :: x :: k) (fontDict name (id ++ b!"+") desc tou glyphs widths) := by
  rw [fontDict_parts]
  exact avoid_append (avoid_append (avoid_append (avoid_append (avoid_append (avoid_append (avoid_append (avoid_append (avoid_append
    (avoid_dictHead hx hid h1) (avoid_clash h2)) (avoid_itoa _)) (avoid_clash h3)) (avoid_widths _)) (avoid_clash h4)) (avoid_itoa _))
    (avoid_clash h5)) (avoid_itoa _)) (avoid_clash h6)

theorem words_join (ws : List Nat) : ∀ w : Bytes, (∀ c ∈ w, White c) → Words (w ++ Font.joinSp (ws.map natDec)) (ws.map natDec) := by
  have hdig : ∀ n : Nat, ∀ c ∈ natDec n, 33 ≤ c ∧ c < 128 := by
    intro n c hc
    have := natDec_digits n c hc
    revert this
    exact forall_byte (p := fun c => isDigit c = true → 33 ≤ c ∧ c < 128) (by decide +kernel) c
  induction ws with
  | nil => intro w hw; simpa [Font.joinSp] using Words.nil w hw
  | cons a ws ih =>
    intro w hw
    cases ws with
    | nil => exact Words.last w (natDec a) hw (natDec_ne_nil a) (hdig a)
    | cons b ws =>
      have h := ih b!" " (by decide)
      have := Words.cons w (natDec a) 32 (Font.joinSp ((b :: ws).map natDec)) _ hw (natDec_ne_nil a) (hdig a) (by decide) h
      simpa [Font.joinSp] using this

theorem fontDict_widths {name id : Bytes} (hid : hexId id) (desc tou : Int) {glyphs widths : List Nat} (hw : widths ≠ []) :
    NameIs (fontDict name (id ++ b!"+") desc tou glyphs widths) b!"/Subtype" b!"/TrueType" ∧
    IntIs (fontDict name (id ++ b!"+") desc tou glyphs widths) b!"/FirstChar" 0 ∧
    IntIs (fontDict name (id ++ b!"+") desc tou glyphs widths) b!"/LastChar" ((glyphs.length : Int) - 1) ∧
    ArrayIs (fontDict name (id ++ b!"+") desc tou glyphs widths) b!"/Widths" (widths.map natDec) := by
  have hnl : ∀ c, (b!"\n").head? = some c → White c := by intro c hc; simp at hc; subst hc; decide
  rw [fontDict_parts]
  refine ⟨.inl ⟨b!" ", b!"\n/BaseFont " ++ (b!"/" ++ escapeName (id ++ b!"+" ++ name)) ++ b!"\n/FirstChar 0\n/LastChar " ++
      itoa ((glyphs.length : Int) - 1) ++ b!"\n/Widths [" ++ Font.joinSp (widths.map natDec) ++ b!"]\n/FontDescriptor " ++ itoa desc ++
      b!" 0 R\n/ToUnicode " ++ itoa tou ++ b!" 0 R\n>>", by simp, by decide, ?_, b!"<<\n/Type /Font\n", ?_, ?_⟩, ?_, ?_, ?_⟩
  · intro c hc
    simp at hc
    subst hc
    decide
  · apply infix_of_avoid _ (by simp)
    exact avoid_clash (by decide)
  · unfold dictHead; simp
  · refine ⟨b!" ", b!"\n/LastChar " ++
      itoa ((glyphs.length : Int) - 1) ++ b!"\n/Widths [" ++ Font.joinSp (widths.map natDec) ++ b!"]\n/FontDescriptor " ++ itoa desc ++
      b!" 0 R\n/ToUnicode " ++ itoa tou ++ b!" 0 R\n>>", by simp, by decide, ?_, dictHead ++ (b!"/" ++ escapeName (id ++ b!"+" ++ name)) ++ b!"\n", ?_, ?_⟩
    · intro c hc
      simp at hc
      subst hc
      decide
    · apply infix_of_avoid _ (by simp)
      exact avoid_append (avoid_dictHead (by decide) hid (by decide)) (avoid_clash (by decide))
    · have : decimal 0 = b!"0" := by decide
      rw [this]
      simp
  · refine ⟨b!" ", b!"\n/Widths [" ++ Font.joinSp (widths.map natDec) ++ b!"]\n/FontDescriptor " ++ itoa desc ++
      b!" 0 R\n/ToUnicode " ++ itoa tou ++ b!" 0 R\n>>", by simp, by decide, ?_,
      dictHead ++ (b!"/" ++ escapeName (id ++ b!"+" ++ name)) ++ b!"\n/FirstChar 0\n", ?_, ?_⟩
    · intro c hc
      simp at hc
      subst hc
      decide
    · apply infix_of_avoid _ (by simp)
      exact avoid_append (avoid_dictHead (by decide) hid (by decide)) (avoid_clash (by decide))
    · rw [← itoa_decimal]
      simp
  · refine ⟨b!" ", Font.joinSp (widths.map natDec), b!"\n/FontDescriptor " ++ itoa desc ++
      b!" 0 R\n/ToUnicode " ++ itoa tou ++ b!" 0 R\n>>", by decide, ?_, ?_, ?_, ?_⟩
    · intro h
      rcases widths_chars widths _ h with h | h <;> revert h <;> decide
    · cases widths with
      | nil => exact absurd rfl hw
      | cons a ws =>
        cases ws with
        | nil => simpa [Font.joinSp] using natDec_ne_nil a
        | cons b ws => simp [Font.joinSp]
    · simpa using words_join widths [] (by simp)
    · refine ⟨dictHead ++ (b!"/" ++ escapeName (id ++ b!"+" ++ name)) ++ b!"\n/FirstChar 0\n/LastChar " ++ itoa ((glyphs.length : Int) - 1) ++ b!"\n", ?_, ?_⟩
      · apply infix_of_avoid _ (by simp)
        exact avoid_append (avoid_append (avoid_append (avoid_dictHead (by decide) hid (by decide)) (avoid_clash (by decide))) (avoid_itoa _))
          (avoid_clash (by decide))
      · simp

/-! ### The ToUnicode stream -/

/-- The text of the dictionary of the ToUnicode stream, before the length. -/
def cmapDictHead : Bytes :=
  b!"<</CIDSystemInfo map[/Ordering:(UCS) /Registry:(Adobe) /Supplement:0] /CMapName /Adobe-Identity-UCS /Type /CMap /Length "

theorem cmapDict_text (k : Nat) : formatDictionary (cmapDict.set b!"Length" (.int k)) = cmapDictHead ++ itoa k ++ b!" >>" := by
  simp [formatDictionary, formatDictOrd, cmapDict, cmapDictHead, Map.set, formatValue, formatEntries, formatPair, renderEntries, sortBy, insertBy,
    bytesLe, slashKey]

theorem fileDict_text (data : Bytes) (k : Nat) :
    formatDictionary (((fileDict data).set b!"Filter" (.str b!"/FlateDecode")).set b!"Length" (.int k)) =
      b!"<</Length " ++ itoa data.length ++ b!" /Length1 " ++ itoa data.length ++ b!" /Filter /FlateDecode /Length " ++ itoa k ++ b!" >>" := by
  simp [formatDictionary, formatDictOrd, fileDict, Map.set, formatValue, formatEntries, formatPair, renderEntries, sortBy, insertBy,
    bytesLe, slashKey]

theorem lines_chars (visited : List (Int × Nat)) (gs : List Nat) : ∀ c ∈ gs.flatMap (bfLine visited),
    Enc.UpHex c ∨ c = 60 ∨ c = 62 ∨ c = 32 ∨ c = 10 ∨ c = 45 := by
  intro c hc
  rw [List.mem_flatMap] at hc
  obtain ⟨g, _, hc⟩ := hc
  unfold bfLine at hc
  simp only [List.mem_append] at hc
  rcases hc with (((hc | hc) | hc) | hc) | hc
  · simp at hc; subst hc; exact .inr (.inl rfl)
  · exact .inl ((Enc.hexPad_spec 2 g).1 c hc).1
  · simp at hc
    rcases hc with rfl | rfl | rfl
    · exact .inr (.inr (.inl rfl))
    · exact .inr (.inr (.inr (.inl rfl)))
    · exact .inr (.inl rfl)
  · split at hc
    · unfold hexRune at hc
      split at hc
      · exact .inl ((Enc.hexPad_spec 4 _).1 c hc).1
      · simp only [List.mem_append] at hc
        rcases hc with hc | hc
        · simp at hc; subst hc; exact .inr (.inr (.inr (.inr (.inr rfl))))
        · exact .inl ((Enc.hexPad_spec 3 _).1 c hc).1
    · simp at hc
      rcases hc with rfl | rfl | rfl <;> exact .inl (.inl (by decide))
  · simp at hc
    rcases hc with rfl | rfl
    · exact .inr (.inr (.inl rfl))
    · exact .inr (.inr (.inr (.inr (.inl rfl))))

/-- Words that are in none of the fixed texts are not in the map. -/
theorem avoid_cmap {c : UInt8} {k : Bytes} (hc : ¬ Enc.UpHex c ∧ c ≠ 60 ∧ c ≠ 62 ∧ c ≠ 32 ∧ c ≠ 10 ∧ c ≠ 45) (hd : isDigit c = false)
    (h1 : clash (c :: k) cmapHead = true) (h2 : clash (c :: k) b!" beginbfchar\n" = true) (h3 : clash (c :: k) b!"endbfchar\n" = true)
    (h4 : clash (c :: k) cmapTail = true) (visit : Map Int Nat → List (Int × Nat)) (gm : Map Int Nat) (gs : List Nat) :
    Avoid (c :: k) (toUnicodeData visit gm gs) := by
  unfold toUnicodeData
  refine avoid_append (avoid_append (avoid_append (avoid_append (avoid_append (avoid_clash h1) (avoid_head (not_mem_natDec hd _))) (avoid_clash h2))
    (avoid_head ?_)) (avoid_clash h3)) (avoid_clash h4)
  intro hm
  rcases lines_chars _ _ _ hm with h | h | h | h | h | h
  · exact hc.1 h
  · exact hc.2.1 h
  · exact hc.2.2.1 h
  · exact hc.2.2.2.1 h
  · exact hc.2.2.2.2.1 h
  · exact hc.2.2.2.2.2 h

/-- The body of the ToUnicode object. -/
def cmapBody (data : Bytes) : Bytes := cmapDictHead ++ itoa data.length ++ b!" >>" ++ b!"\nstream\n" ++ data ++ b!"\nendstream"

theorem not_up {c : UInt8} (h : ((48 ≤ c ∧ c ≤ 57) ∨ (65 ≤ c ∧ c ≤ 70)) = False) : ¬ Enc.UpHex c := by
  unfold Enc.UpHex
  rw [h]
  exact id

theorem cmap_stream (visit : Map Int Nat → List (Int × Nat)) (gm : Map Int Nat) (gs : List Nat) (n : Int) (unz : Bytes → Option Bytes) :
    Enc.streamData unz (itoa n ++ b!" 0 obj\n" ++ cmapBody (toUnicodeData visit gm gs) ++ b!"\nendobj") = toUnicodeData visit gm gs ++ b!"\n" := by
  have ha : Avoid b!"endstream" (toUnicodeData visit gm gs ++ b!"\n") := avoid_append
    (avoid_cmap ⟨not_up (by decide), by decide⟩ (by decide) (by decide +kernel) (by decide +kernel) (by decide +kernel) (by decide +kernel) visit gm gs)
    (avoid_clash (by decide))
  have hf : Avoid b!"/FlateDecode" (toUnicodeData visit gm gs ++ b!"\n") := avoid_append
    (avoid_cmap ⟨not_up (by decide), by decide⟩ (by decide) (by decide +kernel) (by decide +kernel) (by decide +kernel) (by decide +kernel) visit gm gs)
    (avoid_clash (by decide))
  have h0 : ∃ r, toUnicodeData visit gm gs = 47 :: r := ⟨_, rfl⟩
  generalize toUnicodeData visit gm gs = D at *
  obtain ⟨r, h0⟩ := h0
  have hH : Avoid b!"stream" (itoa n ++ b!" 0 obj\n" ++ (cmapDictHead ++ itoa D.length ++ b!" >>\n")) :=
    avoid_append (avoid_append (avoid_head (Incremental.not_mem_itoa _ (by decide) (by decide))) (avoid_clash (by decide)))
      (avoid_append (avoid_append (avoid_clash (by decide +kernel)) (avoid_head (Incremental.not_mem_itoa _ (by decide) (by decide)))) (avoid_clash (by decide)))
  have hHf : Avoid b!"/FlateDecode" (itoa n ++ b!" 0 obj\n" ++ (cmapDictHead ++ itoa D.length ++ b!" >>\n")) :=
    avoid_append (avoid_append (avoid_itoa _) (avoid_clash (by decide)))
      (avoid_append (avoid_append (avoid_clash (by decide +kernel)) (avoid_itoa _)) (avoid_clash (by decide)))
  have e : itoa n ++ b!" 0 obj\n" ++ cmapBody D ++ b!"\nendobj" =
      (itoa n ++ b!" 0 obj\n" ++ (cmapDictHead ++ itoa D.length ++ b!" >>\n")) ++ (b!"stream" ++ (10 :: ((D ++ b!"\n") ++ b!"endstream\nendobj"))) := by
    unfold cmapBody; simp
  generalize itoa n ++ b!" 0 obj\n" ++ (cmapDictHead ++ itoa D.length ++ b!" >>\n") = H at hH hHf e
  have hc : contains (itoa n ++ b!" 0 obj\n" ++ cmapBody D ++ b!"\nendobj") b!"/FlateDecode" = false := by
    rw [e, Bool.eq_false_iff, Ne, contains_iff]
    apply infix_of_avoid _ (by simp)
    have e2 : H ++ (b!"stream" ++ (10 :: ((D ++ b!"\n") ++ b!"endstream\nendobj"))) = H ++ (b!"stream\n" ++ ((D ++ b!"\n") ++ b!"endstream\nendobj")) := by simp
    rw [e2]
    exact avoid_append hHf (avoid_append (avoid_clash (by decide)) (avoid_append hf (avoid_clash (by decide))))
  have hafter : Enc.afterStream (itoa n ++ b!" 0 obj\n" ++ cmapBody D ++ b!"\nendobj") = some ((D ++ b!"\n") ++ b!"endstream\nendobj") := by
    have hi : index b!"stream" (itoa n ++ b!" 0 obj\n" ++ cmapBody D ++ b!"\nendobj") = some H.length := by
      rw [e]; exact index_first (by decide) (avoid_noOcc hH (by decide))
    unfold Enc.afterStream
    rw [hi]
    simp only [Option.map_some, Option.some.injEq]
    have hd : (itoa n ++ b!" 0 obj\n" ++ cmapBody D ++ b!"\nendobj").drop (H.length + 6) = 10 :: ((D ++ b!"\n") ++ b!"endstream\nendobj") := by
      rw [e, ← List.drop_drop, List.drop_left]
      rfl
    rw [hd, h0]
    rfl
  have hend : index b!"endstream" ((D ++ b!"\n") ++ b!"endstream\nendobj") = some (D ++ b!"\n").length := by
    rw [index_avoid ha]
    have : index b!"endstream" b!"endstream\nendobj" = some 0 := by decide
    rw [this]
    simp
  unfold Enc.streamData
  rw [hafter]
  simp only
  rw [hend]
  simp only
  rw [hc]
  simp only [Bool.false_eq_true, if_false]
  rw [List.take_left]

theorem cmap_delimitable (visit : Map Int Nat → List (Int × Nat)) (gm : Map Int Nat) (gs : List Nat) :
    Spec.Delimitable (cmapBody (toUnicodeData visit gm gs)) := by
  have ha : Avoid b!"endstream" (toUnicodeData visit gm gs ++ b!"\n") := avoid_append
    (avoid_cmap ⟨not_up (by decide), by decide⟩ (by decide) (by decide +kernel) (by decide +kernel) (by decide +kernel) (by decide +kernel) visit gm gs)
    (avoid_clash (by decide))
  have ho : Avoid b!"endobj" (toUnicodeData visit gm gs ++ b!"\n") := avoid_append
    (avoid_cmap ⟨not_up (by decide), by decide⟩ (by decide) (by decide +kernel) (by decide +kernel) (by decide +kernel) (by decide +kernel) visit gm gs)
    (avoid_clash (by decide))
  generalize toUnicodeData visit gm gs = D at *
  have hH : ∀ k : Bytes, clash (101 :: k) cmapDictHead = true → clash (101 :: k) b!" >>\nstream\n" = true →
      Avoid (101 :: k) (cmapDictHead ++ itoa D.length ++ b!" >>\nstream\n") := fun k h1 h2 =>
    avoid_append (avoid_append (avoid_clash h1) (avoid_head (Incremental.not_mem_itoa _ (by decide) (by decide)))) (avoid_clash h2)
  refine ⟨?_, ?_, .inr ⟨cmapDictHead ++ itoa D.length ++ b!" >>\nstream\n" ++ D, by unfold cmapBody; simp, ?_⟩⟩
  · rw [Incremental.absent_iff (by decide)]
    apply avoid_noOcc _ (by decide)
    have e : cmapBody D = (cmapDictHead ++ itoa D.length ++ b!" >>\nstream\n") ++ ((D ++ b!"\n") ++ b!"endstream") := by
      unfold cmapBody; simp
    rw [e]
    exact avoid_append (hH _ (by decide +kernel) (by decide)) (avoid_append ho (avoid_clash (by decide)))
  · intro b hb
    have : b = 60 := by simpa [cmapBody, cmapDictHead] using hb.symm
    subst this
    decide
  · rw [Incremental.absent_iff (by decide), noOcc_iff_infix]
    have hA := avoid_append (hH b!"ndstream" (by decide +kernel) (by decide)) ha
    have hN := infix_of_avoid hA (by decide)
    exact fun hi => hN (hi.trans ⟨[], b!"\n", by simp⟩)

/-! ### The decoder that text extraction makes of the font -/

theorem toU_base (get : Int → Option Bytes) {font : Bytes} (h : ¬ b!"/Encoding" <:+: font) : (Enc.baseDecoder get font).toU = [] := by
  unfold Enc.baseDecoder
  rw [Extract.xDict_missing h]
  simp only [ne_eq, not_true_eq_false, if_false]
  split
  · unfold Enc.setBase
    simp only
    repeat' split
    all_goals rfl
  · rfl

theorem no_differences {font : Bytes} (h : ¬ b!"/Differences" <:+: font) : Enc.differencesText font = [] := by
  unfold Enc.differencesText
  rw [noOcc_iff_index.1 (noOcc_iff_infix.2 h)]

/-- The decoder of an embedded font. -/
theorem embedded_decoder (get : Int → Option Bytes) (unz : Bytes → Option Bytes) {name id : Bytes} (hid : hexId id) {num desc tou : Int} (hd : 0 < desc)
    (ht : 0 < tou) (htb : tou ≤ 9223372036854775807) (glyphs widths : List Nat) (visit : Map Int Nat → List (Int × Nat)) (gm : Map Int Nat)
    (hget : get tou = some (itoa tou ++ b!" 0 obj\n" ++ cmapBody (toUnicodeData visit gm glyphs) ++ b!"\nendobj")) :
    ∃ d : Enc.Decoder, d.toU = [] ∧
      Enc.fontDecoder get unz (itoa num ++ b!" 0 obj\n" ++ fontDict name (id ++ b!"+") desc tou glyphs widths ++ b!"\nendobj") =
        Enc.parseToUnicode d (toUnicodeData visit gm glyphs ++ b!"\n") := by
  have hpre : (47 : UInt8) ∉ itoa num ++ b!" 0 obj\n" := by
    simp only [List.mem_append, not_or]
    exact ⟨Incremental.not_mem_itoa _ (by decide) (by decide), by decide⟩
  have hr := (fontDict_refs (name := name) hid hd ht glyphs widths hpre b!"\nendobj").2
  have hen : ¬ b!"/Encoding" <:+: itoa num ++ b!" 0 obj\n" ++ fontDict name (id ++ b!"+") desc tou glyphs widths ++ b!"\nendobj" :=
    infix_of_avoid (avoid_append (avoid_append (avoid_head hpre) (fontDict_avoid hid desc tou glyphs widths (by decide) (by decide) (by decide) (by decide)
      (by decide) (by decide) (by decide))) (avoid_clash (by decide))) (by decide)
  have hdi : ¬ b!"/Differences" <:+: itoa num ++ b!" 0 obj\n" ++ fontDict name (id ++ b!"+") desc tou glyphs widths ++ b!"\nendobj" :=
    infix_of_avoid (avoid_append (avoid_append (avoid_head hpre) (fontDict_avoid hid desc tou glyphs widths (by decide) (by decide) (by decide) (by decide)
      (by decide) (by decide) (by decide))) (avoid_clash (by decide))) (by decide)
  generalize itoa num ++ b!" 0 obj\n" ++ fontDict name (id ++ b!"+") desc tou glyphs widths ++ b!"\nendobj" = T at *
  refine ⟨Enc.baseDecoder get T, toU_base get hen, ?_⟩
  unfold Enc.fontDecoder
  have hv : xDictValue T b!"/ToUnicode" = natDec tou.toNat := Extract.xDict_ref (by decide) hr
  have hpr : parseObjectRef (natDec tou.toNat) = some tou := by
    rw [Extract.parse_natDec (by omega)]
    simp; omega
  simp only
  rw [hv, if_neg (natDec_ne_nil _), hpr]
  simp only
  rw [hget]
  simp only
  rw [cmap_stream, if_neg (by simp)]
  unfold Enc.applyDiffs
  rw [no_differences hdi, if_pos rfl]

/-! ### Tables and widths -/

theorem bind_ok {α β : Type} {r : Res α} {f : α → Res β} {b : β} (h : r.bind f = .ok b) : ∃ a, r = .ok a ∧ f a = .ok b := by
  cases r with
  | ok a => exact ⟨a, rfl, h⟩
  | err => simp [Res.bind] at h
  | panic => simp [Res.bind] at h

theorem sub_wf {s t : Slice} {i j : Nat} (h : s.sub i j = .ok t) : t.WF := by
  unfold Slice.sub at h
  split at h
  · have := Res.ok.inj h
    subst this
    simp only [Slice.WF, List.length_drop]
    omega
  · simp at h

theorem readDir_tables (d : Slice) : ∀ (k off : Nat) (m m' : Map Bytes Slice), (∀ tag t, m.get tag = some t → t.WF) →
    readDir d k off m = .ok m' → ∀ tag t, m'.get tag = some t → t.WF := by
  intro k
  induction k with
  | zero => intro off m m' hm h; simp only [readDir, Res.ok.injEq] at h; subst h; exact hm
  | succ k ih =>
    intro off m m' hm h
    rw [readDir] at h
    split at h
    · simp at h
    · obtain ⟨tag0, _, h⟩ := bind_ok h
      obtain ⟨o, _, h⟩ := bind_ok h
      obtain ⟨l, _, h⟩ := bind_ok h
      split at h
      · simp at h
      · obtain ⟨t0, ht, h⟩ := bind_ok h
        refine ih _ _ _ ?_ h
        intro tag t hg
        rw [Map.get_set] at hg
        split at hg
        · simp only [Option.some.injEq] at hg
          subst hg
          exact sub_wf ht
        · exact hm tag t hg

theorem tables_wf {d : Slice} {t : TTF} (h : parseTTF d = .ok t) : ∀ tag s, t.tables.get tag = some s → s.WF := by
  unfold parseTTF at h
  split at h
  · simp at h
  · obtain ⟨sig, _, h⟩ := bind_ok h
    split at h
    · simp at h
    · obtain ⟨n, _, h⟩ := bind_ok h
      obtain ⟨m, hm, h⟩ := bind_ok h
      have hw := readDir_tables d _ _ _ _ (by intro tag t h; simp [Map.get] at h) hm
      iterate 15 obtain ⟨_, _, h⟩ := bind_ok h
      have := Res.ok.inj h
      subst this
      exact hw

theorem width_ok {h : Slice} (hw : h.WF) (upem : Nat) {g : Nat} : ∃ w, width h upem g = .ok w := by
  unfold width
  split
  · have hw' : h.len ≤ h.mem.length := hw
    unfold Slice.sub
    rw [if_pos (by omega)]
    exact ⟨_, rfl⟩
  · exact ⟨_, rfl⟩

theorem widthList_spec (h : Slice) (upem : Nat) : ∀ (gs ws : List Nat), widthList h upem gs = .ok ws →
    ws.length = gs.length ∧ ∀ p ∈ gs.zip ws, width h upem p.1 = .ok p.2 := by
  intro gs
  induction gs with
  | nil => intro ws h'; simp only [widthList, Res.ok.injEq] at h'; subst h'; simp
  | cons g gs ih =>
    intro ws h'
    rw [widthList] at h'
    obtain ⟨w, hw, h'⟩ := bind_ok h'
    obtain ⟨ws', hws, h'⟩ := bind_ok h'
    have := Res.ok.inj h'
    subst this
    obtain ⟨i1, i2⟩ := ih ws' hws
    refine ⟨by simp [i1], ?_⟩
    intro p hp
    rw [List.zip_cons_cons, List.mem_cons] at hp
    rcases hp with rfl | hp
    · exact hw
    · exact i2 p hp

theorem glyphSet_length (gm : Map Int Nat) (subset : List Int) : ∀ s : Map Nat Unit, (subset.foldl (addGlyph gm) s).keys.length ≤ s.keys.length + subset.length := by
  induction subset with
  | nil => intro s; simp
  | cons r rs ih =>
    intro s
    rw [List.foldl_cons]
    refine Nat.le_trans (ih _) ?_
    have : (addGlyph gm s r).keys.length ≤ s.keys.length + 1 := by
      unfold addGlyph
      cases gm.get r with
      | some g =>
        simp only [Map.set, Map.keys, List.map_cons, List.length_cons, List.length_map]
        have := List.length_filter_le (fun e : Nat × Unit => decide (e.1 ≠ g)) s
        omega
      | none => exact Nat.le_succ _
    simp only [List.length_cons]
    omega

theorem glyphList_length {order : List Nat → List Nat} (ho : ∀ l, (order l).Perm l) (gm : Map Int Nat) (subset : List Int) :
    1 ≤ (glyphList order gm subset).length ∧ (glyphList order gm subset).length ≤ subset.length + 1 := by
  have hp : (glyphList order gm subset).Perm (glyphSet gm subset).keys := (Writer.sortBy_perm _ _).trans (ho _)
  constructor
  · have := ((glyphList_spec order ho gm subset).2 0).2 (.inl rfl)
    exact List.length_pos_of_mem this
  · rw [hp.length_eq]
    have := glyphSet_length gm subset [(0, ())]
    have h1 : (Map.keys [(0, ())] : List Nat).length = 1 := rfl
    unfold glyphSet
    omega

theorem glyphs_ne {order : List Nat → List Nat} (ho : ∀ l, (order l).Perm l) (gm : Map Int Nat) (subset : List Int) : glyphList order gm subset ≠ [] := by
  have := (glyphList_length ho gm subset).1
  intro h
  rw [h] at this
  simp at this

theorem parts_end (a b c d e g i j k l : Bytes) : ∃ pre,
    b!"<<\n/Type /FontDescriptor\n/FontName /" ++ a ++ b!"\n/FontFamily (" ++ b ++
    b!")\n/Flags " ++ c ++ b!"\n/FontBBox [-100 -100 " ++ d ++ b!" " ++
    e ++ b!"]\n/ItalicAngle " ++ g ++ b!"\n/Ascent " ++ i ++ b!"\n/Descent " ++
    j ++ b!"\n/CapHeight " ++ k ++ b!"\n/StemV 80\n/FontFile2 " ++ l ++ b!" 0 R\n>>" =
    b!"<<\n/Type /FontDescriptor\n" ++ pre ++ b!"/FontFile2 " ++ (l ++ b!" 0 R") ++ b!"\n>>" :=
  ⟨b!"/FontName /" ++ a ++ b!"\n/FontFamily (" ++ b ++
    b!")\n/Flags " ++ c ++ b!"\n/FontBBox [-100 -100 " ++ d ++ b!" " ++
    e ++ b!"]\n/ItalicAngle " ++ g ++ b!"\n/Ascent " ++ i ++ b!"\n/Descent " ++
    j ++ b!"\n/CapHeight " ++ k ++ b!"\n/StemV 80\n", by simp⟩

theorem descriptor_end (env : FEnv) (t : TTF) {n : Int} (hn : 0 < n) : ∃ pre, descriptorText env t n =
    b!"<<\n/Type /FontDescriptor\n" ++ pre ++ b!"/FontFile2 " ++ refText n.toNat ++ b!"\n>>" := by
  have h := parts_end (escapeName t.fontName) (escapeFieldValue t.names.family) (natDec (fontFlags t)) (natDec (t.unitsPerEm + 100))
    (natDec (t.unitsPerEm + 100)) (env.angle t) (itoa t.ascent) (itoa t.descent) (itoa t.capHeight) (itoa n)
  unfold descriptorText refText
  rw [← itoa_pos hn]
  exact h

theorem prefix_dict (a b r : Bytes) : b!"<<\n/Type /Font\n/Subtype /TrueType\n/BaseFont /" ++ a ++ b ++ b!"\n" <+:
    b!"<<\n/Type /Font\n/Subtype /TrueType\n/BaseFont " ++ (b!"/" ++ (a ++ b)) ++ b!"\n/FirstChar 0\n/LastChar " ++ r :=
  ⟨b!"/FirstChar 0\n/LastChar " ++ r, by simp⟩

theorem prefix_desc (a r : Bytes) : b!"<<\n/Type /FontDescriptor\n/FontName /" ++ (a ++ b!"\n") <+:
    b!"<<\n/Type /FontDescriptor\n/FontName /" ++ (a ++ (b!"\n/FontFamily (" ++ r)) :=
  ⟨b!"/FontFamily (" ++ r, by simp⟩

theorem written_unique {visited : List (Int × Nat)} {gm : Map Int Nat} (hv : ∀ c g, (c, g) ∈ visited ↔ gm.get c = some g)
    (hinj : ∀ c c' g, gm.get c = some g → gm.get c' = some g → c = c') {c : Int} {g : Nat} (hc : gm.get c = some g) (h0 : 0 ≤ c) :
    (Enc.written visited g : Int) = c := by
  have hm : ∀ u, u ∈ unicodesOf visited g ↔ u = c := by
    intro u
    unfold unicodesOf
    simp only [List.mem_map, List.mem_filter, decide_eq_true_eq]
    constructor
    · rintro ⟨⟨a, b⟩, ⟨h1, h2⟩, rfl⟩
      simp only at h2
      subst h2
      exact hinj _ _ _ ((hv a b).1 h1) hc
    · rintro rfl
      exact ⟨(u, g), ⟨(hv u g).2 hc, rfl⟩, rfl⟩
  unfold Enc.written
  cases hu : unicodesOf visited g with
  | nil => rw [hu] at hm; simpa using (hm c).2 rfl
  | cons a l =>
    have : a = c := (hm a).1 (by rw [hu]; simp)
    simp only [List.head?_cons, Option.getD_some, this]
    omega

end Pdfer.Embed
