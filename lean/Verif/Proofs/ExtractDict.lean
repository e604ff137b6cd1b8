import Verif.Proofs.ExtractPage
import Verif.Proofs.XPages
import Verif.Proofs.OutlineRead
import Verif.Spec.PageDict

/-! Values in the texts of pages and annotations. -/

namespace Pdfer.Extract

open Pdfer.Go Pdfer.Manipulate Pdfer.Spec.Manipulate Pdfer.Spec.PageDict

variable {F : Type}

theorem search_only {α : Type} {p : Bytes → Option α} {k pre b rest : Bytes} (hp : ∀ s, p s ≠ none → (47 :: k) <+: s)
    (hk : (47 : UInt8) ∉ k) (h91 : (91 : UInt8) ∉ k) (h93 : (93 : UInt8) ∉ k)
    (hpre : NoOcc (47 :: k) pre) (hrest : NoOcc (47 :: k) rest) (hb2 : 47 ∉ b)
    (h0 : p ((47 :: k) ++ (91 :: (b ++ (93 :: rest)))) = none) :
    searchWith p (pre ++ ((47 :: k) ++ (91 :: (b ++ (93 :: rest))))) = none := by
  have hno : NoOcc (47 :: k) (91 :: (b ++ (93 :: rest))) := by
    have h1 : NoOcc (47 :: k) (91 :: b) := noOcc_of_head (by
      intro h; rcases List.mem_cons.1 h with h | h
      · simp at h
      · exact hb2 h)
    have := noOcc_mid (c := 93) (by simp [h93]) h1 hrest
    simpa using this
  rw [searchWith_first (c := 47) (k := k) hp (by intro d hd; simp at hd; subst hd; exact hk) hpre]
  have e : ((47 :: k) ++ (91 :: (b ++ (93 :: rest)))) = 47 :: (k ++ (91 :: (b ++ (93 :: rest)))) := rfl
  rw [e, searchWith, ← e, h0]
  simp only
  apply searchWith_none hp
  exact noOcc_app (noOcc_of_head hk) hno (by intro d hd; simp at hd; subst hd; exact h91)

theorem reArr_here {key w b rest : Bytes} (hw : ∀ c ∈ w, White c) (hb0 : b ≠ []) (hb : (93 : UInt8) ∉ b) :
    reArr key (key ++ (w ++ (91 :: (b ++ (93 :: rest))))) = some b := by
  unfold reArr
  have h1 : reSp0 (w ++ (91 :: (b ++ (93 :: rest)))) = b!"[" ++ (b ++ (93 :: rest)) := by
    unfold reSp0
    rw [dropWhile_all (fun c hc => white_reSpace.1 (hw c hc)) (by intro c hc; simp at hc; subst hc; decide)]
    rfl
  have hall : ∀ c ∈ b, (decide (c ≠ 93)) = true := by intro c hc; simp; rintro rfl; exact hb hc
  have h93 : ∀ c, (93 :: rest : Bytes).head? = some c → decide (c ≠ 93) = false := by intro c hc; simp at hc; simp [← hc]
  rw [reLit_append, Option.bind_some, h1, reLit_append, Option.bind_some, takeWhile_all hall h93, dropWhile_all hall h93,
    if_neg hb0, show (93 :: rest : Bytes) = b!"]" ++ rest from rfl, reLit_append]
  rfl

/-- A compact array of references is found. -/
theorem xDict_refs {s k : Bytes} {nums : List Nat} (hk : (47 : UInt8) ∉ k) (h91 : (91 : UInt8) ∉ k) (h93 : (93 : UInt8) ∉ k)
    (hnum : nums ≠ []) (h : RefsAre s (47 :: k) nums) :
    ∃ b, xDictValue s (47 :: k) = 91 :: (b ++ [93]) ∧ parseObjectRefArray (91 :: (b ++ [93])) = nums.map refText := by
  obtain ⟨pre, w1, w2, rest, h1, h2, hpre, hrest, rfl⟩ := h
  have hpre' := noOcc_iff_infix.2 hpre
  have hrest' := noOcc_iff_infix.2 hrest
  have hb := body_chars w1 nums w2 h1 h2
  have hb2 := body_noslash w1 nums w2 h1 h2
  have e : pre ++ (47 :: k) ++ kidsArray w1 nums w2 ++ rest =
      pre ++ ((47 :: k) ++ (91 :: ((w1 ++ (refsText nums ++ w2)) ++ (93 :: rest)))) := by rw [kidsArray_eq]; simp
  rw [e]
  refine ⟨w1 ++ (refsText nums ++ w2), ?_, by rw [parseArray, findRefs_body w1 nums w2 h1 h2]⟩
  have hne : w1 ++ (refsText nums ++ w2) ≠ [] := by
    intro h
    have : refsText nums = [] := by simp at h; exact h.2.1
    cases nums with
    | nil => exact hnum rfl
    | cons n ns =>
      cases ns with
      | nil => rw [refsText_one] at this; simp [refText] at this
      | cons m ns => rw [refsText_cons] at this; simp at this
  have htok := search_only (p := reTok (47 :: k)) (fun s => reTok_prefix) hk h91 h93 hpre' hrest' hb2 (by
    unfold reTok; rw [reLit_append, Option.bind_some]; rfl)
  have hname := search_only (p := reName (47 :: k)) (fun s => reName_prefix) hk h91 h93 hpre' hrest' hb2 (by
    unfold reName; rw [reLit_append, Option.bind_some, reLit_ne (by decide)]; rfl)
  have harr : searchWith (reArr (47 :: k)) (pre ++ ((47 :: k) ++ (91 :: ((w1 ++ (refsText nums ++ w2)) ++ (93 :: rest))))) =
      some (w1 ++ (refsText nums ++ w2)) := by
    rw [searchWith_first (c := 47) (k := k) (fun s => reArr_prefix)
      (by intro d hd; simp at hd; subst hd; exact hk) hpre']
    exact searchWith_here (reArr_here (w := []) (by simp) hne (fun hx => (hb _ hx).2 rfl))
  simp only [xDictValue, simpleValue, htok, hname, harr]
  rfl

/-- A single reference is found: its number. -/
theorem xDict_ref {s k : Bytes} {n : Nat} (hk : (47 : UInt8) ∉ k) (h : RefIs s (47 :: k) n) : xDictValue s (47 :: k) = natDec n := by
  obtain ⟨w, rest, hw0, hw, pre, hpre, rfl⟩ := h
  have e : pre ++ (47 :: k) ++ (w ++ refText n ++ rest) = pre ++ ((47 :: k) ++ (w ++ (natDec n ++ (b!" 0 R" ++ rest)))) := by simp [refText]
  rw [e]
  refine xDict_value hk (noOcc_iff_infix.2 hpre) hw0 hw ⟨natDec_ne_nil n, fun c hc => Outline.digit_tok c (natDec_digits n c hc), ?_⟩ ?_
  · intro hh
    have := natDec_digits n 91 (List.mem_of_mem_head? hh)
    exact absurd this (by decide)
  · intro c hc
    simp at hc
    subst hc
    exact .inl (.inl rfl)

theorem parse_natDec {n : Nat} (h2 : n ≤ 9223372036854775807) : parseObjectRef (natDec n) = some (n : Int) := by
  unfold parseObjectRef
  have : fields (natDec n) = [natDec n] := fields_word _ (fun c hc => Outline.digit_isSpace (natDec_digits n c hc)) (natDec_ne_nil n)
  rw [this]
  have := parseObjectRef_refText n h2
  unfold parseObjectRef at this
  rw [show fields (refText n) = [natDec n, b!"0", b!"R"] from ?_] at this
  · exact this
  · have e : refText n = natDec n ++ 32 :: (b!"0" ++ 32 :: b!"R") := by simp [refText]
    rw [e, fields_word_space _ (fun c hc => Outline.digit_isSpace (natDec_digits n c hc)) (natDec_ne_nil n) _ (by decide),
      fields_word_space _ (by decide) (by decide) _ (by decide), fields_word _ (by decide) (by decide)]

/-- A key that is missing has no value. -/
theorem xDict_missing {s key : Bytes} (h : ¬ key <:+: s) : xDictValue s key = [] := by
  have h := noOcc_iff_infix.2 h
  unfold xDictValue simpleValue
  rw [searchWith_none (fun s => reTok_prefix) h, searchWith_none (fun s => reName_prefix) h, searchWith_none (fun s => reArr_prefix) h]
  rfl

/-- A name is found. -/
theorem xDict_name {s k name : Bytes} (hk : (47 : UInt8) ∉ k) (hn0 : name ≠ []) (hn : ∀ c ∈ name, nameByte c = true)
    (h : NameIs s (47 :: k) (47 :: name)) : xDictValue s (47 :: k) = 47 :: name := by
  rcases h with ⟨w, rest, hw0, hw, hr, pre, hpre, rfl⟩ | ⟨rest, hr, ⟨pre, hpre, rfl⟩, hns⟩
  · have e : pre ++ (47 :: k) ++ (w ++ (47 :: name) ++ rest) = pre ++ ((47 :: k) ++ (w ++ ((47 :: name) ++ rest))) := by simp
    rw [e]
    refine xDict_value hk (noOcc_iff_infix.2 hpre) hw0 hw ⟨by simp, ?_, by simp⟩ hr
    intro c hc
    rcases List.mem_cons.1 hc with rfl | hc
    · decide
    · have := hn c hc
      simp [nameByte] at this
      exact this.1
  · have e : pre ++ (47 :: k) ++ (47 :: name ++ rest) = pre ++ ((47 :: k) ++ ((47 :: name) ++ rest)) := by simp
    have hp := noOcc_iff_infix.2 hpre
    have hts := searchTok_noSpaced hns
    rw [e] at hts ⊢
    unfold xDictValue
    simp only [simpleValue]
    rw [hts]
    simp only
    have hx : searchWith (reName (47 :: k)) ((47 :: k) ++ ((47 :: name) ++ rest)) = some (name, rest) :=
      searchWith_here (reName_value hn0 hn (endsName hr))
    rw [searchWith_first (p := reName (47 :: k)) (c := 47) (k := k) (fun s => reName_prefix) _ hp, hx]
    · rfl
    · intro d hd; simp at hd; subst hd; exact hk

theorem word_space : ∀ c : UInt8, 33 ≤ c → c < 128 → isSpace c = false := by
  intro c
  exact forall_byte (p := fun c => 33 ≤ c → c < 128 → isSpace c = false) (by decide +kernel) c

theorem fields_space (c : UInt8) (h : isSpace c = true) (t : Bytes) : fields (c :: t) = fields t := by
  unfold fields
  rw [fieldsAux, if_pos h, if_pos rfl]

theorem fields_white {w : Bytes} (hw : ∀ c ∈ w, White c) (t : Bytes) : fields (w ++ t) = fields t := by
  induction w with
  | nil => rfl
  | cons c w ih =>
    rw [List.cons_append, ← ih fun d hd => hw d (by simp [hd])]
    have := white_isSpace (hw c (by simp))
    exact fields_space _ this _

theorem fields_words {s : Bytes} {ws : List Bytes} (h : Words s ws) : fields s = ws := by
  induction h with
  | nil w hw =>
    have := fields_white hw []
    rw [List.append_nil] at this
    rw [this]
    rfl
  | last w word hw h0 hc =>
    rw [fields_white hw, fields_word _ (fun c hc' => word_space c (hc c hc').1 (hc c hc').2) h0]
  | cons w word c rest ws hw h0 hc hcw _ ih =>
    rw [List.append_assoc, fields_white hw, fields_word_space _ (fun c hc' => word_space c (hc c hc').1 (hc c hc').2) h0 _ (white_isSpace hcw)]
    rw [← ih]
    exact congrArg _ (fields_space _ (white_isSpace hcw) _).symm

/-- The numbers of an array are found. -/
theorem array_words (fl : XFloats F) {s k : Bytes} {ws : List Bytes} (hk : (47 : UInt8) ∉ k) (h : ArrayIs s (47 :: k) ws) :
    arrayValue fl s (47 :: k) = ws.filterMap fl.parse := by
  obtain ⟨w, body, rest, hw, h93, h0, hws, pre, hpre, rfl⟩ := h
  have e : pre ++ (47 :: k) ++ (w ++ b!"[" ++ body ++ b!"]" ++ rest) = pre ++ ((47 :: k) ++ (w ++ (91 :: (body ++ (93 :: rest))))) := by simp
  unfold arrayValue
  rw [e, searchWith_first (c := 47) (k := k) (fun s => reArr_prefix)
      (by intro d hd; simp at hd; subst hd; exact hk) (noOcc_iff_infix.2 hpre), searchWith_here (reArr_here hw h0 h93)]
  simp only [fields_words hws]

theorem filterMap_all {ws : List Bytes} {vs : List F} {parse : Bytes → Option F} (h : ws.map parse = vs.map some) : ws.filterMap parse = vs := by
  have : ws.filterMap parse = (ws.map parse).filterMap id := by rw [List.filterMap_map]; rfl
  rw [this, h, List.filterMap_map]
  simp

theorem array_missing (fl : XFloats F) {s key : Bytes} (h : ¬ key <:+: s) : arrayValue fl s key = [] := by
  unfold arrayValue
  rw [searchWith_none (fun s => reArr_prefix) (noOcc_iff_infix.2 h)]

/-! ### Pages -/

/-- What a page that was read consists of. -/
theorem page_ok {fl : XFloats F} {get : Int → Option Bytes} {unz : Bytes → Option Bytes} {num : Int} {s : Bytes} {x : XPage F}
    (h : page fl get unz num s = .ok x) :
    let fonts := if resourcesText get s = [] then none else some (fontDecoders get unz (resourcesText get s))
    let cs := contentsOf fl get unz fonts (contentRefs s)
    x.mediaBox = rectOf (arrayValue fl s b!"/MediaBox") ∧ x.cropBox = rectOf (arrayValue fl s b!"/CropBox") ∧
    (∀ a b c d, x.mediaBox = some (a, b, c, d) → x.width = fl.sub c a ∧ x.height = fl.sub d b) ∧
    x.rotation = (atoi (xDictValue s b!"/Rotate")).getD 0 ∧
    x.texts = cs.flatMap (·.texts) ∧ x.graphics = cs.flatMap (·.graphics) ∧ x.images = cs.flatMap (·.images) ∧
    (if xDictValue s b!"/Annots" = [] then .ok [] else annotations fl get num (xDictValue s b!"/Annots")) = .ok x.annots := by
  intro fonts cs
  unfold page at h
  simp only at h
  cases ha : (if xDictValue s b!"/Annots" = [] then Res.ok [] else annotations fl get num (xDictValue s b!"/Annots")) with
  | err => rw [ha] at h; simp [Res.bind] at h
  | panic => rw [ha] at h; simp [Res.bind] at h
  | ok as =>
    rw [ha] at h
    simp only [Res.bind, Res.ok.injEq] at h
    subst h
    refine ⟨rfl, rfl, ?_, rfl, rfl, rfl, rfl, rfl⟩
    intro a b c d hb
    simp only at hb
    simp only [hb, and_self]

theorem resources_same {get : Int → Option Bytes} {s t : Bytes} (h : SameResources s t) : resourcesText get s = resourcesText get t := by
  unfold resourcesText
  rcases h with ⟨h1, h2⟩ | ⟨r, h0, hr, h1, h2⟩
  · have e1 := xDict_missing h1
    have e2 := xDict_missing h2
    have i1 : index b!"/Resources" s = none := noOcc_iff_index.1 (noOcc_iff_infix.2 h1)
    have i2 : index b!"/Resources" t = none := noOcc_iff_index.1 (noOcc_iff_infix.2 h2)
    simp only [e1, e2, inlineDict, i1, i2]
  · have e1 : xDictValue s b!"/Resources" = natDec r := xDict_ref (k := b!"Resources") (by decide) h1
    have e2 : xDictValue t b!"/Resources" = natDec r := xDict_ref (k := b!"Resources") (by decide) h2
    simp only [e1, e2, ne_eq, natDec_ne_nil, not_false_eq_true, if_true]

theorem contentRefs_array {s : Bytes} {nums : List Nat} (h0 : nums ≠ []) (h : RefsAre s b!"/Contents" nums) :
    contentRefs s = nums.map refText := by
  obtain ⟨b, hb, hp⟩ := xDict_refs (k := b!"Contents") (by decide) (by decide) (by decide) h0 h
  have hb : xDictValue s b!"/Contents" = 91 :: (b ++ [93]) := hb
  simp only [contentRefs, hb, hp]
  rw [if_neg (by simp), if_neg (by simpa using h0)]

theorem digit_reSpace : ∀ c : UInt8, isDigit c = true → reSpace c = false := by
  intro c
  exact forall_byte (p := fun c => isDigit c = true → reSpace c = false) (by decide +kernel) c

theorem contentRefs_one {s : Bytes} {n : Nat} (h : RefIs s b!"/Contents" n) : contentRefs s = [natDec n] := by
  have e : xDictValue s b!"/Contents" = natDec n := xDict_ref (k := b!"Contents") (by decide) h
  simp only [contentRefs, e]
  rw [if_neg (natDec_ne_nil n), if_pos (parseArray_noSpace fun c hc => digit_reSpace c (natDec_digits n c hc))]

/-- Several streams are read one after the other. -/
theorem contents_array (fl : XFloats F) (get : Int → Option Bytes) (unz : Bytes → Option Bytes) (fonts : Option (Map Bytes Enc.Decoder))
    (nums : List Nat) (h : ∀ n ∈ nums, n ≤ 9223372036854775807) :
    contentsOf fl get unz fonts (nums.map refText) = nums.flatMap fun n => contentsOf fl get unz fonts [natDec n] := by
  induction nums with
  | nil => rfl
  | cons n ns ih =>
    have ih := ih fun m hm => h m (by simp [hm])
    unfold contentsOf at ih ⊢
    rw [List.map_cons, List.filterMap_cons, List.flatMap_cons, ← ih]
    simp only [List.filterMap_cons, List.filterMap_nil, parseObjectRef_refText n (h n (by simp)), parse_natDec (h n (by simp))]
    cases ((some (n : Int)).bind get).map fun s => Content.parseContent fl.toFloats fonts (contentText unz s) with
    | none => rfl
    | some v => rfl

/-! ### An array after white space -/

theorem fieldsAux_first (c : UInt8) : ∀ (t acc : Bytes), ∃ f fs, fieldsAux (acc ++ [c]) t = (c :: f) :: fs
  | [], acc => ⟨acc.reverse, [], by rw [fieldsAux, if_neg (by simp)]; simp⟩
  | d :: t, acc => by
    rw [fieldsAux]
    split
    · rw [if_neg (by simp)]
      exact ⟨acc.reverse, fieldsAux [] t, by simp⟩
    · have := fieldsAux_first c t (d :: acc)
      simpa using this

theorem parse_bracket (t : Bytes) : parseObjectRef (91 :: t) = none := by
  unfold parseObjectRef fields
  rw [fieldsAux, if_neg (by decide)]
  obtain ⟨f, fs, h⟩ := fieldsAux_first 91 t []
  rw [List.nil_append] at h
  rw [h]
  simp [atoi, atoiMag, isDigit]

/-- White space before an array: the value is the first word of it. -/
theorem xDict_spaced {s k w rest : Bytes} (hk : (47 : UInt8) ∉ k) (hw0 : w ≠ []) (hw : ∀ c ∈ w, White c)
    (h : FirstKey s (47 :: k) (w ++ b!"[" ++ rest)) :
    ∃ t, xDictValue s (47 :: k) = 91 :: t ∧ parseObjectRefArray (91 :: t) = [] := by
  obtain ⟨pre, hpre, rfl⟩ := h
  have e : pre ++ (47 :: k) ++ (w ++ b!"[" ++ rest) = pre ++ ((47 :: k) ++ (w ++ (91 :: rest))) := by simp
  have htok : searchWith (reTok (47 :: k)) (pre ++ ((47 :: k) ++ (w ++ (91 :: rest)))) =
      some ((91 :: rest).takeWhile tokByte, (91 :: rest).dropWhile tokByte) := by
    rw [searchWith_first (fun s => reTok_prefix) _ (noOcc_iff_infix.2 hpre)]
    · refine searchWith_here ?_
      unfold reTok
      rw [reLit_append, Option.bind_some, reSp1_white hw0 (fun c hc => white_reSpace.1 (hw c hc)) (by intro d hd; simp at hd; subst hd; decide),
        Option.bind_some, if_neg]
      rw [List.takeWhile_cons_of_pos (by decide)]
      simp
    · intro d hd; simp at hd; subst hd; exact hk
  have ht : (91 :: rest).takeWhile tokByte = 91 :: rest.takeWhile tokByte := List.takeWhile_cons_of_pos (by decide)
  refine ⟨rest.takeWhile tokByte, ?_, ?_⟩
  · rw [e]
    unfold xDictValue
    simp only [simpleValue]
    rw [htok]
    exact ht
  · apply parseArray_noSpace
    intro c hc
    rw [← ht] at hc
    have := List.all_eq_true.1 (List.all_takeWhile (l := 91 :: rest) (p := tokByte)) c hc
    simp [tokByte] at this
    exact this.1.1

theorem contents_spaced {s w rest : Bytes} (fl : XFloats F) (get : Int → Option Bytes) (unz : Bytes → Option Bytes)
    (fonts : Option (Map Bytes Enc.Decoder)) (hw0 : w ≠ []) (hw : ∀ c ∈ w, White c)
    (h : FirstKey s b!"/Contents" (w ++ b!"[" ++ rest)) : contentsOf fl get unz fonts (contentRefs s) = [] := by
  obtain ⟨t, h1, h2⟩ := xDict_spaced (k := b!"Contents") (by decide) hw0 hw h
  have h1 : xDictValue s b!"/Contents" = 91 :: t := h1
  simp only [contentRefs, h1, h2]
  rw [if_neg (by simp), if_pos True.intro]
  simp [contentsOf, parse_bracket]

end Pdfer.Extract
