import Verif.Proofs.ExtractPage

/-! The fonts of a built page. -/

namespace Pdfer.Extract

open Pdfer.Go Pdfer.Enc Pdfer.Content Pdfer.Manipulate Pdfer.Spec.Manipulate Pdfer.Spec.Content Pdfer.Spec.Extract Pdfer.Crypto Pdfer.Builder Pdfer.Writer
  Pdfer.Spec.Builder Pdfer.Outline Pdfer.Incremental

variable {F : Type}

/-! ### The font dictionary and its entries -/

theorem reDictGroup_prefix {key s : Bytes} (h : reDictGroup key s ≠ none) : key <+: s := by
  apply reLit_prefix
  intro e
  apply h
  unfold reDictGroup
  rw [e]
  rfl

theorem reDictGroup_here {key a : Bytes} (ha : ∀ c ∈ a, c ≠ 60 ∧ c ≠ 62) (r : Bytes) :
    reDictGroup key (key ++ (b!"<<" ++ (a ++ (b!">>" ++ r)))) = some a := by
  unfold reDictGroup
  have h1 : reSp0 (b!"<<" ++ (a ++ (b!">>" ++ r))) = b!"<<" ++ (a ++ (b!">>" ++ r)) := by
    unfold reSp0
    rfl
  have hd : ∀ c ∈ a, decide (c ≠ 62) = true := fun c hc => by simpa using (ha c hc).2
  have hr : ∀ c, (b!">>" ++ r).head? = some c → decide (c ≠ 62) = false := by
    intro c hc; simp at hc; subst hc; decide
  rw [reLit_append, Option.bind_some, h1, reLit_append, Option.bind_some, takeWhile_all hd hr, dropWhile_all hd hr, reLit_append]
  rfl

theorem fontDict_some (ord : List (Bytes × Int) → List (Bytes × Int)) (hord : ∀ l, (ord l).Perm l) (p : Builder.Page) (hp : FreePage p)
    (h : p.fonts.length > 0) : fontDict (resInner ord p) = some (entries (ord p.fonts)) := by
  have hf : ∀ c ∈ entries (ord p.fonts), c ≠ 60 ∧ c ≠ 62 := entries_flat fun e he => hp.2.2.2 e (by
    rw [List.mem_append]; exact .inl ((hord _).mem_iff.1 he))
  have e : resInner ord p = b!"/Font" ++ (b!"<<" ++ (entries (ord p.fonts) ++ (b!">>" ++
      (if p.images.length > 0 then b!"/XObject<<" ++ entries (ord p.images) ++ b!">>" else [])))) := by
    unfold resInner; rw [if_pos h]; simp
  unfold fontDict
  rw [e, searchWith_here (reDictGroup_here hf _)]

theorem fontDict_none (ord : List (Bytes × Int) → List (Bytes × Int)) (hord : ∀ l, (ord l).Perm l) (p : Builder.Page) (hp : FreePage p)
    (h : ¬ p.fonts.length > 0) : fontDict (resInner ord p) = none := by
  have ha : Avoid b!"/Font" (resInner ord p) := by
    unfold resInner
    rw [if_neg h, List.nil_append]
    refine avoid_ite (avoid_append (avoid_append (avoid_clash (by decide)) ?_) (avoid_clash (by decide))) (avoid_nil _)
    apply Builder.avoid_entries
    intro e he
    exact ⟨avoid_free (by simp [pageKeys]) (hp.2.2.2 e (by rw [List.mem_append]; exact .inr ((hord _).mem_iff.1 he))),
      avoid_ref (by decide) (by decide) (by decide) (by decide) _⟩
  have h1 : searchWith (reDictGroup b!"/Font") (resInner ord p) = none := by
    have := searchWith_avoid (fun s hs => reDictGroup_prefix (key := b!"/Font") hs) (s := []) ha
    rw [List.append_nil] at this
    rw [this]
    rfl
  have h2 : index b!"/Font" (resInner ord p) = none := by
    have := index_avoid (s := []) ha
    rw [List.append_nil] at this
    rw [this]
    rfl
  unfold fontDict
  rw [h1, h2]

theorem reEntry_here {name : Bytes} (hn : FreeName name) {m : Int} (hm : 0 < m) (r : Bytes) :
    reEntry ((b!"/" ++ name ++ b!" " ++ ref m) ++ r) = some ((name, natDec m.toNat), r) := by
  have hw : ∀ c ∈ name, Forms.reWord c = true := fun c hc => (freeName_chars hn c hc).1
  have e : (b!"/" ++ name ++ b!" " ++ ref m) ++ r = b!"/" ++ (name ++ (32 :: (refText m.toNat ++ r))) := by rw [ref_toNat hm]; simp
  have hr : ∀ c, (32 :: (refText m.toNat ++ r)).head? = some c → Forms.reWord c = false := by
    intro c hc; simp at hc; subst hc; decide
  unfold reEntry
  rw [e, reLit_append, Option.bind_some, takeWhile_all hw hr, dropWhile_all hw hr, if_neg hn.1, reSp1_one, Option.bind_some, reRef_refText]
  · rfl
  · intro c hc
    rw [refText, List.append_assoc] at hc
    exact isDigit_not_reSpace (natDec_head m.toNat _ c hc)

theorem entriesOf_entries {l : List (Bytes × Int)} (h : ∀ e ∈ l, FreeName e.1 ∧ 0 < e.2 ∧ e.2 ≤ 9223372036854775807) :
    entriesOf (entries l) = l := by
  have key : Forms.findAll reEntry 0 (entries l) = l.map fun e => (e.1, natDec e.2.toNat) := by
    induction l with
    | nil => rfl
    | cons e l ih =>
      have he := h e (by simp)
      have : entries (e :: l) = (b!"/" ++ e.1 ++ b!" " ++ ref e.2) ++ entries l := by simp [entries]
      rw [this, Forms.findAll_here (by simp) (reEntry_here he.1 he.2.1 _), ih fun x hx => h x (by simp [hx])]
      rfl
  unfold entriesOf
  rw [key, List.map_map]
  conv => rhs; rw [← List.map_id l]
  apply List.map_congr_left
  intro e he
  have := h e he
  have h2 := parseObjectRef_refText e.2.toNat (by omega)
  unfold refText at h2
  simp only [Function.comp_apply, h2, Option.getD_some, id_eq]
  have h3 : ((e.2.toNat : Nat) : Int) = e.2 := by omega
  rw [h3]

/-! ### A standard font -/

theorem avoid_name_key {key name rest : Bytes} {c : UInt8} (hs : c ∉ key) (hc : c ≠ 47) (hn : (47 : UInt8) ∉ name) (hr : (47 : UInt8) ∉ rest)
    (h : ¬ key <+: name) : Avoid (47 :: key) (b!"/" ++ name ++ c :: rest) := by
  intro i hi s hp
  cases i with
  | succ i =>
    have h0 : (47 : UInt8) ∉ name ++ c :: rest := by simp [hn, hr]; exact fun e => hc e.symm
    exact avoid_head (key := key) h0 i (by simp at hi ⊢; omega) s hp
  | zero =>
    obtain ⟨u, hu⟩ := hp
    simp only [List.drop_zero, List.cons_append, List.nil_append, List.cons.injEq, true_and, List.append_assoc] at hu
    by_cases hl : key.length ≤ name.length
    · apply h
      have := congrArg (List.take key.length) hu
      rw [List.take_left, List.take_append_of_le_length hl] at this
      rw [this]
      exact List.take_prefix _ _
    · apply hs
      have h1 : (name ++ (c :: (rest ++ s)))[name.length]? = some c := by
        rw [List.getElem?_append_right (Nat.le_refl _)]; simp
      rw [← hu, List.getElem?_append_left (by omega)] at h1
      exact List.mem_of_getElem? h1

/-- The text of a standard font as it is read. -/
theorem wrapped_font (n : Int) (name : Bytes) :
    wrapped n (fontText name) = itoa n ++ b!" 0 obj\n<</Type/Font/Subtype/Type1/BaseFont" ++ (b!"/" ++ name ++ 62 :: b!">\nendobj") := by
  simp [wrapped, fontText]

theorem font_avoid {key name : Bytes} (hk : key ∈ fontKeys) (hn : FontName name) (n : Int)
    (hc : clash (47 :: key) b!" 0 obj\n<</Type/Font/Subtype/Type1/BaseFont" = true) : Avoid (47 :: key) (wrapped n (fontText name)) := by
  rw [wrapped_font]
  refine avoid_append (avoid_append (avoid_head (not_mem_itoa n (by decide) (by decide))) (avoid_clash hc))
    (avoid_name_key ?_ (by decide) (fun hm => (fontName_chars hn 47 hm).1 rfl) (by decide) (hn.2.2.1 key hk))
  revert hk
  simp only [fontKeys, List.mem_cons, List.not_mem_nil, or_false]
  rintro (rfl | rfl | rfl | rfl | rfl | rfl) <;> decide

theorem font_subtype {name : Bytes} (hn : FontName name) (n : Int) : xDictValue (wrapped n (fontText name)) b!"/Subtype" = b!"/Type1" := by
  have e : wrapped n (fontText name) = (itoa n ++ b!" 0 obj\n<</Type/Font") ++ (b!"/Subtype" ++ (47 :: (b!"Type1" ++ (b!"/BaseFont/" ++ name ++ b!">>\nendobj")))) := by
    simp [wrapped, fontText]
  have hpre : Avoid b!"/Subtype" (itoa n ++ b!" 0 obj\n<</Type/Font") :=
    avoid_append (avoid_head (not_mem_itoa n (by decide) (by decide))) (avoid_clash (by decide))
  have hpost : Avoid b!"/Subtype" (b!"Subtype/Type1/BaseFont" ++ (b!"/" ++ name ++ 62 :: b!">\nendobj")) :=
    avoid_append (avoid_clash (by decide)) (avoid_name_key (by decide) (by decide) (fun hm => (fontName_chars hn 47 hm).1 rfl) (by decide)
      (hn.2.2.1 _ (by simp [fontKeys])))
  have htok : searchWith (reTok b!"/Subtype") (wrapped n (fontText name)) = none := by
    rw [e, searchWith_avoid (fun s hs => reTok_prefix hs) hpre]
    have e2 : b!"/Subtype" ++ (47 :: (b!"Type1" ++ (b!"/BaseFont/" ++ name ++ b!">>\nendobj"))) =
        47 :: (b!"Subtype/Type1/BaseFont" ++ (b!"/" ++ name ++ 62 :: b!">\nendobj")) := by simp
    have h0 : reTok b!"/Subtype" (b!"/Subtype" ++ (47 :: (b!"Type1" ++ (b!"/BaseFont/" ++ name ++ b!">>\nendobj")))) = none := by
      unfold reTok
      rw [reLit_append, Option.bind_some]
      rfl
    rw [e2] at h0 ⊢
    rw [searchWith, h0]
    simp only
    have := searchWith_avoid (p := reTok b!"/Subtype") (fun s hs => reTok_prefix hs) (s := []) hpost
    rw [List.append_nil] at this
    rw [this]
    rfl
  have hname : searchWith (reName b!"/Subtype") (wrapped n (fontText name)) = some (b!"Type1", b!"/BaseFont/" ++ name ++ b!">>\nendobj") := by
    rw [e, searchWith_avoid (fun s hs => reName_prefix hs) hpre]
    apply searchWith_here
    apply reName_value (by decide) (by decide)
    intro c hc
    simp at hc
    subst hc
    decide
  unfold xDictValue simpleValue
  rw [htok, hname]
  rfl

theorem font_std {name : Bytes} (hn : FontName name) (get : Int → Option Bytes) (unz : Bytes → Option Bytes) (n : Int) :
    fontDecoder get unz (wrapped n (fontText name)) = stdDec := by
  have h1 : xDictValue (wrapped n (fontText name)) b!"/Encoding" = [] := xDict_absent (by decide) (font_avoid (by simp [fontKeys]) hn n (by decide))
  have h2 : xDictValue (wrapped n (fontText name)) b!"/ToUnicode" = [] := xDict_absent (by decide) (font_avoid (by simp [fontKeys]) hn n (by decide))
  have h3 : differencesText (wrapped n (fontText name)) = [] := by
    unfold differencesText
    have := index_avoid (s := []) (font_avoid (key := b!"Differences") (by simp [fontKeys]) hn n (by decide))
    rw [List.append_nil] at this
    rw [this]
    rfl
  unfold fontDecoder applyDiffs
  simp only [h3, if_true, h2]
  unfold baseDecoder
  simp only [h1, ne_eq, not_true_eq_false, if_false, font_subtype hn]
  simp only [true_or, or_true, if_true]
  rfl

theorem font_delimitable {name : Bytes} (hn : FontName name) : Spec.Delimitable (fontText name) := by
  have hw : ∀ {key : Bytes} {c : UInt8}, (62 : UInt8) ∉ c :: key → c ≠ 47 → clash (c :: key) b!"<</Type/Font/Subtype/Type1/BaseFont" = true →
      clash (c :: key) b!">" = true → ¬ (c :: key) <:+: name → Avoid (c :: key) (fontText name) := by
    intro key c h1 h2 h3 h4 h5
    have e : fontText name = b!"<</Type/Font/Subtype/Type1/BaseFont" ++ ((b!"/" ++ name ++ [62]) ++ b!">") := by simp [fontText]
    rw [e]
    refine avoid_append (avoid_clash h3) (avoid_append (avoid_sep h1 (by simp) ?_) (avoid_clash h4))
    rintro ⟨x, y, e⟩
    cases x with
    | nil => simp at e; exact h2 e.1
    | cons a x =>
      simp only [List.cons_append, List.cons.injEq] at e
      exact h5 ⟨x, y, e.2⟩
  refine delimitable_of ?_ ?_ rfl
  · rw [absent_iff (by decide)]
    exact avoid_noOcc (hw (by decide) (by decide) (by decide) (by decide) hn.2.2.2.1) (by decide)
  · rw [absent_iff (by decide)]
    exact avoid_noOcc (hw (by decide) (by decide) (by decide) (by decide) hn.2.2.2.2) (by decide)

/-- Every decoder of a page whose fonts are standard ones is the decoder of a standard font. -/
theorem decoders_std (get : Int → Option Bytes) (unz : Bytes → Option Bytes) (ord : List (Bytes × Int) → List (Bytes × Int))
    (hord : ∀ l, (ord l).Perm l) (p : Builder.Page) (hp : FreePage p)
    (hf : ∀ e ∈ p.fonts, 0 < e.2 ∧ e.2 ≤ 9223372036854775807 ∧ ∃ name, FontName name ∧ get e.2 = some (wrapped e.2 (fontText name))) :
    AllStd (some (fontDecoders get unz (resInner ord p))) := by
  intro m hm k d hd
  simp only [Option.some.injEq] at hm
  subst hm
  unfold fontDecoders at hd
  by_cases h : p.fonts.length > 0
  · rw [fontDict_some ord hord p hp h] at hd
    simp only at hd
    have hmem : ∀ e ∈ ord p.fonts, e ∈ p.fonts := fun e he => (hord _).mem_iff.1 he
    rw [entriesOf_entries (fun e he => ⟨hp.2.2.2 e (by simp [hmem e he]), (hf e (hmem e he)).1, (hf e (hmem e he)).2.1⟩)] at hd
    have key : ∀ (l : List (Bytes × Int)) (m : Map Bytes Decoder), (∀ e ∈ l, e ∈ p.fonts) → (∀ k d, m.get k = some d → d = stdDec) →
        ∀ k d, (l.foldl (fun m e => match get e.2 with | none => m | some s => m.set (b!"/" ++ e.1) (Enc.fontDecoder get unz s)) m).get k = some d →
          d = stdDec := by
      intro l
      induction l with
      | nil => intro m _ hm; exact hm
      | cons e l ih =>
        intro m hl hm
        rw [List.foldl_cons]
        apply ih _ (fun x hx => hl x (by simp [hx]))
        obtain ⟨_, _, name, hn, hg⟩ := hf e (hl e (by simp))
        rw [hg]
        simp only
        intro k d hk
        rw [Map.get_set] at hk
        split at hk
        · simp only [Option.some.injEq] at hk
          rw [← hk]
          exact font_std hn get unz e.2
        · exact hm k d hk
    exact key _ [] hmem (fun k d h => by simp [Map.get] at h) k d hd
  · rw [fontDict_none ord hord p hp h] at hd
    simp [Map.get] at hd

end Pdfer.Extract
