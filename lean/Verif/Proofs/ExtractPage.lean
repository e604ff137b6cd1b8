import Verif.Proofs.ExtractText

/-! Reading a built page, its fonts and its content. -/

namespace Pdfer.Extract

open Pdfer.Go Pdfer.Enc Pdfer.Content Pdfer.Manipulate Pdfer.Spec.Manipulate Pdfer.Spec.Content Pdfer.Spec.Extract Pdfer.Crypto Pdfer.Builder Pdfer.Writer
  Pdfer.Spec.Builder Pdfer.Outline Pdfer.Incremental

variable {F : Type}

theorem freeName_chars {name : Bytes} (h : FreeName name) : ∀ c ∈ name, Forms.reWord c = true ∧ c ≠ 47 ∧ c ≠ 60 ∧ c ≠ 62 := by
  intro c hc
  have h1 := h.2.1 c hc
  have : ∀ c : UInt8, ((48 ≤ c ∧ c ≤ 57) ∨ (65 ≤ c ∧ c ≤ 90) ∨ (97 ≤ c ∧ c ≤ 122) ∨ c = 95) → Forms.reWord c = true ∧ c ≠ 47 ∧ c ≠ 60 ∧ c ≠ 62 := by
    intro c
    exact forall_byte (p := fun c => ((48 ≤ c ∧ c ≤ 57) ∨ (65 ≤ c ∧ c ≤ 90) ∨ (97 ≤ c ∧ c ≤ 122) ∨ c = 95) → Forms.reWord c = true ∧ c ≠ 47 ∧ c ≠ 60 ∧ c ≠ 62)
      (by decide +kernel) c
  exact this c h1

theorem fontName_chars {name : Bytes} (h : FontName name) : ∀ c ∈ name, c ≠ 47 ∧ c ≠ 60 ∧ c ≠ 62 ∧ reSpace c = false := by
  intro c hc
  have h1 := h.2.1 c hc
  have : ∀ c : UInt8, ((48 ≤ c ∧ c ≤ 57) ∨ (65 ≤ c ∧ c ≤ 90) ∨ (97 ≤ c ∧ c ≤ 122) ∨ c = 45) → c ≠ 47 ∧ c ≠ 60 ∧ c ≠ 62 ∧ reSpace c = false := by
    intro c
    exact forall_byte (p := fun c => ((48 ≤ c ∧ c ≤ 57) ∨ (65 ≤ c ∧ c ≤ 90) ∨ (97 ≤ c ∧ c ≤ 122) ∨ c = 45) → c ≠ 47 ∧ c ≠ 60 ∧ c ≠ 62 ∧ reSpace c = false)
      (by decide +kernel) c
  exact this c h1

theorem freePage_plain {p : Builder.Page} (h : FreePage p) : PlainPage p := by
  refine ⟨h.2.2.1, fun e he => ?_⟩
  have := h.2.2.2 e he
  exact ⟨fun hm => (freeName_chars this 47 hm).2.1 rfl, this.2.2.1 _ (by simp [pageKeys]), this.2.2.2.1, this.2.2.2.2⟩

theorem avoid_free {key name : Bytes} (hk : key ∈ pageKeys) (h : FreeName name) : Avoid (47 :: key) (b!"/" ++ name ++ b!" ") := by
  refine avoid_entry_key ?_ (fun hm => (freeName_chars h 47 hm).2.1 rfl) (h.2.2.1 key hk)
  revert hk
  simp only [pageKeys, List.mem_cons, List.not_mem_nil, or_false]
  rintro (rfl | rfl | rfl | rfl | rfl | rfl | rfl | rfl) <;> decide

/-- The beginning of a page as it is read. -/
def pageHead (n : Int) : Bytes := itoa n ++ b!" 0 obj\n<</Type/Page/Parent "

theorem wrapped_page (ord : List (Bytes × Int) → List (Bytes × Int)) (n parent contents : Int) (p : Builder.Page) :
    wrapped n (pageText ord parent contents p) = pageHead n ++ pageRest ord parent contents p ++ b!"\nendobj" := by
  rw [wrapped, pageText_eq, pageHead]; simp

theorem avoid_pageHead {key : Bytes} (n : Int) (h : clash (47 :: key) b!" 0 obj\n<</Type/Page/Parent " = true) : Avoid (47 :: key) (pageHead n) :=
  avoid_append (avoid_head (not_mem_itoa n (by decide) (by decide))) (avoid_clash h)

/-- A key that a page does not have. -/
theorem page_avoid {key : Bytes} (hk : key ∈ pageKeys) (ord : List (Bytes × Int) → List (Bytes × Int)) (hord : ∀ l, (ord l).Perm l)
    (n parent contents : Int) (p : Builder.Page) (hp : FreePage p)
    (k0 : clash (47 :: key) b!" 0 obj\n<</Type/Page/Parent " = true) (k1 : clash (47 :: key) b!"/Resources<<" = true)
    (k2 : clash (47 :: key) b!"/Font<<" = true) (k3 : clash (47 :: key) b!"/XObject<<" = true)
    (k6 : clash (47 :: key) b!"/MediaBox[0 0 " = true) (k8 : clash (47 :: key) b!"]/Contents " = true) :
    Avoid (47 :: key) (wrapped n (pageText ord parent contents p)) := by
  rw [wrapped_page]
  refine avoid_append (avoid_append (avoid_pageHead n k0) ?_) (avoid_head (by decide))
  exact avoid_pageRest (by decide) (by decide) (by decide) (by decide) ord hord parent contents p (freePage_plain hp)
    (fun e he => avoid_free hk (hp.2.2.2 e he)) k1 k2 k3 (avoid_lit_angle key) k6 (avoid_lit_space key) k8
where
  avoid_lit_angle (key : Bytes) : clash (47 :: key) b!">>" = true := by cases key <;> rfl
  avoid_lit_space (key : Bytes) : clash (47 :: key) b!" " = true := by cases key <;> rfl

theorem array_absent (fl : XFloats F) {key s : Bytes} (hk : key ≠ []) (h : Avoid key s) : arrayValue fl s key = [] := by
  unfold arrayValue
  have hp : ∀ s, reArr key s ≠ none → key <+: s := by
    intro s hs
    apply reLit_prefix
    intro e
    apply hs
    unfold reArr
    rw [e]
    rfl
  have := searchWith_avoid hp (s := []) h
  rw [List.append_nil] at this
  rw [this]
  have h0 : searchWith (reArr key) [] = none := by
    rw [searchWith]
    cases hr : reArr key [] with
    | none => rfl
    | some v => exact absurd (List.prefix_nil.1 (hp [] (by rw [hr]; simp))) hk
  rw [h0]

theorem page_absent_keys (fl : XFloats F) (ord : List (Bytes × Int) → List (Bytes × Int)) (hord : ∀ l, (ord l).Perm l)
    (n parent contents : Int) (p : Builder.Page) (hp : FreePage p) :
    let t := wrapped n (pageText ord parent contents p)
    arrayValue fl t b!"/CropBox" = [] ∧ xDictValue t b!"/Rotate" = [] ∧ xDictValue t b!"/Annots" = [] := by
  intro t
  refine ⟨array_absent fl (by decide) ?_, xDict_absent (by decide) ?_, xDict_absent (by decide) ?_⟩ <;>
    exact page_avoid (by simp [pageKeys]) ord hord n parent contents p hp (by decide) (by decide) (by decide) (by decide) (by decide) (by decide)

theorem digit_facts : ∀ c : UInt8, isDigit c = true → isSpace c = false ∧ c ≠ 93 ∧ c ≠ 91 ∧ c ≠ 47 := by
  intro c
  exact forall_byte (p := fun c => isDigit c = true → isSpace c = false ∧ c ≠ 93 ∧ c ≠ 91 ∧ c ≠ 47) (by decide +kernel) c

theorem page_box (fl : XFloats F) (ord : List (Bytes × Int) → List (Bytes × Int)) (n parent contents : Int) (p : Builder.Page) (hp : FreePage p) :
    arrayValue fl (wrapped n (pageText ord parent contents p)) b!"/MediaBox" = [b!"0", b!"0", p.width, p.height].filterMap fl.parse := by
  have hw : ∀ x ∈ p.width, isDigit x = true := fun x hx => hp.2.2.1 x (by simp [hx])
  have hh : ∀ x ∈ p.height, isDigit x = true := fun x hx => hp.2.2.1 x (by simp [hx])
  have e : wrapped n (pageText ord parent contents p) = (pageHead n ++ ref parent) ++ (b!"/MediaBox" ++ (b!"[" ++ ((b!"0 0 " ++ p.width ++ b!" " ++ p.height) ++
      (b!"]" ++ (b!"/Contents " ++ ref contents ++ (b!"/Resources" ++ resources ord p) ++ b!">>\nendobj"))))) := by
    rw [wrapped_page, pageRest]; simp
  have hpre : ∀ s, reArr b!"/MediaBox" s ≠ none → b!"/MediaBox" <+: s := by
    intro s hs
    apply reLit_prefix
    intro e
    apply hs
    unfold reArr
    rw [e]
    rfl
  have hin : ∀ c ∈ b!"0 0 " ++ p.width ++ b!" " ++ p.height, decide (c ≠ 93) = true := by
    intro c hc
    simp only [List.mem_append] at hc
    rcases hc with ((hc | hc) | hc) | hc
    · revert hc; simp only [List.mem_cons, List.not_mem_nil, or_false]; rintro (rfl | rfl | rfl | rfl) <;> decide
    · simpa using (digit_facts c (hw c hc)).2.1
    · simp only [List.mem_singleton] at hc; subst hc; decide
    · simpa using (digit_facts c (hh c hc)).2.1
  have hrest : ∀ (r : Bytes) c, (b!"]" ++ r).head? = some c → decide (c ≠ 93) = false := by
    intro r c hc
    simp at hc
    subst hc
    decide
  unfold arrayValue
  rw [e, searchWith_avoid hpre (avoid_append (avoid_pageHead n (by decide)) (avoid_ref (by decide) (by decide) (by decide) (by decide) parent)),
    searchWith_here (α := Bytes) (a := b!"0 0 " ++ p.width ++ b!" " ++ p.height)]
  · simp only
    have : fields (b!"0 0 " ++ p.width ++ b!" " ++ p.height) = [b!"0", b!"0", p.width, p.height] := by
      have e2 : b!"0 0 " ++ p.width ++ b!" " ++ p.height = b!"0" ++ 32 :: (b!"0" ++ 32 :: (p.width ++ 32 :: p.height)) := by simp
      rw [e2, fields_word_space _ (by decide) (by decide) _ (by decide), fields_word_space _ (by decide) (by decide) _ (by decide),
        fields_word_space _ (fun c hc => (digit_facts c (hw c hc)).1) hp.1 _ (by decide),
        fields_word _ (fun c hc => (digit_facts c (hh c hc)).1) hp.2.1]
    rw [this]
  · unfold reArr
    rw [reLit_append, Option.bind_some]
    have : reSp0 (b!"[" ++ ((b!"0 0 " ++ p.width ++ b!" " ++ p.height) ++ (b!"]" ++ (b!"/Contents " ++ ref contents ++ (b!"/Resources" ++ resources ord p) ++ b!">>\nendobj")))) =
      b!"[" ++ ((b!"0 0 " ++ p.width ++ b!" " ++ p.height) ++ (b!"]" ++ (b!"/Contents " ++ ref contents ++ (b!"/Resources" ++ resources ord p) ++ b!">>\nendobj"))) := rfl
    rw [this, reLit_append, Option.bind_some, takeWhile_all hin (hrest _), dropWhile_all hin (hrest _), if_neg (by simp), reLit_append]
    rfl

theorem page_contents (ord : List (Bytes × Int) → List (Bytes × Int)) (n parent contents : Int) (p : Builder.Page) (hp : FreePage p)
    (hc : 0 < contents) : xDictValue (wrapped n (pageText ord parent contents p)) b!"/Contents" = natDec contents.toNat := by
  have hw : ∀ x ∈ p.width, isDigit x = true := fun x hx => hp.2.2.1 x (by simp [hx])
  have hh : ∀ x ∈ p.height, isDigit x = true := fun x hx => hp.2.2.1 x (by simp [hx])
  have e : wrapped n (pageText ord parent contents p) = (pageHead n ++ ref parent ++ b!"/MediaBox[0 0 " ++ p.width ++ b!" " ++ p.height ++ b!"]") ++
      (b!"/Contents" ++ (b!" " ++ (natDec contents.toNat ++ (b!" 0 R" ++ (b!"/Resources" ++ resources ord p) ++ b!">>\nendobj")))) := by
    rw [wrapped_page, pageRest, ref_toNat hc]; simp [refText]
  rw [e]
  refine xDict_value (by decide) ?_ (by decide) ?_ (itoa_token contents.toNat) ?_
  · apply avoid_noOcc _ (by decide)
    refine avoid_append (avoid_append (avoid_append (avoid_append (avoid_append (avoid_append (avoid_pageHead n (by decide)) ?_) (avoid_clash (by decide)))
      (avoid_digits (by decide) hw)) (avoid_clash (by decide))) (avoid_digits (by decide) hh)) (avoid_clash (by decide))
    exact avoid_ref (by decide) (by decide) (by decide) (by decide) parent
  · intro c hc; simp at hc; subst hc; simp [Spec.Manipulate.White]
  · intro c hc
    simp at hc
    subst hc
    exact .inl (.inl rfl)

/-- The inside of the resources. -/
def resInner (ord : List (Bytes × Int) → List (Bytes × Int)) (p : Builder.Page) : Bytes :=
  (if p.fonts.length > 0 then b!"/Font<<" ++ entries (ord p.fonts) ++ b!">>" else []) ++
  (if p.images.length > 0 then b!"/XObject<<" ++ entries (ord p.images) ++ b!">>" else [])

theorem resources_inner (ord : List (Bytes × Int) → List (Bytes × Int)) (p : Builder.Page) :
    resources ord p = b!"<<" ++ (resInner ord p ++ b!">>") := by
  unfold resources resInner; simp

theorem dictBody_char {c : UInt8} (hc : c ≠ 60 ∧ c ≠ 62) (d : Nat) (r : Bytes) : dictBody d (c :: r) = (dictBody d r).map (fun t => c :: t) := by
  cases r with
  | nil => simp [dictBody]
  | cons x r =>
    rw [dictBody]
    · intro h; exact absurd h (by simp)
    · intro r' h1 _; exact hc.2 h1
    · intro r' h1 _; exact hc.1 h1

theorem dictBody_flat {a : Bytes} (h : ∀ c ∈ a, c ≠ 60 ∧ c ≠ 62) (d : Nat) (r : Bytes) : dictBody d (a ++ r) = (dictBody d r).map (fun t => a ++ t) := by
  induction a with
  | nil => simp
  | cons c a ih =>
    rw [List.cons_append, dictBody_char (h c (by simp)), ih fun x hx => h x (by simp [hx])]
    cases dictBody d r <;> rfl

theorem dictBody_open (d : Nat) (r : Bytes) : dictBody d (60 :: 60 :: r) = (dictBody (d + 1) r).map (fun t => 60 :: 60 :: t) := by rw [dictBody]
theorem dictBody_close (d : Nat) (r : Bytes) (hd : d ≠ 1) : dictBody d (62 :: 62 :: r) = (dictBody (d - 1) r).map (fun t => 62 :: 62 :: t) := by
  rw [dictBody, if_neg hd]
theorem dictBody_end (r : Bytes) : dictBody 1 (62 :: 62 :: r) = some [] := by rw [dictBody, if_pos rfl]

/-- A nested dictionary without dictionaries in it. -/
theorem dictBody_nested {k a : Bytes} (hk : ∀ c ∈ k, c ≠ 60 ∧ c ≠ 62) (ha : ∀ c ∈ a, c ≠ 60 ∧ c ≠ 62) (r : Bytes) :
    dictBody 1 ((k ++ b!"<<" ++ a ++ b!">>") ++ r) = (dictBody 1 r).map (fun t => (k ++ b!"<<" ++ a ++ b!">>") ++ t) := by
  have e : (k ++ b!"<<" ++ a ++ b!">>") ++ r = k ++ (60 :: 60 :: (a ++ (62 :: 62 :: r))) := by simp
  rw [e, dictBody_flat hk, dictBody_open, dictBody_flat ha, dictBody_close _ _ (by omega)]
  cases dictBody (1 + 1 - 1) r with
  | none => rfl
  | some t => simp

theorem ref_flat (n : Int) : ∀ c ∈ ref n, c ≠ 60 ∧ c ≠ 62 := by
  intro c hc
  refine ⟨?_, ?_⟩ <;> rintro rfl
  · exact absurd hc (by
      unfold ref
      simp only [List.mem_append, not_or]
      exact ⟨not_mem_itoa n (by decide) (by decide), by decide⟩)
  · exact absurd hc (by
      unfold ref
      simp only [List.mem_append, not_or]
      exact ⟨not_mem_itoa n (by decide) (by decide), by decide⟩)

theorem entries_flat {l : List (Bytes × Int)} (h : ∀ e ∈ l, FreeName e.1) : ∀ c ∈ entries l, c ≠ 60 ∧ c ≠ 62 := by
  intro c hc
  unfold entries at hc
  rw [List.mem_flatten] at hc
  obtain ⟨x, hx, hc⟩ := hc
  obtain ⟨e, he, rfl⟩ := List.mem_map.1 hx
  simp only [List.mem_append] at hc
  rcases hc with ((hc | hc) | hc) | hc
  · simp only [List.mem_singleton] at hc; subst hc; decide
  · exact (freeName_chars (h e he) c hc).2.2
  · simp only [List.mem_singleton] at hc; subst hc; decide
  · exact ref_flat _ c hc

theorem dictBody_inner (ord : List (Bytes × Int) → List (Bytes × Int)) (hord : ∀ l, (ord l).Perm l) (p : Builder.Page) (hp : FreePage p) (r : Bytes) :
    dictBody 1 (resInner ord p ++ (62 :: 62 :: r)) = some (resInner ord p) := by
  have hf : ∀ c ∈ entries (ord p.fonts), c ≠ 60 ∧ c ≠ 62 := entries_flat fun e he => hp.2.2.2 e (by
    rw [List.mem_append]; exact .inl ((hord _).mem_iff.1 he))
  have hi : ∀ c ∈ entries (ord p.images), c ≠ 60 ∧ c ≠ 62 := entries_flat fun e he => hp.2.2.2 e (by
    rw [List.mem_append]; exact .inr ((hord _).mem_iff.1 he))
  have h2 : dictBody 1 ((if p.images.length > 0 then b!"/XObject<<" ++ entries (ord p.images) ++ b!">>" else []) ++ (62 :: 62 :: r)) =
      some (if p.images.length > 0 then b!"/XObject<<" ++ entries (ord p.images) ++ b!">>" else []) := by
    split
    · have := dictBody_nested (k := b!"/XObject") (by decide) hi (62 :: 62 :: r)
      rw [dictBody_end] at this
      simpa using this
    · exact dictBody_end r
  unfold resInner
  rw [List.append_assoc]
  by_cases h : p.fonts.length > 0
  · rw [if_pos h]
    have := dictBody_nested (k := b!"/Font") (by decide) hf ((if p.images.length > 0 then b!"/XObject<<" ++ entries (ord p.images) ++ b!">>" else []) ++ (62 :: 62 :: r))
    rw [h2] at this
    simpa using this
  · rw [if_neg h]
    exact h2

theorem page_resources (get : Int → Option Bytes) (ord : List (Bytes × Int) → List (Bytes × Int)) (hord : ∀ l, (ord l).Perm l)
    (n parent contents : Int) (p : Builder.Page) (hp : FreePage p) :
    xDictValue (wrapped n (pageText ord parent contents p)) b!"/Resources" = [] ∧
      resourcesText get (wrapped n (pageText ord parent contents p)) = resInner ord p := by
  have hw : ∀ x ∈ p.width, isDigit x = true := fun x hx => hp.2.2.1 x (by simp [hx])
  have hh : ∀ x ∈ p.height, isDigit x = true := fun x hx => hp.2.2.1 x (by simp [hx])
  have e : wrapped n (pageText ord parent contents p) = (pageHead n ++ ref parent ++ b!"/MediaBox[0 0 " ++ p.width ++ b!" " ++ p.height ++ b!"]/Contents " ++ ref contents) ++
      (b!"/Resources" ++ (60 :: 60 :: (resInner ord p ++ (62 :: 62 :: b!">>\nendobj")))) := by
    rw [wrapped_page, pageRest, resources_inner]; simp
  have hr := fun k => avoid_ref (key := b!"Resources") (c := 47) (by decide) (by decide) (by decide) (by decide) k
  have hpre : Avoid b!"/Resources" (pageHead n ++ ref parent ++ b!"/MediaBox[0 0 " ++ p.width ++ b!" " ++ p.height ++ b!"]/Contents " ++ ref contents) :=
    avoid_append (avoid_append (avoid_append (avoid_append (avoid_append (avoid_append (avoid_append (avoid_pageHead n (by decide)) (hr parent)) (avoid_clash (by decide)))
      (avoid_digits (by decide) hw)) (avoid_clash (by decide))) (avoid_digits (by decide) hh)) (avoid_clash (by decide))) (hr contents)
  have hent : ∀ l : List (Bytes × Int), (∀ e ∈ l, FreeName e.1) → Avoid b!"/Resources" (entries (ord l)) := by
    intro l hl
    apply Builder.avoid_entries
    intro e he
    exact ⟨avoid_free (by simp [pageKeys]) (hl e ((hord l).mem_iff.1 he)), hr _⟩
  have hfree : ∀ e ∈ p.fonts, FreeName e.1 := fun e he => hp.2.2.2 e (by simp [he])
  have hfree2 : ∀ e ∈ p.images, FreeName e.1 := fun e he => hp.2.2.2 e (by simp [he])
  have hpost : Avoid b!"/Resources" (b!"Resources<<" ++ (resInner ord p ++ b!">>>>\nendobj")) := by
    refine avoid_append (avoid_clash (by decide)) (avoid_append ?_ (avoid_clash (by decide)))
    unfold resInner
    refine avoid_append (avoid_ite ?_ (avoid_nil _)) (avoid_ite ?_ (avoid_nil _))
    · exact avoid_append (avoid_append (avoid_clash (by decide)) (hent _ hfree)) (avoid_clash (by decide))
    · exact avoid_append (avoid_append (avoid_clash (by decide)) (hent _ hfree2)) (avoid_clash (by decide))
  have hnone : ∀ {α : Type} (q : Bytes → Option α), (∀ s, q s ≠ none → b!"/Resources" <+: s) →
      q (b!"/Resources" ++ (60 :: 60 :: (resInner ord p ++ (62 :: 62 :: b!">>\nendobj")))) = none →
      searchWith q (wrapped n (pageText ord parent contents p)) = none := by
    intro α q hq h0
    rw [e, searchWith_avoid hq hpre]
    have e2 : b!"/Resources" ++ (60 :: 60 :: (resInner ord p ++ (62 :: 62 :: b!">>\nendobj"))) =
        47 :: (b!"Resources<<" ++ (resInner ord p ++ b!">>>>\nendobj")) := by simp
    rw [e2] at h0 ⊢
    rw [searchWith, h0]
    simp only
    have := searchWith_avoid hq (s := []) hpost
    rw [List.append_nil] at this
    rw [this, searchWith]
    cases hx : q [] with
    | none => rfl
    | some v => exact absurd (List.prefix_nil.1 (hq [] (by rw [hx]; simp))) (by decide)
  have hx : xDictValue (wrapped n (pageText ord parent contents p)) b!"/Resources" = [] := by
    unfold xDictValue simpleValue
    rw [hnone (reTok b!"/Resources") (fun s hs => reTok_prefix hs) rfl, hnone (reName b!"/Resources") (fun s hs => reName_prefix hs) rfl,
      hnone (reArr b!"/Resources") (fun s hs => by
        apply reLit_prefix
        intro e
        apply hs
        unfold reArr
        rw [e]
        rfl) rfl]
    rfl
  refine ⟨hx, ?_⟩
  unfold resourcesText
  simp only [hx, ne_eq, not_true_eq_false, if_false]
  unfold inlineDict
  have hidx : index b!"/Resources" (wrapped n (pageText ord parent contents p)) =
      some (pageHead n ++ ref parent ++ b!"/MediaBox[0 0 " ++ p.width ++ b!" " ++ p.height ++ b!"]/Contents " ++ ref contents).length := by
    rw [e]
    exact index_first (by decide) (avoid_noOcc hpre (by decide))
  rw [hidx]
  simp only
  rw [e, ← List.length_append, List.drop_append, List.drop_of_length_le (by simp), List.nil_append, List.length_append, Nat.add_sub_cancel_left,
    List.drop_left]
  have : skipWs (60 :: 60 :: (resInner ord p ++ (62 :: 62 :: b!">>\nendobj"))) = 60 :: 60 :: (resInner ord p ++ (62 :: 62 :: b!">>\nendobj")) := by
    simp [skipWs]
  rw [this]
  simp only
  rw [dictBody_inner ord hord p hp]
  rfl

end Pdfer.Extract
