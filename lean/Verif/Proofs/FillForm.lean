import Verif.Spec.Fill
import Verif.Proofs.Fill
import Verif.Proofs.FieldText
import Verif.Proofs.FormsApi
import Verif.Proofs.CryptoDict

/-! Filling forms. -/

namespace Pdfer.Fill

open Pdfer.Go Pdfer.Forms Pdfer.FormsApi Pdfer.Document Pdfer.Spec.Forms Pdfer.Spec.Fill Pdfer.Strings
open Pdfer.Crypto (Avoid avoid_clash avoid_append avoid_head avoid_nil avoid_ite avoid_noOcc)

variable {F S : Type}

theorem get_empty (unz : Bytes → Option Bytes) (n : Int) : Document.getObject unz none [] n = .err := by
  unfold Document.getObject findObjectLocation
  rfl

theorem fill_empty (unz : Bytes → Option Bytes) (a : Attrs) (v : Val) : fillFieldValue (Document.getObject unz none) [] a v = .err := by
  unfold fillFieldValue
  rw [get_empty]
  rfl

theorem direct_empty (src : XFA.Src) (st : St) (a : Attrs) (v : Val) (h : st.file = []) :
    direct src st a v = .ok { st with file := [] } := by
  unfold direct
  rw [h, fill_empty]

/-- A failed replacement cannot be made good. -/
theorem one_empty (src : XFA.Src) (pdf : Bytes) (obj : Int → Res Bytes) (fs : List Field) (st st' : St) (d : Bytes × Val) (h : st.file = [])
    (hs : fillOne src pdf obj fs st d = .ok st') : st'.file = [] := by
  unfold fillOne at hs
  cases hf : findField fs d.1 with
  | none => rw [hf] at hs; simp only at hs; cases hs; exact h
  | some p =>
    obtain ⟨f, full⟩ := p
    rw [hf] at hs
    simp only at hs
    rw [direct_empty src st _ _ h] at hs
    cases ho : obj f.attrs.num with
    | panic => rw [ho] at hs; cases hs
    | err => rw [ho] at hs; cases hs; rfl
    | ok o =>
      rw [ho] at hs
      simp only at hs
      split at hs
      · split at hs
        · cases hs; exact h
        · unfold Res.bind at hs
          split at hs
          · simp only at hs
            split at hs
            · cases hs; exact h
            · cases hs; rfl
          · cases hs
          · cases hs
      · cases hs; rfl

theorem all_empty (src : XFA.Src) (pdf : Bytes) (obj : Int → Res Bytes) (fs : List Field) (data : List (Bytes × Val)) : ∀ (st st' : St), st.file = [] →
    fillAll src pdf obj fs data st = .ok st' → st'.file = [] := by
  induction data with
  | nil => intro st st' h hs; cases hs; exact h
  | cons d ds ih =>
    intro st st' h hs
    rw [fillAll] at hs
    cases h1 : fillOne src pdf obj fs st d with
    | ok st1 => rw [h1] at hs; exact ih st1 st' (one_empty src pdf obj fs st st1 d h h1) hs
    | err => rw [h1] at hs; cases hs
    | panic => rw [h1] at hs; cases hs

theorem rebuild_empty (src : XFA.Src) (zip : Bytes → Bytes) : ∀ (us : List (Nat × List (Int × Bytes))), rebuildAll src zip us [] = .ok [] := by
  intro us
  induction us with
  | nil => rfl
  | cons u us ih =>
    rw [rebuildAll]
    have : rebuildObjectStream (Document.getObject src.unz none) src.unz zip [] u.1 (u.2.foldl (fun m e => m.set e.1 e.2) []) = .err := by
      unfold rebuildObjectStream
      rw [get_empty]
      rfl
    rw [this]
    exact ih

theorem fillFieldValue_ok {get : Bytes → Int → Res Bytes} {b b' : Bytes} {a : Attrs} {v : Val} :
    fillFieldValue get b a v = .ok b' ↔ FilledOne get a v b b' := by
  unfold fillFieldValue FilledOne
  cases hg : get b a.num with
  | err => simp [Res.bind]
  | panic => simp [Res.bind]
  | ok s =>
    cases hs : setValue s v a.ft with
    | none => simp [Res.bind, Res.ofOption, hs]
    | some s' =>
      cases hr : replaceObject b a.num a.gen s' <;> simp [Res.bind, Res.ofOption, hs, hr]

theorem replace_ne {b b' new : Bytes} {n g : Int} (h : replaceObject b n g new = some b') : b' ≠ [] := by
  unfold replaceObject at h
  simp only [Option.bind_eq_some_iff, Option.map_eq_some_iff] at h
  obtain ⟨_, _, _, _, rfl⟩ := h
  simp

/-- The loop, when all fields are direct objects. -/
theorem fillAll_direct (src : XFA.Src) (pdf : Bytes) (obj : Int → Res Bytes) (fs : List Field) (data : List (Bytes × Val))
    (hd : ∀ d ∈ data, ∀ f full, findField fs d.1 = some (f, full) → ∃ o, obj f.attrs.num = .ok o ∧ inStream o f.attrs.num = false) :
    ∀ (st : St) (b : Bytes), st.file ≠ [] → b ≠ [] →
      ((∃ st', fillAll src pdf obj fs data st = .ok st' ∧ st'.file = b) ↔ FilledAll (Document.getObject src.unz none) fs data st.file b) := by
  induction data with
  | nil =>
    intro st b _ _
    constructor
    · rintro ⟨st', h, rfl⟩; cases h; exact .done
    · intro h; cases h; exact ⟨st, rfl, rfl⟩
  | cons d ds ih =>
    have ih := ih (fun d' hd' => hd d' (List.mem_cons_of_mem _ hd'))
    intro st b hne hb
    rw [fillAll]
    cases hf : findField fs d.1 with
    | none =>
      have h1 : fillOne src pdf obj fs st d = .ok st := by unfold fillOne; rw [hf]
      rw [h1]
      simp only [Res.bind]
      rw [ih st b hne hb]
      constructor
      · exact .unknown ((findField_none fs d.1).1 hf)
      · intro h
        cases h with
        | unknown _ h => exact h
        | set hf' _ _ => rw [hf] at hf'; cases hf'
    | some p =>
      obtain ⟨f, full⟩ := p
      obtain ⟨o, ho, hi⟩ := hd d (by simp) f full hf
      have h1 : fillOne src pdf obj fs st d = direct src st f.attrs d.2 := by
        unfold fillOne
        rw [hf]
        simp only [ho, hi, Bool.false_eq_true, if_false]
      rw [h1]
      unfold direct
      cases hr : fillFieldValue (Document.getObject src.unz none) st.file f.attrs d.2 with
      | panic =>
        simp only [Res.bind]
        constructor
        · rintro ⟨_, h, _⟩; cases h
        · intro h
          cases h with
          | unknown hu _ => rw [(findField_none fs d.1).2 hu] at hf; cases hf
          | set hf' h1 _ =>
            rw [hf] at hf'; cases hf'
            rw [fillFieldValue_ok.2 h1] at hr; cases hr
      | err =>
        simp only [Res.bind]
        constructor
        · rintro ⟨st', h, rfl⟩
          exact absurd (all_empty src pdf obj fs ds _ st' rfl h) hb
        · intro h
          cases h with
          | unknown hu _ => rw [(findField_none fs d.1).2 hu] at hf; cases hf
          | set hf' h1 _ =>
            rw [hf] at hf'; cases hf'
            rw [fillFieldValue_ok.2 h1] at hr; cases hr
      | ok m =>
        simp only [Res.bind]
        have hm := fillFieldValue_ok.1 hr
        have hmne : m ≠ [] := by obtain ⟨_, _, _, _, h⟩ := hm; exact replace_ne h
        have := ih { st with file := m } b hmne hb
        rw [this]
        constructor
        · exact .set hf hm
        · intro h
          cases h with
          | unknown hu _ => rw [(findField_none fs d.1).2 hu] at hf; cases hf
          | set hf' h1 h2 =>
            rw [hf] at hf'; cases hf'
            have := fillFieldValue_ok.2 h1
            rw [hr] at this
            cases this
            exact h2

/-- The loop on direct objects never asks for a stream. -/
theorem fillAll_updates (src : XFA.Src) (pdf : Bytes) (obj : Int → Res Bytes) (fs : List Field) (data : List (Bytes × Val))
    (hd : ∀ d ∈ data, ∀ f full, findField fs d.1 = some (f, full) → ∃ o, obj f.attrs.num = .ok o ∧ inStream o f.attrs.num = false) :
    ∀ (st st' : St), fillAll src pdf obj fs data st = .ok st' → st'.updates = st.updates := by
  induction data with
  | nil => intro st st' h; cases h; rfl
  | cons d ds ih =>
    have ih := ih (fun d' hd' => hd d' (List.mem_cons_of_mem _ hd'))
    intro st st' h
    rw [fillAll] at h
    cases hf : findField fs d.1 with
    | none =>
      have h1 : fillOne src pdf obj fs st d = .ok st := by unfold fillOne; rw [hf]
      rw [h1] at h
      exact ih st st' h
    | some p =>
      obtain ⟨f, full⟩ := p
      obtain ⟨o, ho, hi⟩ := hd d (by simp) f full hf
      have h1 : fillOne src pdf obj fs st d = direct src st f.attrs d.2 := by
        unfold fillOne
        rw [hf]
        simp only [ho, hi, Bool.false_eq_true, if_false]
      rw [h1] at h
      unfold direct at h
      cases hr : fillFieldValue (Document.getObject src.unz none) st.file f.attrs d.2 with
      | panic => rw [hr] at h; cases h
      | err => rw [hr] at h; exact (ih { st with file := [] } st' h)
      | ok m => rw [hr] at h; exact (ih { st with file := m } st' h)

/-! ### The text of a built field -/

/-- What stands before the value. -/
def fieldHead (f : FieldDef) : Bytes :=
  b!"<< /FT /" ++ f.type ++
  (if f.name ≠ [] then b!" /T (" ++ escapeFieldValue f.name ++ b!")" else []) ++
  (if f.rect ≠ [] then b!" /Rect [" ++ f.rect ++ b!"]" else []) ++
  (if f.flags ≠ 0 then b!" /Ff " ++ natDec f.flags else [])

/-- What stands behind the value. -/
def fieldTail (f : FieldDef) : Bytes :=
  (if f.dflt ≠ .nil then b!" /DV (" ++ escapeFieldValue (formatFieldValue f.dflt f.type) ++ b!")" else []) ++
  (if f.maxLen > 0 then b!" /MaxLen " ++ natDec f.maxLen else []) ++
  (if f.options ≠ [] then b!" /Opt [" ++ optionTexts f.options ++ b!"]" else [])

theorem fieldText_split (f : FieldDef) : fieldText f = fieldHead f ++
    (if f.value ≠ .nil then b!" /V (" ++ escapeFieldValue (formatFieldValue f.value f.type) ++ b!")" else []) ++ fieldTail f ++ b!" >>" := by
  unfold fieldText fieldHead fieldTail
  simp only [List.append_assoc]

theorem plain47 {s : Bytes} (h : ∀ c ∈ s, PlainChar c) : (47 : UInt8) ∉ s := fun hm => by
  have := h _ hm
  simp [PlainChar] at this

theorem avoid_plain {s : Bytes} (h : ∀ c ∈ s, PlainChar c) : Avoid b!"/V" s := avoid_head (plain47 h)

theorem avoid_fieldHead (f : FieldDef) (hf : PlainField f) : Avoid b!"/V" (fieldHead f) := by
  unfold fieldHead
  have ht : Avoid b!"/V" (b!"<< /FT /" ++ f.type) := by
    have := hf.type
    simp only [List.mem_cons, List.not_mem_nil, or_false] at this
    rcases this with h | h | h | h <;> rw [h] <;> exact avoid_clash (by decide)
  refine avoid_append (avoid_append (avoid_append ht (avoid_ite ?_ (avoid_nil _))) (avoid_ite ?_ (avoid_nil _))) (avoid_ite ?_ (avoid_nil _))
  · rw [escape_plain f.name hf.name]
    exact avoid_append (avoid_append (avoid_clash (by decide)) (avoid_plain hf.name)) (avoid_clash (by decide))
  · exact avoid_append (avoid_append (avoid_clash (by decide)) (avoid_plain hf.rect)) (avoid_clash (by decide))
  · exact avoid_append (avoid_clash (by decide)) (avoid_head (not_mem_natDec (by decide) _))

theorem avoid_fieldTail (f : FieldDef) (hf : PlainField f) : Avoid b!"/V" (fieldTail f) := by
  unfold fieldTail
  refine avoid_append (avoid_append ?_ (avoid_ite ?_ (avoid_nil _))) (avoid_ite ?_ (avoid_nil _))
  · split
    · rename_i h
      rw [escape_plain _ (hf.dflt h)]
      exact avoid_append (avoid_append (avoid_clash (by decide)) (avoid_plain (hf.dflt h))) (avoid_clash (by decide))
    · exact avoid_nil _
  · exact avoid_append (avoid_clash (by decide)) (avoid_head (not_mem_natDec (by decide) _))
  · exact avoid_append (avoid_append (avoid_clash (by decide)) (avoid_head (options_free ⟨by decide, by decide, by decide, by simp [PlainChar]⟩ f.options hf.options)))
      (avoid_clash (by decide))

/-- Setting the value in the text of a built field. -/
theorem setValue_built (f : FieldDef) (hf : PlainField f) (v : Val) (hv : v ≠ .nil)
    (hp : ∀ c ∈ formatFieldValue v f.type, PlainChar c ∧ c ≠ 36) (n : Int) :
    setValue (itoa n ++ b!" 0 obj\n" ++ fieldText f ++ b!"\nendobj") v f.type =
      some (itoa n ++ b!" 0 obj\n" ++ newText f v ++ b!"\nendobj") := by
  have hesc : escapeFieldValue (formatFieldValue v f.type) = formatFieldValue v f.type := escape_plain _ (fun c hc => (hp c hc).1)
  have h47 : (47 : UInt8) ∉ itoa n ++ b!" 0 obj\n" := by
    rw [List.mem_append, not_or]; exact ⟨Incremental.not_mem_itoa _ (by decide) (by decide), by decide⟩
  have hhead : Avoid b!"/V" (itoa n ++ b!" 0 obj\n" ++ fieldHead f) := avoid_append (avoid_head h47) (avoid_fieldHead f hf)
  have htail : Avoid b!"/V" (fieldTail f ++ b!" >>" ++ b!"\nendobj") :=
    avoid_append (avoid_append (avoid_fieldTail f hf) (avoid_clash (by decide))) (avoid_clash (by decide))
  have h36 : (36 : UInt8) ∉ newV v f.type := by
    unfold newV
    rw [hesc]
    simp only [List.mem_append, not_or]
    exact ⟨⟨by decide, fun hm => (hp _ hm).2 rfl⟩, by decide⟩
  unfold newText
  by_cases hval : f.value = .nil
  · rw [if_pos hval]
    have e1 : fieldText f = (fieldHead f ++ fieldTail f ++ b!" ") ++ b!">>" := by
      rw [fieldText_split]; simp [hval]
    have e2 : (fieldText f).dropLast.dropLast = fieldHead f ++ fieldTail f ++ b!" " := by
      rw [e1, show b!">>" = [62] ++ [62] from rfl, ← List.append_assoc, List.dropLast_concat, List.dropLast_concat]
    rw [e2, e1]
    have := setValue_insert (a := itoa n ++ b!" 0 obj\n" ++ (fieldHead f ++ fieldTail f ++ b!" ")) (b := b!"\nendobj") (v := v) (ft := f.type)
      (by
        apply avoid_noOcc _ (by decide)
        have := avoid_append hhead (avoid_append (avoid_append (avoid_fieldTail f hf) (avoid_clash (key := b!"/V") (a := b!" >>") (by decide))) (avoid_clash (key := b!"/V") (a := b!"\nendobj") (by decide)))
        simpa [List.append_assoc] using this)
      (by decide)
    rw [show itoa n ++ b!" 0 obj\n" ++ ((fieldHead f ++ fieldTail f ++ b!" ") ++ b!">>") ++ b!"\nendobj" =
      (itoa n ++ b!" 0 obj\n" ++ (fieldHead f ++ fieldTail f ++ b!" ")) ++ b!">>" ++ b!"\nendobj" by simp only [List.append_assoc], this]
    unfold newV
    rw [hesc]
    simp
  · rw [if_neg hval]
    have ho : (41 : UInt8) ∉ escapeFieldValue (formatFieldValue f.value f.type) := by
      rw [escape_plain _ (hf.value hval)]
      intro hm
      have := hf.value hval _ hm
      simp [PlainChar] at this
    have := setValue_replace (a := itoa n ++ b!" 0 obj\n" ++ fieldHead f ++ b!" ") (w := b!" ") (b := fieldTail f ++ b!" >>" ++ b!"\nendobj") (v := v) (ft := f.type)
      (avoid_noOcc (avoid_append hhead (avoid_clash (by decide))) (by decide)) (by intro c hc; simp at hc; subst hc; simp [Spec.Manipulate.White]) ho
      (avoid_noOcc htail (by decide)) h36
    have e1 : itoa n ++ b!" 0 obj\n" ++ fieldText f ++ b!"\nendobj" =
        (itoa n ++ b!" 0 obj\n" ++ fieldHead f ++ b!" ") ++ (b!"/V" ++ b!" " ++ b!"(" ++ escapeFieldValue (formatFieldValue f.value f.type) ++ b!")") ++
          (fieldTail f ++ b!" >>" ++ b!"\nendobj") := by
      rw [fieldText_split, if_pos hval]
      simp
    rw [e1, this]
    have e2 : fieldText { f with value := v } = fieldHead f ++ (b!" /V (" ++ escapeFieldValue (formatFieldValue v f.type) ++ b!")") ++ fieldTail f ++ b!" >>" := by
      rw [fieldText_split, if_pos (by exact hv)]
      rfl
    rw [e2]
    unfold newV
    simp

end Pdfer.Fill
