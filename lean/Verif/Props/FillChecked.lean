import Verif.Props.Fill
import Verif.Props.Forms

/-! C163: filling with a check of the data. -/

namespace Pdfer.Props

open Pdfer.Go Pdfer.Spec Pdfer.Forms Pdfer.Fill Pdfer.Spec.Forms Pdfer.FormsApi Pdfer.Spec.Fill

variable {F S : Type}

/-- C163: ExtractAndFill produces exactly what FillForm produces - the file, the error or the crash -, for every file and all data: the check
neither stops nor changes anything. -/
theorem C163_same_file (c : Ctx F S) (zip : Bytes → Bytes) (pdf : Bytes) (data : List (Bytes × Val)) :
    (extractAndFill c zip pdf data).2 = fillForm c zip pdf data := by
  unfold extractAndFill fillForm
  by_cases h0 : pdf = []
  · subst h0
    have : extractAcroForm c [] = .err := by
      unfold extractAcroForm Incremental.openPdf
      rfl
    rw [this, if_pos rfl]
  · cases h : extractAcroForm c pdf with
    | ok fs => rw [if_neg h0]
    | err =>
      rw [if_neg h0]
      unfold extractAcroForm at h
      cases ho : Incremental.openPdf c.env pdf with
      | ok p => rfl
      | err => rfl
      | panic => rw [ho] at h; cases h
    | panic =>
      rw [if_neg h0]
      unfold extractAcroForm at h
      cases ho : Incremental.openPdf c.env pdf with
      | ok p => rfl
      | panic => rfl
      | err => rw [ho] at h; cases h

/-- C163: FillFormFromSchema, too. -/
theorem C163_same_file_schema (c : Ctx F S) (zip : Bytes → Bytes) (ck : Checks F) (pdf : Bytes) (qs : List (Question F)) (data : List (Bytes × Val)) :
    (fillFromSchema c zip ck pdf qs data).2 = fillForm c zip pdf data := rfl

/-- C163: ExtractAndFill has nothing to warn of exactly when the form cannot be extracted or all data is for fields of the form and keeps
their limits and all required fields are given. -/
theorem C163_warnings (c : Ctx F S) (zip : Bytes → Bytes) (pdf : Bytes) (data : List (Bytes × Val)) :
    (extractAndFill c zip pdf data).1 = [] ↔
      ∀ fs, extractAcroForm c pdf = .ok fs →
        (∀ d ∈ data, ∃ f full, findField fs d.1 = some (f, full) ∧ Accepts f.attrs d.2) ∧
        (∀ full f, FieldAt2 fs full f → Flag f.attrs.ff 2 → full ∈ data.map (·.1)) := by
  unfold extractAndFill
  cases h : extractAcroForm c pdf with
  | panic => simp
  | err => simp
  | ok fs =>
    simp only [Res.ok.injEq, forall_eq']
    exact C48_validate fs data

/-- C163: FillFormFromSchema has nothing to warn of exactly when the data keeps the rules of the schema. -/
theorem C163_warnings_schema (c : Ctx F S) (zip : Bytes → Bytes) (ck : Checks F) (pdf : Bytes) (qs : List (Question F)) (data : List (Bytes × Val)) :
    (fillFromSchema c zip ck pdf qs data).1 = [] ↔
      (∀ d ∈ data, ∃ q, LastNamed qs d.1 q ∧ Keeps ck q d.2) ∧ (∀ q ∈ qs, q.required = true → q.name ∈ data.map (·.1)) :=
  C128_valid ck qs data

/-- Data for a field that does not exist: a warning and the file. -/
example : ((extractAndFill exCtx id acroFile [(b!"zz", .str b!"new")]).1.length, bytesOf (extractAndFill exCtx id acroFile [(b!"zz", .str b!"new")]).2) =
    (1, acroFile) := by decide +kernel
/-- Data for a field that exists: no warning. -/
example : (extractAndFill exCtx id acroFile [(b!"n", .str b!"new")]).1.length = 0 := by decide +kernel

end Pdfer.Props
