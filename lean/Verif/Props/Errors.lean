import Verif.Model.Errors

/-! C110, C111: the errors of the library. -/

namespace Pdfer.Props

open Pdfer.Go Pdfer.Errors

/-- `b` is `a` or among the errors `a` wraps, directly or not. -/
inductive Within : Err → Err → Prop
  | self (e : Err) : Within e e
  | inner {a b c : Err} : unwrap a = some b → Within b c → Within a c

/-- C110: `errors.Is` with a sentinel error finds exactly the codes in the chain of an error: it is true when the error, or one it wraps at
any depth, has the code of the sentinel, and only then. -/
theorem C110_is (code : Bytes) : ∀ e : Err, errorsIs code e = true ↔ ∃ m c, Within e (.pdf code m c)
  | .pdf k m none => by
    simp only [errorsIs, beq_iff_eq]
    constructor
    · rintro rfl; exact ⟨m, none, .self _⟩
    · rintro ⟨m', c', h⟩
      cases h with
      | self => rfl
      | inner h _ => simp [unwrap] at h
  | .pdf k m (some e) => by
    have ih := C110_is code e
    simp only [errorsIs, Bool.or_eq_true, beq_iff_eq, ih]
    constructor
    · rintro (rfl | ⟨m', c', h⟩)
      · exact ⟨m, some e, .self _⟩
      · exact ⟨m', c', .inner rfl h⟩
    · rintro ⟨m', c', h⟩
      cases h with
      | self => exact .inl rfl
      | inner h h2 => simp [unwrap] at h; subst h; exact .inr ⟨m', c', h2⟩
  | .other t none => by
    simp only [errorsIs, Bool.false_eq_true, false_iff]
    rintro ⟨m', c', h⟩
    cases h with
    | inner h _ => simp [unwrap] at h
  | .other t (some e) => by
    have ih := C110_is code e
    simp only [errorsIs, ih]
    constructor
    · rintro ⟨m', c', h⟩; exact ⟨m', c', .inner rfl h⟩
    · rintro ⟨m', c', h⟩
      cases h with
      | inner h h2 => simp [unwrap] at h; subst h; exact ⟨m', c', h2⟩

/-- C110: wrapping keeps what was there: an error wrapped by `WrapError`, at any depth, is still found by `errors.Is`, and its text is at the end
of the text of the wrapper, after the code in brackets and the message. -/
theorem C110_wrap (code msg target : Bytes) (e : Err) :
    (errorsIs target e = true → errorsIs target (wrapError code msg (some e)) = true) ∧ errorsIs code (wrapError code msg (some e)) = true ∧
    text (wrapError code msg (some e)) = b!"[" ++ code ++ b!"] " ++ msg ++ b!": " ++ text e := by
  refine ⟨fun h => by simp [wrapError, errorsIs, h], by simp [wrapError, errorsIs], rfl⟩

/-- C110: the text of every error in a chain of PDFErrors is part of the text of the outer one: no message is lost by wrapping. -/
theorem C110_text {e i : Err} (h : Within e i) (hp : ∀ x, Within e x → ∃ c m d, x = .pdf c m d) : text i <:+ text e := by
  induction h with
  | self e => exact List.suffix_refl _
  | @inner a b c hu hw ih =>
    obtain ⟨k, m, d, rfl⟩ := hp a (.self a)
    simp only [unwrap] at hu
    subst hu
    have h1 := ih fun x hx => hp x (.inner rfl hx)
    exact h1.trans ⟨b!"[" ++ k ++ b!"] " ++ m ++ b!": ", by simp [text]⟩

/-- C111 (partial: one direction): what the helpers report is true of the chain: an error for which `IsNotFound`, `IsEncryptionError` or
`IsValidationError` is true has such a code, so `errors.Is` finds it; and `GetErrorCode` returns a code that `errors.Is` finds. -/
theorem C111_sound_partial (e : Err) :
    (isNotFound e = true → errorsIs b!"OBJECT_NOT_FOUND" e = true ∨ errorsIs b!"FIELD_NOT_FOUND" e = true) ∧
    (isEncryptionError e = true → errorsIs b!"ENCRYPTED" e = true ∨ errorsIs b!"DECRYPTION_FAILED" e = true ∨ errorsIs b!"WRONG_PASSWORD" e = true ∨
      errorsIs b!"UNSUPPORTED_CRYPTO" e = true) ∧
    (isValidationError e = true → errorsIs b!"VALIDATION_ERROR" e = true ∨ errorsIs b!"INVALID_VALUE" e = true) ∧
    (∀ c, getCode e = some c → errorsIs c e = true) := by
  cases e with
  | other t c => simp [isNotFound, isEncryptionError, isValidationError, getCode]
  | pdf k m c =>
    cases c with
    | none => simp [isNotFound, isEncryptionError, isValidationError, getCode, errorsIs, or_assoc]
    | some e =>
      simp only [isNotFound, isEncryptionError, isValidationError, getCode, errorsIs, Bool.or_eq_true, beq_iff_eq, Option.some.injEq]
      refine ⟨?_, ?_, ?_, ?_⟩
      · rintro (h | h) <;> simp [h]
      · rintro (((h | h) | h) | h) <;> simp [h]
      · rintro (h | h) <;> simp [h]
      · rintro c rfl; simp

/-- C111: the converse fails for every wrapped error: whatever the inner error is, once it is wrapped with the code for an invalid form (as the form
parser does) or by `fmt.Errorf` (as `ExtractAcroForm` does), the helpers report nothing, and `GetErrorCode` does not know the code. -/
theorem C111_wrapped_violated (e : Err) (msg t : Bytes) :
    (∀ w ∈ [wrapError b!"INVALID_FORM" msg (some e), Err.other t (some e)],
      isNotFound w = false ∧ isEncryptionError w = false ∧ isValidationError w = false ∧ (∀ c, getCode w = some c → c = b!"INVALID_FORM") ∧
      ∀ code, errorsIs code e = true → errorsIs code w = true) := by
  intro w hw
  simp only [List.mem_cons, List.not_mem_nil, or_false] at hw
  rcases hw with rfl | rfl
  · refine ⟨rfl, rfl, rfl, ?_, fun code h => by simp [wrapError, errorsIs, h]⟩
    intro c hc; exact (Option.some.inj hc).symm
  · exact ⟨rfl, rfl, rfl, by simp [getCode], fun code h => by simpa [errorsIs] using h⟩

/-- An object that was not found, wrapped twice. -/
def exErr : Err := wrapError b!"INVALID_FORM" b!"bad form" (some (wrapError b!"FIELD_NOT_FOUND" b!"no field" (some (newError b!"OBJECT_NOT_FOUND" b!"object 7"))))

/-- `errors.Is` finds the innermost code, `IsNotFound` does not, and the text has all three messages. -/
example : errorsIs b!"OBJECT_NOT_FOUND" exErr = true ∧ errorsIs b!"IO_ERROR" exErr = false ∧ isNotFound exErr = false ∧
    text exErr = b!"[INVALID_FORM] bad form: [FIELD_NOT_FOUND] no field: [OBJECT_NOT_FOUND] object 7" := by decide

example : Within exErr (newError b!"OBJECT_NOT_FOUND" b!"object 7") ∧ (∀ x, Within exErr x → ∃ c m d, x = .pdf c m d) := by
  refine ⟨.inner rfl (.inner rfl (.self _)), ?_⟩
  intro x hx
  cases hx with
  | self => exact ⟨_, _, _, rfl⟩
  | inner h hx =>
    cases Option.some.inj h
    cases hx with
    | self => exact ⟨_, _, _, rfl⟩
    | inner h hx =>
      cases Option.some.inj h
      cases hx with
      | self => exact ⟨_, _, _, rfl⟩
      | inner h hx => simp [unwrap, newError] at h

end Pdfer.Props
