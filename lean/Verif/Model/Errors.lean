import Verif.Model.GoLib

/-! Model of types/errors.go, and of `errors.Is` of the standard library as far as it concerns these errors.

Simplifications: the context map of an error is left out (it is not part of its text); an error that is not a PDFError has a text and may wrap
another one (`fmt.Errorf` with `%w`); formatting of messages (`NewPDFErrorf`, `WrapErrorf`) is done before. -/

namespace Pdfer.Errors

open Pdfer.Go

/-- types/errors.go:47-53 – `PDFError`, and other errors. -/
inductive Err where
  | pdf (code msg : Bytes) (cause : Option Err)
  | other (text : Bytes) (cause : Option Err)

/-- types/errors.go:63-66 – `Unwrap`. -/
def unwrap : Err → Option Err
  | .pdf _ _ c => c
  | .other _ c => c

/-- types/errors.go:55-61 – `Error`; the text of another error is its own. -/
def text : Err → Bytes
  | .pdf c m (some e) => b!"[" ++ c ++ b!"] " ++ m ++ b!": " ++ text e
  | .pdf c m none => b!"[" ++ c ++ b!"] " ++ m
  | .other t _ => t

/-- types/errors.go:68-74 and errors.Is – `errors.Is(err, target)` for a target that is a PDFError with this code: each error of the chain is
asked. -/
def errorsIs (code : Bytes) : Err → Bool
  | .pdf c _ none => c == code
  | .pdf c _ (some e) => c == code || errorsIs code e
  | .other _ none => false
  | .other _ (some e) => errorsIs code e

/-- types/errors.go:85-91 – `NewPDFError`. -/
def newError (code msg : Bytes) : Err := .pdf code msg none

/-- types/errors.go:101-108 – `WrapError` (the cause may be nil). -/
def wrapError (code msg : Bytes) (cause : Option Err) : Err := .pdf code msg cause

/-- types/errors.go:165-171 – `GetErrorCode` (`none` for `ok == false`). -/
def getCode : Err → Option Bytes
  | .pdf c _ _ => some c
  | .other _ _ => none

/-- types/errors.go:173-179 – `IsNotFound`. -/
def isNotFound (e : Err) : Bool := match getCode e with
  | some c => c == b!"OBJECT_NOT_FOUND" || c == b!"FIELD_NOT_FOUND"
  | none => false

/-- types/errors.go:181-190 – `IsEncryptionError`. -/
def isEncryptionError (e : Err) : Bool := match getCode e with
  | some c => c == b!"ENCRYPTED" || c == b!"DECRYPTION_FAILED" || c == b!"WRONG_PASSWORD" || c == b!"UNSUPPORTED_CRYPTO"
  | none => false

/-- types/errors.go:192-198 – `IsValidationError`. -/
def isValidationError (e : Err) : Bool := match getCode e with
  | some c => c == b!"VALIDATION_ERROR" || c == b!"INVALID_VALUE"
  | none => false

end Pdfer.Errors
