import Verif.Model.GoLib

/-! Model of the errors and warnings of package types as objects that are shared by reference: their context (types/errors.go, types/warnings.go).

Simplifications: the value of a context entry is a byte string; the message of `NewPDFErrorf` and `WrapErrorf` is formatted before; an address
that names no error (a nil pointer in Go, which would crash) changes nothing. -/

namespace Pdfer.ErrorContext

open Pdfer.Go

/-- types/errors.go:46-53 – `PDFError` in memory; the cause is a pointer. -/
structure Cell where
  code : Bytes
  msg : Bytes
  cause : Option Nat
  context : Map Bytes Bytes
deriving DecidableEq, Repr

/-- types/errors.go:8-44, :119-155 – the errors that exist when the program starts: one for each code. -/
def sentinels : List Bytes :=
  [b!"INVALID_PDF", b!"MALFORMED_PDF", b!"UNSUPPORTED_PDF", b!"OBJECT_NOT_FOUND", b!"INVALID_OBJECT", b!"STREAM_ERROR", b!"XREF_ERROR",
   b!"ENCRYPTED", b!"DECRYPTION_FAILED", b!"WRONG_PASSWORD", b!"UNSUPPORTED_CRYPTO",
   b!"NO_FORMS", b!"INVALID_FORM", b!"FIELD_NOT_FOUND", b!"INVALID_VALUE", b!"VALIDATION_ERROR",
   b!"NO_CONTENT", b!"EXTRACTION_ERROR", b!"FONT_ERROR", b!"IMAGE_ERROR", b!"WRITE_ERROR", b!"INVALID_INPUT", b!"IO_ERROR"]

/-- The calls a program makes. -/
inductive Op where
  | new (code msg : Bytes)                       -- types/errors.go:85-99
  | wrap (code msg : Bytes) (cause : Option Nat) -- types/errors.go:101-117
  | withContext (e : Nat) (key value : Bytes)    -- types/errors.go:76-83

/-- types/errors.go:76-83 – `WithContext` (types/warnings.go:34-41 is the same): the entry is put into the error's own map. -/
def addContext (h : List Cell) (e : Nat) (key value : Bytes) : List Cell :=
  match h[e]? with
  | some c => h.set e { c with context := c.context.set key value }
  | none => h

/-- types/errors.go:76-117 – one call: the memory afterwards and the error it returns. -/
def step (h : List Cell) : Op → List Cell × Nat
  | .new code msg => (h ++ [⟨code, msg, none, []⟩], h.length)
  | .wrap code msg cause => (h ++ [⟨code, msg, cause, []⟩], h.length)
  | .withContext e key value => (addContext h e key value, e)

/-- types/errors.go:119-155 – the memory when the program starts. -/
def start : List Cell := sentinels.map fun c => ⟨c, [], none, []⟩

/-- types/errors.go:76-117 – a history of calls. -/
def run (ops : List Op) : List Cell := ops.foldl (fun h op => (step h op).1) start

end Pdfer.ErrorContext
