import Verif.Model.FormXFA

/-! Model of cmd/pdfer/main.go: the command.

Simplifications: the files are a map from paths to contents; which files cannot be read or created is a parameter, and so are the library
functions the command calls (`encrypt.DecryptPDF`, `xfa.UpdateXFAInPDF`, `xfa.FindXFADatasetsStream`, `xfa.DecompressStream`), JSON and XML; paths
are equal exactly when they name the same file; what is printed, and what is added to the log file after its first line, is left out. -/

namespace Pdfer.Cli

open Pdfer.Go Pdfer.XFA Pdfer.FormXFA

/-- cmd/pdfer/main.go:25-34 – the flags (an empty path is a flag not given). -/
structure Args where
  input : Bytes := []
  data : Bytes := []
  output : Bytes := []
  log : Bytes := []
  verify : Bool := false
  extract : Bool := false

/-- What happens to one `os.WriteFile`: all is written; the file cannot be opened; or it is emptied and only so many bytes are written. -/
inductive WriteRes where
  | done
  | refused
  | cut (k : Nat)
deriving DecidableEq

/-- The libraries and the operating system: `D` is types.FormData, `E` types.PDFEncryption, `S` types.FormSchema. -/
structure World (D E S : Type) where
  readable : Bytes → Bool
  createLog : Bool
  write : WriteRes
  json : Bytes → Option D
  decrypt : Bytes → Bytes → Res (Bytes × E)
  update : Bytes → D → Option E → Res Bytes
  datasets : Bytes → Option E → Res Bytes
  decompress : Bytes → Res Bytes
  parseForm : Bytes → Res S
  marshal : S → Option Bytes

variable {D E S : Type}

/-- Files. -/
abbrev Files := Map Bytes Bytes

/-- `os.ReadFile`. -/
def readFile (w : World D E S) (fs : Files) (p : Bytes) : Res Bytes :=
  if w.readable p then Res.ofOption (Map.get fs p) else .err

/-- `os.WriteFile`. -/
def writeFile (w : World D E S) (fs : Files) (p b : Bytes) : Files × Bool :=
  match w.write with
  | .done => (Map.set fs p b, true)
  | .refused => (fs, false)
  | .cut k => (Map.set fs p (b.take k), false)

/-- cmd/pdfer/main.go:139, 226 – the passwords tried after the empty one. -/
def common : List Bytes := [[], b!"admin", b!"password", b!"1234"]

/-- cmd/pdfer/main.go:140-155, 227-242 – the first password that works; a panic ends the command. -/
def tryAll (w : World D E S) (pdf : Bytes) : List Bytes → Res (Bytes × E)
  | [] => .err
  | p :: ps => match w.decrypt pdf p with
    | .ok r => .ok r
    | .err => tryAll w pdf ps
    | .panic => .panic

/-- cmd/pdfer/main.go:125-163, 212-250 – decryption when the text `/Encrypt` is somewhere in the file. -/
def unlock (w : World D E S) (pdf : Bytes) : Res (Bytes × Option E) :=
  if contains pdf b!"/Encrypt" then
    match w.decrypt pdf [] with
    | .ok (b, e) => .ok (b, some e)
    | .err => (tryAll w pdf common).bind fun r => .ok (r.1, some r.2)
    | .panic => .panic
  else .ok (pdf, none)

/-- cmd/pdfer/main.go:205-274 – `handleExtractSchema` up to the file it writes. -/
def extractSchema (w : World D E S) (fs : Files) (input : Bytes) : Res Bytes :=
  (readFile w fs input).bind fun pdf => (unlock w pdf).bind fun u => (w.datasets u.1 u.2).bind fun x =>
    (w.decompress x).bind fun xml => (w.parseForm xml).bind fun s => Res.ofOption (w.marshal s)

/-- cmd/pdfer/main.go:103-171 – filling the form, up to the file it writes. -/
def fill (w : World D E S) (fs : Files) (a : Args) : Res Bytes :=
  (readFile w fs a.data).bind fun d => (Res.ofOption (w.json d)).bind fun d => (readFile w fs a.input).bind fun pdf =>
    (unlock w pdf).bind fun u => w.update u.1 d u.2

/-- cmd/pdfer/main.go:67-84 – the log file. -/
def logStart (fs : Files) (log : Bytes) : Files := Map.set fs log b!"=== pdfer started ===\n"

/-- cmd/pdfer/main.go:17-23, 173-177, 276-279 – the end of a run: the result is written (`os.Exit(1)` on errors and on panics, which the deferred function catches). -/
def finishRun (w : World D E S) (fs : Files) (out : Bytes) : Res Bytes → Files × Nat
  | .ok b => let r := writeFile w fs out b; (r.1, if r.2 then 0 else 1)
  | _ => (fs, 1)

/-- cmd/pdfer/main.go:16-202 – `main`: the files after the run and the exit code. -/
def main (w : World D E S) (fs : Files) (a : Args) : Files × Nat :=
  if a.verify then (fs, 1)
  else if a.input = [] then (fs, 1)
  else if a.extract then
    (if a.output = [] then (fs, 1) else finishRun w fs a.output (extractSchema w fs a.input))
  else if a.data = [] ∨ a.output = [] then (fs, 1)
  else if a.log ≠ [] then
    (if w.createLog then finishRun w (logStart fs a.log) a.output (fill w (logStart fs a.log) a) else (fs, 1))
  else finishRun w fs a.output (fill w fs a)

end Pdfer.Cli
