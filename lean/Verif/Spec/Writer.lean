import Verif.Model.Writer

/-! What a user of `PDFWriter` sees of a call history, independent of the writer's data structures:
the numbers it mentions and the contents it stores. -/

namespace Pdfer.Spec

open Pdfer.Writer

/-- The object number a call explicitly names (SetObject, SetStreamObject). -/
def namedBy : Op → List Int
  | .setObject n _ => [n]
  | .setStream n _ _ _ => [n]
  | _ => []

/-- The content a call stores, if any (nil slices are `none`); compressed data is zlib of the data. -/
def storedBy (z : Bytes → Bytes) : Op → Option (Option Bytes)
  | .addObject c => some c
  | .setObject _ c => some c
  | .addStream _ data compress => some (if compress = true ∧ data.getD [] ≠ [] then some (z (data.getD [])) else data)
  | .setStream _ _ data compress => some (if compress = true ∧ data.getD [] ≠ [] then some (z (data.getD [])) else data)
  | _ => none

/-- The object numbers in play after each call of a history: those handed out by the writer (`ret`) and
those named by the caller. -/
def usedNumbers (env : Env) : Writer → List Op → List Int
  | _, [] => []
  | w, op :: ops => namedBy op ++ (step env w op).2.toList ++ usedNumbers env (step env w op).1 ops

/-- The numbers handed out. -/
def handedOut (env : Env) : Writer → List Op → List Int
  | _, [] => []
  | w, op :: ops => (step env w op).2.toList ++ handedOut env (step env w op).1 ops

/-- The store events of a history: (object number, content). -/
def stores (env : Env) : Writer → List Op → List (Int × Option Bytes)
  | _, [] => []
  | w, op :: ops =>
    ((storedBy env.z op).toList.flatMap (fun c => (namedBy op ++ (step env w op).2.toList).map (fun n => (n, c))))
      ++ stores env (step env w op).1 ops

/-- Content of the most recent store for `n`; `none` if there was none (or it stored a nil slice). -/
def lastStored (evs : List (Int × Option Bytes)) (n : Int) : Option Bytes :=
  ((evs.reverse.find? (fun e => e.1 = n)).bind (·.2))

/-- At offset `p` of `file` stands the complete indirect object `n 0 obj ... endobj` of `o`: its content, or
its dictionary text and stream data (encrypted if encryption is configured and succeeded). -/
def ObjectAt (env : Env) (file : Bytes) (n : Int) (o : Obj) (p : Nat) : Prop :=
  match o.stream with
  | none => (Go.itoa n ++ b!" 0 obj\n" ++ o.content.getD [] ++ b!"\nendobj\n") <+: file.drop p
  | some s => ∃ dict, (Go.itoa n ++ b!" 0 obj\n" ++ dict ++ b!"\nstream\n" ++
      (match env.crypt with | none => s | some enc => (enc n s).getD s) ++ b!"\nendstream\nendobj\n") <+: file.drop p

/-- The order oracle of a real Go map iteration: some permutation of the keys. -/
def FairOrder (env : Env) : Prop := ∀ l, (env.order l).Perm l

end Pdfer.Spec
