import Verif.Spec.Written

/-! What the stand-alone reader (core/parse/get_object.go) needs beyond `FileFits`. -/

namespace Pdfer.Spec

open Pdfer.Go

/-- The keyword `startxref` stands once in the whole file (the stand-alone reader takes the first one), and everything from the
cross-reference table to the end fits the reader's 10000 bytes. -/
structure FitsAlone (env : Writer.Env) (w : Writer.Writer) : Prop extends FileFits env w where
  single : ∀ i j, OccursAt b!"startxref" (Writer.write env w).1 i → OccursAt b!"startxref" (Writer.write env w).1 j → i = j
  ending : (Writer.xrefTable w.nextObjNum (Writer.writeObjs env (fun _ => false) (Writer.header w.pdfVersion).length w.heap
    (Writer.sortedObjs env w)).2.1).length + (Writer.trailer w).length + 36 ≤ 10000

end Pdfer.Spec
