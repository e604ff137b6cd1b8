import Verif.Spec.Incremental

/-! When a file written in table mode can be read back. -/

namespace Pdfer.Spec

open Pdfer.Go

/-- What a writer must satisfy when it is written: table mode; numbers and sizes fit 64 bits; the keyword `startxref` stands once in
the last 106 bytes; the table fits the reader's window of 10000 bytes; the order in which Go walks a map is some permutation. -/
structure FileFits (env : Writer.Env) (w : Writer.Writer) : Prop where
  fair : ∀ l, (env.order l).Perm l
  table : w.useXRefStream = false
  plain : w.useObjectStream = false
  size : (Writer.write env w).1.length ≤ 9223372036854775807
  next : w.nextObjNum ≤ 9223372036854775807
  once : ∀ i j, (Writer.write env w).1.length ≤ i + 106 → (Writer.write env w).1.length ≤ j + 106 →
    OccursAt b!"startxref" (Writer.write env w).1 i → OccursAt b!"startxref" (Writer.write env w).1 j → i = j
  window : (Writer.xrefTable w.nextObjNum (Writer.writeObjs env (fun _ => false) (Writer.header w.pdfVersion).length w.heap
    (Writer.sortedObjs env w)).2.1).length + 8 ≤ 10000

end Pdfer.Spec
