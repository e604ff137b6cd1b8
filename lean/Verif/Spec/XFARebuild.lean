import Verif.Model.XFA
import Verif.Spec.Incremental
import Verif.Spec.Forms
import Verif.Spec.Writer
import Verif.Spec.Manipulate

/-! Objects in the text of a file, for the rebuilding of XFA files. -/

namespace Pdfer.Spec.XFA

open Pdfer.Go Pdfer.XFA Pdfer.Spec

/-- A text that reads as the header of object `n`, any generation: the digits may have leading zeros. -/
def AnyHeader (n : Nat) (h : Bytes) : Prop :=
  ∃ ds w1 g w2, ds ≠ [] ∧ (∀ c ∈ ds, isDigit c = true) ∧ w1 ≠ [] ∧ (∀ c ∈ w1, Manipulate.White c) ∧ g ≠ [] ∧ (∀ c ∈ g, isDigit c = true) ∧
    w2 ≠ [] ∧ (∀ c ∈ w2, Manipulate.White c) ∧ atoiClamp ds = n ∧ h = ds ++ w1 ++ g ++ w2 ++ b!"obj"

/-- The last object `n` of the file, with the text `body` between its header and its `endobj`. -/
structure LastObject (pdf : Bytes) (n : Nat) (before body rest : Bytes) : Prop where
  text : pdf = before ++ (natDec n ++ b!" 0 obj" ++ (body ++ b!"endobj" ++ rest))
  number : n ≤ 9223372036854775807
  notDigit : ∀ c, before.getLast? = some c → isDigit c = false
  noEnd : Absent b!"endobj" body
  last : ∀ x y h, body ++ b!"endobj" ++ rest = x ++ y → AnyHeader n h → ¬ h <+: y

end Pdfer.Spec.XFA
