import Verif.Model.Datasets
import Verif.Spec.Builder

/-! Specification for the form data of XFA forms: what it means that data written as XML is read back, independently of how the code
reads it. -/

namespace Pdfer.Spec.Datasets

open Pdfer.Go Pdfer.XFA Pdfer.Datasets

variable {F : Type}

/-- A token that may have the white space of the encoder's indentation in front of it: a start or end element, except the end of a value (the
encoder puts the end tag of an element without child elements right behind its text). -/
def Indentable : Tok → Prop
  | .start _ _ => True
  | .close n => n ≠ b!"value"
  | .chars _ => False

/-- The decoder's tokens `dec` for the text the encoder wrote for the tokens `enc`: indentation adds white space, empty text disappears. -/
inductive Woven : List Tok → List Tok → Prop
  | nil : Woven [] []
  | keep (t : Tok) {enc dec : List Tok} : Woven enc dec → Woven (t :: enc) (t :: dec)
  | indent (t : Tok) (w : Bytes) {enc dec : List Tok} : Indentable t → Woven enc dec →
      Woven (t :: enc) (.chars w :: t :: dec)
  | empty {enc dec : List Tok} : Woven enc dec → Woven (.chars [] :: enc) dec

/-- The names the reader keeps for itself, whatever their case. -/
def Reserved (n : Bytes) : Prop :=
  toLower n ∈ [b!"data", b!"field", b!"value", b!"items", b!"text", b!"label", b!"desc", b!"bind", b!"validate", b!"event", b!"script"]

/-- Text without white space at either end. -/
def Trimmed (s : Bytes) : Prop := (∀ c, s.head? = some c → isSpace c = false) ∧ ∀ c, s.getLast? = some c → isSpace c = false

/-- A value whose text says which value it was: any boolean; any int but 0 and 1; a floating point number whose text is read as that number and
not as an int; a text that starts and ends with no white space, and that is neither a boolean nor a number. -/
def Unambiguous (fl : Floats F) : DVal F → Prop
  | .nil => False
  | .bool _ => True
  | .int n => -9223372036854775808 ≤ n ∧ n ≤ 9223372036854775807 ∧ n ≠ 0 ∧ n ≠ 1
  | .float x => fl.parse (fl.format x) = some x ∧ Trimmed (fl.format x) ∧ fl.format x ≠ [] ∧ fl.format x ≠ b!"true" ∧
      fl.format x ≠ b!"false" ∧ atoi (fl.format x) = none
  | .str s => Trimmed s ∧ s ≠ b!"true" ∧ s ≠ b!"false" ∧ (s ≠ [] → atoi s = none ∧ fl.parse s = none)

/-- The fields of a Go map with names that are not empty. -/
structure FieldMap (fs : List (Bytes × DVal F)) : Prop where
  names : ∀ f ∈ fs, f.1 ≠ []
  nodup : (fs.map (·.1)).Nodup

/-- A group, and all groups in it, with names of their own. -/
inductive Named : Group F → Prop
  | mk (n : Bytes) (fs : List (Bytes × DVal F)) (gs : List (Group F)) :
      n ≠ [] → ¬ Reserved n → FieldMap fs → (∀ g ∈ gs, Named g) → Named (.mk n fs gs)

/-- The two maps have the same entries. -/
def SameMap (a b : List (Bytes × DVal F)) : Prop := ∀ n, Map.get a n = Map.get b n

/-- A group with the same name and fields, both without groups. -/
def SameGroup (a b : Group F) : Prop := a.name = b.name ∧ SameMap a.fields b.fields ∧ a.groups = [] ∧ b.groups = []

end Pdfer.Spec.Datasets
