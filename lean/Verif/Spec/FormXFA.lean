import Verif.Model.FormXFA

/-! Specification for templates: what the XML decoder may deliver for a written template, and what a template is. -/

namespace Pdfer.Spec.FormXFA

open Pdfer.Go Pdfer.XFA

/-- A token that may have the white space of the encoder's indentation in front of it: a start or end element, except the end of an element
that has only text (the encoder puts that end tag right behind the text). -/
def Indentable : Tok → Prop
  | .start _ _ => True
  | .close n => n ∉ [b!"label", b!"desc", b!"value", b!"text", b!"pattern", b!"script"]
  | .chars _ => False

/-- The decoder's tokens `dec` for the text the encoder wrote for the tokens `enc`: indentation adds white space, empty text disappears. -/
inductive Woven : List Tok → List Tok → Prop
  | nil : Woven [] []
  | keep (t : Tok) {enc dec : List Tok} : Woven enc dec → Woven (t :: enc) (t :: dec)
  | indent (t : Tok) (w : Bytes) {enc dec : List Tok} : Indentable t → Woven enc dec → Woven (t :: enc) (.chars w :: t :: dec)
  | empty {enc dec : List Tok} : Woven enc dec → Woven (.chars [] :: enc) dec

/-- A token that neither begins nor ends a field or a subform. -/
def Plain : Tok → Prop
  | .start n _ => n ≠ b!"field" ∧ n ≠ b!"subform"
  | .close n => n ≠ b!"field" ∧ n ≠ b!"subform"
  | .chars _ => True

/-- A field of a template: its attributes and whatever is in it. -/
structure TField where
  attrs : List (Bytes × Bytes)
  body : List Tok

/-- A field has a name and no field or subform in it. -/
structure TField.Ok (f : TField) (name : Bytes) : Prop where
  name : ∃ a b, f.attrs = a ++ (b!"name", name) :: b ∧ ∀ x ∈ b, x.1 ≠ b!"name"
  body : ∀ t ∈ f.body, Plain t

/-- The tokens of a field. -/
def TField.toks (f : TField) : List Tok := .start b!"field" f.attrs :: (f.body ++ [.close b!"field"])

/-- A template without subforms in subforms: fields, subforms of fields, and anything else, in any order. -/
inductive Item where
  | field (f : TField)
  | subform (attrs : List (Bytes × Bytes)) (fields : List TField)
  | other (t : Tok)

/-- The fields of an item. -/
def Item.fields : Item → List TField
  | .field f => [f]
  | .subform _ fs => fs
  | .other _ => []

/-- The tokens of an item. -/
def Item.toks : Item → List Tok
  | .field f => f.toks
  | .subform as fs => .start b!"subform" as :: (fs.flatMap TField.toks ++ [.close b!"subform"])
  | .other t => [t]

/-- Other tokens are not the bounds of fields and subforms. -/
def Item.Ok : Item → Prop
  | .other t => Plain t
  | _ => True

/-- The types that have a name of their own in templates and are read back. -/
def OwnType (t : Bytes) : Prop :=
  t ∈ [b!"text", b!"textarea", b!"radio", b!"checkbox", b!"number", b!"date", b!"email", b!"button", b!"signature"]

end Pdfer.Spec.FormXFA
