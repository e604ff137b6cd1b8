import Verif.Model.XFALocale

/-! What the XML decoder delivers for what the XML encoder wrote, for encoders that indent. -/

namespace Pdfer.Spec.Xml

open Pdfer.Go Pdfer.XFA

/-- Text of white space only. -/
def Blank (w : Bytes) : Prop := ∀ c ∈ w, isSpace c = true

/-- The decoder's tokens `dec` for the text the encoder wrote for the tokens `enc`; `closed` says that the last tag was an end tag.  The encoder
indents start tags, and end tags that follow an end tag; empty text disappears. -/
inductive Woven : Bool → List Tok → List Tok → Prop
  | nil {closed : Bool} : Woven closed [] []
  | start {closed : Bool} (n : Bytes) (as : List (Bytes × Bytes)) {enc dec : List Tok} :
      Woven false enc dec → Woven closed (.start n as :: enc) (.start n as :: dec)
  | startIndent {closed : Bool} (w n : Bytes) (as : List (Bytes × Bytes)) {enc dec : List Tok} :
      Blank w → Woven false enc dec → Woven closed (.start n as :: enc) (.chars w :: .start n as :: dec)
  | close {closed : Bool} (n : Bytes) {enc dec : List Tok} : Woven true enc dec → Woven closed (.close n :: enc) (.close n :: dec)
  | closeIndent (w n : Bytes) {enc dec : List Tok} :
      Blank w → Woven true enc dec → Woven true (.close n :: enc) (.chars w :: .close n :: dec)
  | chars {closed : Bool} (t : Bytes) {enc dec : List Tok} : Woven closed enc dec → Woven closed (.chars t :: enc) (.chars t :: dec)
  | empty {closed : Bool} {enc dec : List Tok} : Woven closed enc dec → Woven closed (.chars [] :: enc) dec

/-- The decoder's tokens for a whole written text. -/
def Decoded (enc dec : List Tok) : Prop := Woven false enc dec

end Pdfer.Spec.Xml
