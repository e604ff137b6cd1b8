import Verif.Spec.Outline

/-! Bookmarks as they can be read back, and what is read. -/

namespace Pdfer.Spec.Outline

open Pdfer.Go Pdfer.Strings Pdfer.Outline

/-- The keys the reader looks for. -/
def readKeys : List Bytes := [b!"/A", b!"/Dest", b!"/First", b!"/Next", b!"/Title"]

mutual
/-- The texts of a bookmark cannot be taken for keys: no title contains a slash; a destination text contains none of the keys and
begins with neither white space nor an angle bracket. -/
def Plain : Bookmark → Prop
  | .mk title _ dest _ children =>
    (47 : UInt8) ∉ title ∧ (∀ k ∈ readKeys, ¬ k <:+: dest) ∧ (∀ c, dest.head? = some c → Manipulate.tokByte c = true) ∧ PlainAll children
def PlainAll : List Bookmark → Prop
  | [] => True
  | b :: bs => Plain b ∧ PlainAll bs
end

/-- The part of a text before the first white space or angle bracket. -/
def firstWord (s : Bytes) : Bytes := s.takeWhile Manipulate.tokByte

/-- The destination as it is read: the first word of what was written. -/
def readDest (pages : Map Int Int) (page : Int) (dest : Bytes) : Bytes := ((destination pages page dest).map firstWord).getD []

mutual
/-- The bookmark that is read where `b` was written. -/
def readBack (pages : Map Int Int) : Bookmark → Bookmark
  | .mk title page dest uri children =>
    .mk (unescapePDFString (firstWord (b!"((" ++ escapePDFString title ++ b!"))"))) 0 (readDest pages page dest)
      (if readDest pages page dest = [] ∧ uri ≠ [] then b!"/Type" else []) (readBackAll pages children)
def readBackAll (pages : Map Int Int) : List Bookmark → List Bookmark
  | [] => []
  | b :: bs => readBack pages b :: readBackAll pages bs
end

mutual
/-- The shape of a bookmark: only how the children are nested. -/
inductive Shape where
  | node (kids : List Shape)
end

mutual
def shape : Bookmark → Shape
  | .mk _ _ _ _ children => .node (shapes children)
def shapes : List Bookmark → List Shape
  | [] => []
  | b :: bs => shape b :: shapes bs
end

end Pdfer.Spec.Outline
