import Verif.Model.Outline

/-! What the objects of a document outline have to say (ISO 32000-1, 12.3.3), independent of the order in which they are made. -/

namespace Pdfer.Spec.Outline

open Pdfer.Go Pdfer.Writer Pdfer.Strings Pdfer.Outline

/-- An outline item: its object number, the number of its action object if it has one, its children. -/
inductive Node where
  | mk (num : Int) (action : Option Int) (kids : List Node)

def Node.num : Node → Int
  | .mk n _ _ => n

/-- The text of an object of a writer that is not a stream. -/
def textOf (w : Writer) (n : Int) : Option Bytes :=
  (w.objects.get n).bind fun o => if o.stream.isNone && o.dict.isNone then o.content else none

mutual
/-- All object numbers of a tree. -/
def Node.nums : Node → List Int
  | .mk n a kids => a.toList ++ n :: numsOf kids
def numsOf : List Node → List Int
  | [] => []
  | x :: xs => x.nums ++ numsOf xs
end

mutual
/-- The number of items of a bookmark with all that are below it. -/
def sizeOf1 : Bookmark → Nat
  | .mk _ _ _ _ children => 1 + sizeAll children
def sizeAll : List Bookmark → Nat
  | [] => 0
  | b :: bs => sizeOf1 b + sizeAll bs
end

/-- One entry of a dictionary text, if there is a value. -/
def entry (key : Bytes) : Option Bytes → Bytes
  | none => []
  | some v => key ++ b!" " ++ v ++ b!" "

/-- How a Go string is written as a value: names and references as they are, everything else in parentheses. -/
def asValue (s : Bytes) : Bytes := if b!"/" <+: s ∨ b!" R" <:+ s then s else b!"(" ++ s ++ b!")"

/-- The destination of a bookmark: the page's object if the page number is positive and known, no destination if it is positive
and unknown, otherwise the given text (if any). -/
def destination (pages : Map Int Int) (page : Int) (dest : Bytes) : Option Bytes :=
  if page > 0 then (pages.get page).map fun n => asValue (b!"[" ++ itoa n ++ b!" 0 R /XYZ 0 792 null]")
  else if dest = [] then none else some (asValue dest)

/-- The text of an outline item with the links around it. -/
def itemText (title : Bytes) (dest : Option Bytes) (action parent prev next : Option Int) (kids : Option (Int × Int × Nat)) : Bytes :=
  b!"<<" ++ entry b!"/A" (action.map ref) ++ entry b!"/Count" (kids.map fun k => natDec k.2.2) ++ entry b!"/Dest" dest ++
  entry b!"/First" (kids.map fun k => ref k.1) ++ entry b!"/Last" (kids.map fun k => ref k.2.1) ++
  entry b!"/Parent" (parent.map ref) ++ entry b!"/Prev" (prev.map ref) ++
  entry b!"/Title" (some (b!"((" ++ escapePDFString title ++ b!"))")) ++ entry b!"/Next" (next.map ref) ++ b!">>"

/-- The text of the action of a link. -/
def actionText (uri : Bytes) : Bytes := b!"<</S /URI /Type /Action /URI ((" ++ escapePDFString uri ++ b!")) >>"

/-- First and last child and the number of all items below. -/
def kidsOf (kids : List Node) (children : List Bookmark) : Option (Int × Int × Nat) :=
  match kids.head?, kids.getLast? with
  | some f, some l => some (f.num, l.num, sizeAll children)
  | _, _ => none

mutual
/-- `obj` holds, at the numbers of the node, the item of the bookmark with its action and everything below it. -/
def ItemAt (obj : Int → Option Bytes) (pages : Map Int Int) (parent prev next : Option Int) : Node → Bookmark → Prop
  | .mk n act kids, .mk title page dest uri children =>
    obj n = some (itemText title (destination pages page dest) act parent prev next (kidsOf kids children)) ∧
    (match act with | none => uri = [] | some a => uri ≠ [] ∧ obj a = some (actionText uri)) ∧
    ItemsAt obj pages (some n) none kids children
/-- The same for a list of neighbours below the same parent; `prev` is the item before the first of them. -/
def ItemsAt (obj : Int → Option Bytes) (pages : Map Int Int) (parent prev : Option Int) : List Node → List Bookmark → Prop
  | [], [] => True
  | x :: xs, b :: bs => ItemAt obj pages parent prev (xs.head?.map Node.num) x b ∧ ItemsAt obj pages parent (some x.num) xs bs
  | [], _ :: _ => False
  | _ :: _, [] => False
end

/-- The text of the outline dictionary. -/
def outlinesText (first last : Int) (count : Nat) : Bytes :=
  b!"<</Count " ++ natDec count ++ b!" /First " ++ ref first ++ b!" /Last " ++ ref last ++ b!" /Type /Outlines >>"

end Pdfer.Spec.Outline
