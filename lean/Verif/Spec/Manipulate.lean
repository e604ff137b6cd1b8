import Verif.Model.GoLib

/-! Specification vocabulary for page manipulation: what a dictionary text says, page trees, and references in texts.
Nothing here mentions the functions of the code. -/

namespace Pdfer.Spec.Manipulate

/-- White space of PDF texts (tab, line feed, form feed, carriage return, space). -/
def White (c : UInt8) : Prop := c = 32 ∨ c = 9 ∨ c = 10 ∨ c = 12 ∨ c = 13

/-- A text that is empty or starts with white space, `<` or `>`: the preceding token has ended. -/
def Ends (rest : Bytes) : Prop := ∀ c, rest.head? = some c → White c ∨ c = 60 ∨ c = 62

/-- The decimal text of an integer. -/
def decimal (r : Int) : Bytes := if r < 0 then 45 :: Go.natDec r.natAbs else Go.natDec r.natAbs

/-- What a page text says about its rotation: no `/Rotate` at all (then 0), or a first `/Rotate` followed by white
space and a decimal number. -/
inductive RotationIs : Bytes → Int → Prop
  | absent (s : Bytes) : ¬ b!"/Rotate" <:+: s → RotationIs s 0
  | value (pre w rest : Bytes) (r : Int) : ¬ b!"/Rotate" <:+: pre → w ≠ [] → (∀ c ∈ w, White c) → Ends rest →
      RotationIs (pre ++ b!"/Rotate" ++ w ++ decimal r ++ rest) r

/-- A page tree: pages at the leaves, in reading order. -/
inductive PTree where
  | page (n : Nat)
  | node (n : Nat) (kids : List PTree)

/-- The object number of a node. -/
def PTree.num : PTree → Nat
  | .page n => n
  | .node n _ => n

/-- The pages, left to right. -/
def PTree.pages : PTree → List Nat
  | .page n => [n]
  | .node _ kids => kids.attach.flatMap fun k => k.1.pages
termination_by t => sizeOf t
decreasing_by
  have := List.sizeOf_lt_of_mem k.2
  simp at *; omega

/-- A reference as it is written in files. -/
def refText (n : Nat) : Bytes := Go.natDec n ++ b!" 0 R"

/-- A kids array: the references in order, separated by single spaces, possibly with white space at both ends. -/
def kidsArray (w1 : Bytes) (nums : List Nat) (w2 : Bytes) : Bytes :=
  b!"[" ++ w1 ++ ((nums.map refText).intersperse b!" ").flatten ++ w2 ++ b!"]"

/-- The text has a first `key`, followed by `after`. -/
def FirstKey (s key after : Bytes) : Prop := ∃ pre, ¬ key <:+: pre ∧ s = pre ++ key ++ after

/-- No occurrence of the key is followed by white space. -/
def NoSpaced (s key : Bytes) : Prop := ∀ a c b, s = a ++ key ++ c :: b → ¬ White c

/-- The type of an object: its first `/Type` is followed by white space, the name, and then white space, `<`, `>` or the
end; or directly by the name, and then one of these or `/`, when no `/Type` in the text is followed by white space. -/
def TypeIs (s name : Bytes) : Prop :=
  (∃ w rest, w ≠ [] ∧ (∀ c ∈ w, White c) ∧ Ends rest ∧ FirstKey s b!"/Type" (w ++ name ++ rest)) ∨
  (∃ rest, (∀ c, rest.head? = some c → White c ∨ c = 60 ∨ c = 62 ∨ c = 47) ∧ FirstKey s b!"/Type" (name ++ rest) ∧
    NoSpaced s b!"/Type")

/-- The text of a page object. -/
def PageText (s : Bytes) : Prop := TypeIs s b!"/Page"

/-- The kids of an inner node: its first `/Kids` is followed, possibly after white space, by the array of references. -/
def KidsAre (s : Bytes) (kids : List Nat) : Prop :=
  ∃ w w1 w2 rest, (∀ c ∈ w, White c ∧ c ≠ 12) ∧ (∀ c ∈ w1, White c) ∧ (∀ c ∈ w2, White c) ∧
    FirstKey s b!"/Kids" (w ++ kidsArray w1 kids w2 ++ rest)

/-- The text of an inner node with these kids. -/
def NodeText (s : Bytes) (kids : List Nat) : Prop := TypeIs s b!"/Pages" ∧ KidsAre s kids

/-- The file holds the tree: every object number (at most 2^63-1) is answered with a text of the right form. -/
inductive Holds (get : Int → Option Bytes) : PTree → Prop
  | page (n : Nat) (s : Bytes) : n ≤ 9223372036854775807 → get n = some s → PageText s → Holds get (.page n)
  | node (n : Nat) (kids : List PTree) (s : Bytes) : n ≤ 9223372036854775807 → get n = some s →
      NodeText s (kids.map PTree.num) → (∀ k ∈ kids, Holds get k) → Holds get (.node n kids)

/-- A text that mentions the type `/Pages`, directly or after one space. -/
def SaysPages (s : Bytes) : Prop := b!"/Type/Pages" <:+: s ∨ b!"/Type /Pages" <:+: s

/-- A text that mentions the type `/Page` and nowhere `/Pages`. -/
def SaysPage (s : Bytes) : Prop := ¬ SaysPages s ∧ (b!"/Type/Page" <:+: s ∨ b!"/Type /Page" <:+: s)

/-- The only `/Kids` of the text is followed directly by the array of references. -/
def CompactKids (s : Bytes) (kids : List Nat) : Prop :=
  ∃ pre w1 w2 rest, (∀ c ∈ w1, White c) ∧ (∀ c ∈ w2, White c) ∧ ¬ b!"/Kids" <:+: pre ∧ ¬ b!"/Kids" <:+: rest ∧
    s = pre ++ b!"/Kids" ++ kidsArray w1 kids w2 ++ rest

/-- The file holds the tree, written compactly (`/Kids[`), with at least one kid in every inner node. -/
inductive HoldsCompact (get : Int → Option Bytes) : PTree → Prop
  | page (n : Nat) (s : Bytes) : n ≤ 9223372036854775807 → get n = some s → SaysPage s → HoldsCompact get (.page n)
  | node (n : Nat) (kids : List PTree) (s : Bytes) : n ≤ 9223372036854775807 → get n = some s → SaysPages s →
      kids ≠ [] → CompactKids s (kids.map PTree.num) → (∀ k ∈ kids, HoldsCompact get k) → HoldsCompact get (.node n kids)

/-- A text as pieces: plain text or a reference. -/
inductive Piece where
  | plain (t : Bytes)
  | ref (n : Nat)

/-- The text of the pieces. -/
def Piece.text : Piece → Bytes
  | .plain t => t
  | .ref n => refText n

/-- Plain text that cannot be mistaken for a reference: it does not end with a digit, and no `R` in it follows white
space. -/
def PlainText (t : Bytes) : Prop :=
  (∀ c, t.getLast? = some c → ¬ (48 ≤ c ∧ c ≤ 57)) ∧ ∀ a c b, t = a ++ c :: 82 :: b → ¬ White c

/-- No two plain pieces follow each other, and every plain piece is harmless. -/
def WellFormed : List Piece → Prop
  | [] => True
  | .ref _ :: ps => WellFormed ps
  | [.plain t] => PlainText t
  | .plain t :: .ref n :: ps => PlainText t ∧ WellFormed (.ref n :: ps)
  | .plain _ :: .plain _ :: _ => False

/-- The text of a piece after references are renumbered by `f` (those for which `f` gives nothing stay). -/
def Piece.renumbered (f : Nat → Option Int) : Piece → Bytes
  | .plain t => t
  | .ref n => match f n with
    | some k => decimal k ++ b!" 0 R"
    | none => refText n

/-- The text of pieces. -/
def textOf (ps : List Piece) : Bytes := ps.flatMap Piece.text

/-- Every referenced number fits an int. -/
def SmallRefs (ps : List Piece) : Prop := ∀ n, Piece.ref n ∈ ps → n ≤ 9223372036854775807

end Pdfer.Spec.Manipulate
