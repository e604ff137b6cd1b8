import Verif.Spec.Manipulate
import Verif.Spec.Extract

/-! What the text of a page or of an annotation says: references, arrays of references, names, rectangles.
Nothing here mentions the functions of the code. -/

namespace Pdfer.Spec.PageDict

open Pdfer.Go Pdfer.Spec.Manipulate

/-- The first `key` of the text is followed by white space and a reference to object `n`. -/
def RefIs (s key : Bytes) (n : Nat) : Prop :=
  ∃ w rest, w ≠ [] ∧ (∀ c ∈ w, White c) ∧ FirstKey s key (w ++ refText n ++ rest)

/-- The only `key` of the text is followed directly by an array of references. -/
def RefsAre (s key : Bytes) (nums : List Nat) : Prop :=
  ∃ pre w1 w2 rest, (∀ c ∈ w1, White c) ∧ (∀ c ∈ w2, White c) ∧ ¬ key <:+: pre ∧ ¬ key <:+: rest ∧
    s = pre ++ key ++ kidsArray w1 nums w2 ++ rest

/-- The value of `key` is a name: the first `key` is followed by white space, the name and the end of the name; or directly by the name,
when no `key` in the text is followed by white space. -/
def NameIs (s key name : Bytes) : Prop :=
  (∃ w rest, w ≠ [] ∧ (∀ c ∈ w, White c) ∧ Ends rest ∧ FirstKey s key (w ++ name ++ rest)) ∨
  (∃ rest, (∀ c, rest.head? = some c → White c ∨ c = 60 ∨ c = 62 ∨ c = 47) ∧ FirstKey s key (name ++ rest) ∧ NoSpaced s key)

/-- The first `key` is followed by white space and an integer. -/
def IntIs (s key : Bytes) (r : Int) : Prop :=
  ∃ w rest, w ≠ [] ∧ (∀ c ∈ w, White c) ∧ Ends rest ∧ FirstKey s key (w ++ decimal r ++ rest)

/-- The text of a stream object: a dictionary that says how long the data is, the keyword and the line end, the data, and the rest. -/
def StreamIs (s data : Bytes) : Prop :=
  ∃ head w more eol tail, ¬ b!"/Length" <:+: head ∧ w ≠ [] ∧ (∀ c ∈ w, White c) ∧ (∀ c, more.head? = some c → ¬ (48 ≤ c ∧ c ≤ 57)) ∧
    ¬ b!"stream" <:+: head ++ b!"/Length" ++ w ++ natDec data.length ++ more ∧ (eol = b!"\n" ∨ eol = b!"\r\n") ∧
    s = head ++ b!"/Length" ++ w ++ natDec data.length ++ more ++ b!"stream" ++ eol ++ data ++ tail

/-- The words of a text: maximal runs without white space. -/
inductive Words : Bytes → List Bytes → Prop
  | nil (w : Bytes) : (∀ c ∈ w, White c) → Words w []
  | last (w word : Bytes) : (∀ c ∈ w, White c) → word ≠ [] → (∀ c ∈ word, 33 ≤ c ∧ c < 128) → Words (w ++ word) [word]
  | cons (w word : Bytes) (c : UInt8) (rest : Bytes) (ws : List Bytes) : (∀ c ∈ w, White c) → word ≠ [] → (∀ c ∈ word, 33 ≤ c ∧ c < 128) →
      White c → Words (c :: rest) ws → Words (w ++ word ++ c :: rest) (word :: ws)

/-- The first `key` is followed, possibly after white space, by an array of these words. -/
def ArrayIs (s key : Bytes) (ws : List Bytes) : Prop :=
  ∃ w body rest, (∀ c ∈ w, White c) ∧ (93 : UInt8) ∉ body ∧ body ≠ [] ∧ Words body ws ∧ FirstKey s key (w ++ b!"[" ++ body ++ b!"]" ++ rest)

/-- Both pages have no resources, or the same resources object. -/
def SameResources (s t : Bytes) : Prop :=
  (¬ b!"/Resources" <:+: s ∧ ¬ b!"/Resources" <:+: t) ∨
  ∃ r : Nat, 0 < r ∧ r ≤ 9223372036854775807 ∧ RefIs s b!"/Resources" r ∧ RefIs t b!"/Resources" r

/-- The kinds of annotations (ISO 32000-1, table 169) and what they are called. -/
def kinds : List (Bytes × Bytes) :=
  [(b!"/Link", b!"link"), (b!"/Text", b!"text"), (b!"/Highlight", b!"highlight"), (b!"/Underline", b!"underline"),
    (b!"/StrikeOut", b!"strikeout"), (b!"/Squiggly", b!"squiggly"), (b!"/Circle", b!"circle"), (b!"/Square", b!"square"),
    (b!"/Line", b!"line"), (b!"/Polygon", b!"polygon"), (b!"/Ink", b!"ink"), (b!"/Stamp", b!"stamp"), (b!"/Caret", b!"caret"),
    (b!"/FreeText", b!"freetext"), (b!"/Popup", b!"popup")]

end Pdfer.Spec.PageDict
