import Verif.Model.Forms
import Verif.Spec.Strings
import Verif.Spec.Manipulate

/-! What a form is: fields at any depth with their full names (ISO 32000-1, 12.7.3.2), limits on values, button types. -/

namespace Pdfer.Spec.Forms

open Pdfer.Go Pdfer.Forms Pdfer.Spec.Manipulate

/-- `FieldAt fs name f`: the form with the top-level fields `fs` has the field `f` under the full name `name`, the
partial names of its ancestors and its own joined by periods (an empty partial name at the top adds nothing). -/
inductive FieldAt (fs : List Field) : Bytes → Field → Prop
  | top {f : Field} : f ∈ fs → FieldAt fs f.attrs.t f
  | kid {n : Bytes} {p k : Field} : FieldAt fs n p → k ∈ p.kids → FieldAt fs (if n = [] then k.attrs.t else n ++ b!"." ++ k.attrs.t) k

/-- The same for the first two levels only. -/
inductive FieldAt2 (fs : List Field) : Bytes → Field → Prop
  | top {f : Field} : f ∈ fs → FieldAt2 fs f.attrs.t f
  | kid {p k : Field} : p ∈ fs → k ∈ p.kids →
      FieldAt2 fs (if p.attrs.t = [] then k.attrs.t else p.attrs.t ++ b!"." ++ k.attrs.t) k

/-- Flag bits, counted from 1 as in ISO 32000. -/
def Flag (ff pos : Nat) : Prop := ff / 2 ^ (pos - 1) % 2 = 1

/-- A flag can be looked up. -/
instance (ff pos : Nat) : Decidable (Flag ff pos) := inferInstanceAs (Decidable (_ = _))

/-- Nothing was entered. -/
def Blank (v : Val) : Prop := v = .nil ∨ v = .str []

/-- The limits a value has to keep, as the code understands them: a required field (bit 2) must not be blank, a text has at
most MaxLen bytes (0: no limit), a choice (and a button with bit 17 and options) must be among the options; a button with
bit 16 accepts any state name except that Yes, On, Off and No are still checked against the options. -/
structure Accepts (a : Attrs) (v : Val) : Prop where
  required : Flag a.ff 2 → ¬ Blank v
  text : a.ft = b!"Tx" → a.maxLen ≠ 0 → (fmtV v).length ≤ a.maxLen
  choice : a.ft = b!"Ch" → a.opt ≠ [] → fmtV v ∈ a.opt
  button : a.ft = b!"Btn" → Flag a.ff 17 → a.opt ≠ [] →
    (Flag a.ff 16 → fmtV v ∈ [b!"Yes", b!"On", b!"Off", b!"No"]) → fmtV v ∈ a.opt

/-- The type of a button field (ISO 32000-1, Table 226): bit 17 push button, else bit 16 radio buttons, else check box. -/
def isoButton (ff : Nat) : RType := if Flag ff 17 then .button else if Flag ff 16 then .radio else .checkbox

/-- Characters that keep their meaning in every context used here: printable ASCII except the delimiters, and space. -/
def PlainChar (c : UInt8) : Prop :=
  32 ≤ c ∧ c < 127 ∧ c ≠ 40 ∧ c ≠ 41 ∧ c ≠ 47 ∧ c ≠ 60 ∧ c ≠ 62 ∧ c ≠ 91 ∧ c ≠ 92 ∧ c ≠ 93

/-- The header `n g obj` of an object, with any white space between the parts. -/
def HeaderText (n g : Int) (s : Bytes) : Prop :=
  ∃ w1 w2, w1 ≠ [] ∧ (∀ c ∈ w1, White c) ∧ w2 ≠ [] ∧ (∀ c ∈ w2, White c) ∧
    s = itoa n ++ w1 ++ itoa g ++ w2 ++ b!"obj"

/-- `KidOf get m n`: object `n` can be read and names object `m` in its /Kids array. -/
def KidOf (get : Int → Option Bytes) (m n : Int) : Prop := ∃ s, get n = some s ∧ ∃ r ∈ arrayRefs b!"/Kids" s, (r.1 : Int) = m

/-- `Below get n m`: object `m` can be read and is reached from object `n` by any number of /Kids steps. -/
inductive Below (get : Int → Option Bytes) : Int → Int → Prop
  | self {n : Int} : (get n).isSome = true → Below get n n
  | kid {n k m : Int} : KidOf get k n → Below get k m → Below get n m

/-- `InTree f k`: the field `k` is `f` or a descendant of it. -/
inductive InTree : Field → Field → Prop
  | self {f : Field} : InTree f f
  | kid {f g k : Field} : g ∈ f.kids → InTree g k → InTree f k

/-- Such a header stands at position `i` (it may be the end of a longer number). -/
def HeaderAt (n g : Int) (pdf : Bytes) (i : Nat) : Prop := ∃ hd t, pdf.drop i = hd ++ t ∧ HeaderText n g hd

end Pdfer.Spec.Forms
