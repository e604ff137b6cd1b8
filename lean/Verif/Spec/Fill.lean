import Verif.Model.Fill
import Verif.Spec.Forms

/-! What it means to fill a form one field after the other, and to keep the limits of a question. -/

namespace Pdfer.Spec.Fill

open Pdfer.Go Pdfer.Forms Pdfer.Fill Pdfer.Spec.Forms

/-- One field was filled: its object was read from `b`, the value set in its text, and the text put in place of the first object with the
field's number and generation. -/
def FilledOne (get : Bytes → Int → Res Bytes) (a : Attrs) (v : Val) (b b' : Bytes) : Prop :=
  ∃ s s', get b a.num = .ok s ∧ setValue s v a.ft = some s' ∧ replaceObject b a.num a.gen s' = some b'

/-- The given values were filled in one after the other; names without a field are passed over. -/
inductive FilledAll (get : Bytes → Int → Res Bytes) (fs : List Field) : List (Bytes × Val) → Bytes → Bytes → Prop
  | done {b : Bytes} : FilledAll get fs [] b b
  | unknown {d : Bytes × Val} {ds : List (Bytes × Val)} {b b' : Bytes} :
      (∀ full f, FieldAt2 fs full f → full ≠ d.1 ∧ f.attrs.t ≠ d.1) → FilledAll get fs ds b b' → FilledAll get fs (d :: ds) b b'
  | set {d : Bytes × Val} {ds : List (Bytes × Val)} {f : Field} {full b m b' : Bytes} :
      findField fs d.1 = some (f, full) → FilledOne get f.attrs d.2 b m → FilledAll get fs ds m b' → FilledAll get fs (d :: ds) b b'

/-- The text of a built field with a new value: a present value is replaced, otherwise one is put at the end of the dictionary. -/
def newText (f : FieldDef) (v : Val) : Bytes :=
  if f.value = .nil then (fieldText f).dropLast.dropLast ++ b!"/V (" ++ formatFieldValue v f.type ++ b!") >>"
  else fieldText { f with value := v }

/-- The cross-reference stream that the first `startxref` of the last 1024 bytes of the file names has object `n` in the object stream `stm`. -/
def InObjectStream (unz : Bytes → Option Bytes) (pdf : Bytes) (n : Int) (stm : Nat) : Prop :=
  ∃ (before rest : Bytes) (start idx : Nat) (r : XRefStream.XRefResult),
    pdf.drop (pdf.length - 1024) = before ++ (b!"startxref" ++ (10 :: (natDec start ++ (10 :: rest)))) ∧ ¬ b!"startxref" <:+: before ∧ start < 2 ^ 63 ∧
    XRefStream.parseFull unz pdf start = .ok r ∧ r.objectStreams.get n = some (stm, idx)

/-- Of the given values the last one for the object `n` is set in its text, with the outcome `x`. -/
def LastText (obj : Int → Res Bytes) (fs : List Field) (data : List (Bytes × Val)) (n : Int) (x : Bytes) : Prop :=
  ∃ before d after f full o, data = before ++ d :: after ∧ findField fs d.1 = some (f, full) ∧ f.attrs.num = n ∧ obj n = .ok o ∧
    setValue o d.2 f.attrs.ft = some x ∧ ∀ d' ∈ after, ∀ f' full', findField fs d'.1 = some (f', full') → f'.attrs.num ≠ n

variable {F : Type}

/-- The text of a value keeps the limits of a question, if it has any: length (in bytes), pattern, and, for numbers, the range. -/
structure Keeps (ck : Checks F) (q : Question F) (v : Val) : Prop where
  short : ∀ l m, q.validation = some l → l.minLength = some m → m ≤ ((valueText v).length : Int)
  long : ∀ l m, q.validation = some l → l.maxLength = some m → ((valueText v).length : Int) ≤ m
  pattern : ∀ l, q.validation = some l → l.pattern ≠ [] → ck.rx l.pattern (valueText v) = some true
  low : ∀ l m x, q.validation = some l → q.type = b!"number" → l.minValue = some m → ck.parse (valueText v) = some x → ck.lt x m = false
  high : ∀ l m x, q.validation = some l → q.type = b!"number" → l.maxValue = some m → ck.parse (valueText v) = some x → ck.lt m x = false

end Pdfer.Spec.Fill
