import Verif.Model.Writer

/-! What an incremental update is (ISO 32000-1, 7.5.6), independent of the reader: new objects, a
cross-reference section listing them, a trailer pointing back to the previous section, appended to the
file. -/

namespace Pdfer.Spec

open Pdfer.Go

/-- `pat` stands in `s` at position `i`. -/
def OccursAt (pat s : Bytes) (i : Nat) : Prop := ∃ a b, s = a ++ pat ++ b ∧ a.length = i

/-- `pat` does not occur in `s`. -/
def Absent (pat s : Bytes) : Prop := ∀ i, ¬ OccursAt pat s i

/-- One update: the objects it (re)defines, in file order, and the numbers in its trailer. -/
structure Update where
  objs : List (Nat × Bytes)
  size : Nat
  root : Nat

/-- The text of one indirect object. -/
def objectText (n : Nat) (c : Bytes) : Bytes := natDec n ++ b!" 0 obj\n" ++ c ++ b!"\nendobj\n"

/-- The objects of an update, one after the other. -/
def objectsText (objs : List (Nat × Bytes)) : Bytes := objs.flatMap (fun e => objectText e.1 e.2)

/-- Where each of them starts when the first starts at `pos`. -/
def places : Nat → List (Nat × Bytes) → List (Nat × Nat)
  | _, [] => []
  | pos, (n, c) :: r => (n, pos) :: places (pos + (objectText n c).length) r

/-- One subsection `n 1` with the in-use entry of object `n`. -/
def entryText (e : Nat × Nat) : Bytes := natDec e.1 ++ b!" 1\n" ++ padDec 10 e.2 ++ b!" 00000 n \n"

/-- The cross-reference section of an update. -/
def sectionText (ps : List (Nat × Nat)) : Bytes := b!"xref\n" ++ ps.flatMap entryText

/-- A file and the position of its newest cross-reference section. -/
structure File where
  bytes : Bytes
  xref : Nat

/-- Append an update. -/
def append (f : File) (u : Update) : File :=
  let body := f.bytes ++ objectsText u.objs
  { bytes := body ++ sectionText (places f.bytes.length u.objs) ++
      b!"trailer\n<< /Size " ++ natDec u.size ++ b!" /Root " ++ natDec u.root ++ b!" 0 R /Prev " ++ natDec f.xref ++
      b!" >>\nstartxref\n" ++ natDec body.length ++ b!"\n%%EOF\n"
    xref := body.length }

/-- The content of object `n` after some updates, when it was `c0` before: that of the last update that
mentions it. -/
def latest (c0 : Option Bytes) (us : List Update) (n : Int) : Option Bytes :=
  ((us.flatMap (·.objs)).reverse.find? (fun e => (e.1 : Int) = n)).elim c0 (fun e => some e.2)

/-- Bodies a reader that looks for keywords can delimit: no `endobj` inside, no leading white space, and if it
mentions `stream` at all, it ends with the only `endstream`. -/
def Delimitable (c : Bytes) : Prop :=
  Absent b!"endobj" c ∧ (∀ b, c.head? = some b → b ≠ 32 ∧ b ≠ 10 ∧ b ≠ 13 ∧ b ≠ 9) ∧
  (Absent b!"stream" c ∨ ∃ t, c = t ++ b!"\nendstream" ∧ Absent b!"endstream" t)

/-- What stands between `n 0 obj` and `endobj` for a stored object: its content, or dictionary text and
stream data (encrypted if encryption is configured and succeeded). -/
def BodyOf (env : Writer.Env) (n : Int) (o : Writer.Obj) (c : Bytes) : Prop :=
  match o.stream with
  | none => c = o.content.getD []
  | some s => ∃ d, c = Writer.formatDictionary d ++ b!"\nstream\n" ++
      (match env.crypt with | none => s | some enc => (enc n s).getD s) ++ b!"\nendstream"

/-- The inside of a dictionary: ordinary bytes, hexadecimal strings in `<` `>` (not directly before another `>`), and
dictionaries nested to any depth. -/
inductive DictText : Bytes → Prop where
  | nil : DictText []
  | byte (c : UInt8) (r : Bytes) (h1 : c ≠ 60) (h2 : c ≠ 62) (hr : DictText r) : DictText (c :: r)
  | hex (x : Bytes) (c : UInt8) (r : Bytes) (h1 : (60 : UInt8) ∉ x) (h2 : (62 : UInt8) ∉ x) (hc : c ≠ 62) (hr : DictText (c :: r)) :
      DictText (60 :: (x ++ 62 :: c :: r))
  | dict (x r : Bytes) (hx : DictText x) (hr : DictText r) : DictText (b!"<<" ++ x ++ b!">>" ++ r)

/-- What an update must satisfy to be readable: it has objects, none of which contains `startxref`; its table
fits the reader's window of 10000 bytes; all numbers fit 64 bits. -/
structure UpdateFits (f : File) (u : Update) : Prop where
  nonempty : u.objs ≠ []
  contents : ∀ e ∈ u.objs, Absent b!"startxref" e.2
  numbers : ∀ e ∈ u.objs, e.1 ≤ 9223372036854775807
  window : (sectionText (places f.bytes.length u.objs)).length + 8 ≤ 10000
  size : (append f u).bytes.length ≤ 9223372036854775807

end Pdfer.Spec
