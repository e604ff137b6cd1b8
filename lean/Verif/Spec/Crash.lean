import Verif.Spec.Incremental
import Verif.Spec.Manipulate

/-! Where a file can make `Open` crash: in terms of the bytes of the file only. -/

namespace Pdfer.Spec.Crash

open Pdfer.Spec.Manipulate (White)

/-- White space, at least one character. -/
def Blank (w : Bytes) : Prop := w ≠ [] ∧ ∀ c ∈ w, White c

/-- Digits, at least one. -/
def Digits (d : Bytes) : Prop := d ≠ [] ∧ ∀ c ∈ d, 48 ≤ c ∧ c ≤ 57

/-- The text has the header of an object of generation 0, such as `12 0 obj`. -/
def HasHeader (s : Bytes) : Prop := ∃ a d u v b, s = a ++ (d ++ (u ++ (b!"0" ++ (v ++ (b!"obj" ++ b))))) ∧ Digits d ∧ Blank u ∧ Blank v

/-- The file states the offset `o`: `startxref 123` or `/Prev 123` stands somewhere in it, and no further digit follows. -/
def States (pdf : Bytes) (o : Nat) : Prop := ∃ key ∈ [b!"startxref", b!"/Prev"], ∃ a w d b,
  pdf = a ++ (key ++ (w ++ (d ++ b))) ∧ Blank w ∧ Digits d ∧ Go.digitsVal d = o ∧ ∀ c, b.head? = some c → ¬ (48 ≤ c ∧ c ≤ 57)

/-- The file names the offset `o`: it states it; or `o` is what remains of a `/Prev` that is cut off 2000 bytes after a named offset at which
there is no table. -/
inductive Named (pdf : Bytes) : Nat → Prop
  | states {o : Nat} : States pdf o → Named pdf o
  | cut {s o : Nat} {a w d b : Bytes} : Named pdf s → ¬ OccursAt b!"xref" pdf s → pdf = a ++ (b!"/Prev" ++ (w ++ (d ++ b))) →
      Blank w → Digits d → Go.digitsVal d = o → (a ++ (b!"/Prev" ++ (w ++ d))).length = s + 2000 → Named pdf o

/-- A place where reading a cross-reference stream goes out of bounds: no object header in the 500 bytes from there, and the file ends before
them; or the first `<<` from there is more than 500 bytes away. -/
def Crash (pdf : Bytes) (o : Nat) : Prop := o < pdf.length ∧
  ((¬ HasHeader ((pdf.drop o).take 500) ∧ pdf.length < o + 500) ∨
   ∃ i, o + 500 < i ∧ OccursAt b!"<<" pdf i ∧ ∀ j, o ≤ j → j < i → ¬ OccursAt b!"<<" pdf j)

end Pdfer.Spec.Crash
