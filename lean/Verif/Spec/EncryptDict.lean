import Verif.Model.Crypto

/-! The standard security handler's entries as a conforming writer may put them in a file: binary strings as literal
strings. -/

namespace Pdfer.Spec.EncryptDict

open Pdfer.Go

/-- A byte a literal string must not contain unescaped. -/
def Special (c : UInt8) : Prop := c = 40 ∨ c = 41 ∨ c = 92

instance (c : UInt8) : Decidable (Special c) := by unfold Special; infer_instance

/-- ISO 32000-1, 7.3.4.2: the bytes of a literal string, with a backslash before a parenthesis or a backslash. -/
def litEsc : Bytes → Bytes
  | [] => []
  | c :: s => if Special c then 92 :: c :: litEsc s else c :: litEsc s

/-- What an encryption dictionary of the standard security handler states. -/
structure Stated where
  v : Nat
  r : Nat
  /-- the key length in bits -/
  bits : Nat
  p : Int
  o : Bytes
  u : Bytes

/-- The dictionary of ISO 32000-1, 7.6.3.2, table 21, with /O and /U as literal strings. -/
def isoDict (d : Stated) : Bytes :=
  b!"<</Filter/Standard/V " ++ natDec d.v ++ b!"/R " ++ natDec d.r ++ b!"/Length " ++ natDec d.bits ++
  b!"/P " ++ itoa d.p ++ b!"/O(" ++ litEsc d.o ++ b!")/U(" ++ litEsc d.u ++ b!")>>"

/-- The 32-bit word a number stands for. -/
def word (p : Int) : Nat := (p % 4294967296).toNat

/-- A literal that contains none of the texts the reader looks for. -/
def Quiet (s : Bytes) : Prop :=
  ∀ k ∈ [b!"/O", b!"/U", b!"/Encrypt", b!"<<", b!">>"], ¬ k <:+: litEsc s

instance (s : Bytes) : Decidable (Quiet s) := by unfold Quiet; infer_instance

/-- The limits of the dictionary: a revision before 5, and the reader's window of 2000 bytes. -/
structure Fits (d : Stated) : Prop where
  v : 1 ≤ d.v ∧ d.v ≤ 9223372036854775807
  r : 1 ≤ d.r ∧ d.r ≤ 4
  bits : 8 ≤ d.bits ∧ d.bits ≤ 9223372036854775807
  o : Quiet d.o
  u : Quiet d.u
  len : (isoDict d).length ≤ 2000

end Pdfer.Spec.EncryptDict
