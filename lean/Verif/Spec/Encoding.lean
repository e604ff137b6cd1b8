import Verif.Model.Encoding
import Verif.Model.Font

/-! What users and ISO 32000 expect of the decoding of text. -/

namespace Pdfer.Spec.Enc

open Pdfer.Go Pdfer.Enc

/-- The character of a code: from ToUnicode, else from the Differences array, else from the base encoding, else the code itself. -/
inductive CharOf (d : Decoder) (code : Int) : Int → Prop where
  | toUnicode {u : Int} : d.toU.get code = some u → CharOf d code u
  | differences {u : Int} : d.toU.get code = none → d.diff.get code = some u → CharOf d code u
  | base {u : Int} : d.toU.get code = none → d.diff.get code = none → d.base.get code = some u → CharOf d code u
  | code : d.toU.get code = none → d.diff.get code = none → d.base.get code = none → CharOf d code code

/-- The text of a list of characters (UTF-8; what is no character becomes U+FFFD). -/
def utf8 (l : List Int) : Bytes := l.flatMap fun r =>
  if 0 ≤ r ∧ r.toNat.isValidChar then String.utf8EncodeChar (Char.ofNat r.toNat) else [0xEF, 0xBF, 0xBD]

/-- Value of a hexadecimal digit. -/
def hexDigit (c : UInt8) : Option Nat :=
  match (b!"0123456789ABCDEF").idxOf? c with
  | some i => some i
  | none => (b!"0123456789abcdef").idxOf? c

/-- The bytes of a list of hexadecimal digits, the last digit of an odd number being followed by 0. -/
def pairUp : Bytes → Option Bytes
  | [] => some []
  | [a] => (hexDigit a).map fun x => [UInt8.ofNat (16 * x)]
  | a :: b :: r => (hexDigit a).bind fun x => (hexDigit b).bind fun y => (pairUp r).map fun t => UInt8.ofNat (16 * x + y) :: t

/-- White space (ISO 32000, table 1). -/
def white (c : UInt8) : Bool := c == 0 || c == 9 || c == 10 || c == 12 || c == 13 || c == 32

/-- The bytes of a hexadecimal string without its brackets (ISO 32000, 7.3.4.3). -/
def hexBytes (t : Bytes) : Option Bytes := pairUp (t.filter fun c => !white c)

/-- The codes of two bytes of a string. -/
def codes2 : Bytes → List Nat
  | a :: b :: r => (256 * a.toNat + b.toNat) :: codes2 r
  | _ => []

/-! ### ToUnicode maps -/

/-- An entry of a range section: a run of codes with consecutive characters, or codes from `lo` on with listed characters. -/
inductive Entry where
  | run (lo hi dst : Nat)
  | list (lo : Nat) (us : List Nat)

/-- A section of a ToUnicode map: single codes, or ranges. -/
inductive Sect where
  | chars (l : List (Nat × Nat))
  | ranges (l : List Entry)

/-- The entry gives the code the character. -/
def Entry.maps : Entry → Nat → Nat → Prop
  | .run lo hi dst, c, u => lo ≤ c ∧ c ≤ hi ∧ u = dst + (c - lo)
  | .list lo us, c, u => lo ≤ c ∧ us[c - lo]? = some u

/-- The section gives the code the character. -/
def Sect.maps : Sect → Nat → Nat → Prop
  | .chars l, c, u => (c, u) ∈ l
  | .ranges l, c, u => ∃ e ∈ l, e.maps c u

/-- How a map is written: digits per code, the white space between the parts of an entry and between entries. -/
structure Style where
  digits : Nat
  sp : Bytes
  nl : Bytes

/-- White space, at least one character between entries. -/
def Style.ok (st : Style) : Prop := (∀ c ∈ st.sp, reSpace c = true) ∧ (∀ c ∈ st.nl, reSpace c = true) ∧ st.nl ≠ []

/-- A code, and a character of the basic plane. -/
def Style.code (st : Style) (c : Nat) : Bytes := b!"<" ++ Font.hexPad st.digits c ++ b!">"
def uniText (u : Nat) : Bytes := b!"<" ++ Font.hexPad 4 u ++ b!">"

/-- The parts, each followed by `sep`, but not the last one. -/
def joinWith (sep : Bytes) : List Bytes → Bytes
  | [] => []
  | [a] => a
  | a :: r => a ++ sep ++ joinWith sep r

/-- The text of an entry. -/
def Entry.text (st : Style) : Entry → Bytes
  | .run lo hi dst => st.code lo ++ st.sp ++ st.code hi ++ st.sp ++ uniText dst
  | .list lo us => st.code lo ++ st.sp ++ st.code (lo + us.length - 1) ++ st.sp ++ b!"[" ++ joinWith st.sp (us.map uniText) ++ b!"]"

/-- The text of a section. -/
def Sect.text (st : Style) : Sect → Bytes
  | .chars l => natDec l.length ++ b!" beginbfchar" ++ st.nl ++ joinWith st.nl (l.map fun p => st.code p.1 ++ st.sp ++ uniText p.2) ++
      st.nl ++ b!"endbfchar" ++ st.nl
  | .ranges l => natDec l.length ++ b!" beginbfrange" ++ st.nl ++ joinWith st.nl (l.map (Entry.text st)) ++
      st.nl ++ b!"endbfrange" ++ st.nl

/-- The text of a map: the sections between two other pieces of text. -/
def cmapText (st : Style) (pre : Bytes) (ss : List Sect) (post : Bytes) : Bytes := pre ++ st.nl ++ ss.flatMap (Sect.text st) ++ post

/-- Codes that fit and characters of the basic plane; arrays of one or two characters. -/
def Entry.ok : Entry → Prop
  | .run lo hi dst => lo ≤ 2147483647 ∧ hi ≤ 2147483647 ∧ dst + (hi - lo) < 65536
  | .list lo us => lo + 1 ≤ 2147483647 ∧ (∀ u ∈ us, u < 65536) ∧ (us.length = 1 ∨ us.length = 2)

def Sect.ok : Sect → Prop
  | .chars l => ∀ p ∈ l, p.1 ≤ 2147483647 ∧ p.2 < 65536
  | .ranges l => ∀ e ∈ l, e.ok

/-! ### Differences arrays -/

/-- An element of a Differences array. -/
inductive Diff where
  | num (n : Nat)
  | name (s : Bytes)

/-- The names of a Differences array with their codes: each name has the code after that of the name before it, a number sets
the code (ISO 32000, 9.6.6). -/
def Diff.named : Nat → List Diff → List (Nat × Bytes)
  | _, [] => []
  | _, .num n :: r => Diff.named n r
  | k, .name s :: r => (k, s) :: Diff.named (k + 1) r

/-- The text of an element. -/
def Diff.text : Diff → Bytes
  | .num n => natDec n
  | .name s => b!"/" ++ s

end Pdfer.Spec.Enc
