import Verif.Basic

/-! Specification of PDF strings and names, written from ISO 32000-1, 7.3.4.2 and 7.3.5, independently of the
model. -/

namespace Pdfer.Spec

/-- UTF-8 encoding of a text. -/
def utf8 (t : List Char) : Bytes := t.flatMap String.utf8EncodeChar

/-- ISO 8859-1 encoding of a text whose characters are below 256. -/
def latin1 (t : List Char) : Bytes := t.map (fun c => UInt8.ofNat c.toNat)

/-- State of the literal-string reader: ordinary text, just after a raw CR, just after a backslash, just after
backslash CR, after `k` octal digits with value `v`. -/
inductive LitState where
  | plain
  | afterCR
  | esc
  | escCR
  | oct (k v : Nat)

/-- An octal digit. -/
def isOct (c : UInt8) : Bool := 48 ≤ c && c ≤ 55

/-- One byte of ordinary text: the bytes it stands for and the next state (`none`: end of the string). -/
def litPlain (depth : Nat) (c : UInt8) : Bytes × Option (LitState × Nat) :=
  if c = 41 then (if depth = 0 then ([], none) else ([41], some (.plain, depth - 1)))
  else if c = 40 then ([40], some (.plain, depth + 1))
  else if c = 92 then ([], some (.esc, depth))
  else if c = 13 then ([10], some (.afterCR, depth))
  else ([c], some (.plain, depth))

/-- One byte of a literal string. -/
def litStep (st : LitState) (depth : Nat) (c : UInt8) : Bytes × Option (LitState × Nat) :=
  match st with
  | .plain => litPlain depth c
  | .afterCR => if c = 10 then ([], some (.plain, depth)) else litPlain depth c
  | .escCR => if c = 10 then ([], some (.plain, depth)) else litPlain depth c
  | .esc =>
    if c = 110 then ([10], some (.plain, depth))
    else if c = 114 then ([13], some (.plain, depth))
    else if c = 116 then ([9], some (.plain, depth))
    else if c = 98 then ([8], some (.plain, depth))
    else if c = 102 then ([12], some (.plain, depth))
    else if c = 10 then ([], some (.plain, depth))
    else if c = 13 then ([], some (.escCR, depth))
    else if isOct c then ([], some (.oct 1 (c.toNat - 48), depth))
    else ([c], some (.plain, depth))
  | .oct k v =>
    if isOct c then
      if k = 2 then ([UInt8.ofNat (8 * v + (c.toNat - 48))], some (.plain, depth))
      else ([], some (.oct (k + 1) (8 * v + (c.toNat - 48)), depth))
    else (UInt8.ofNat v :: (litPlain depth c).1, (litPlain depth c).2)

/-- The rest of a literal string from a state: the bytes it denotes and what follows the closing
parenthesis. -/
def litFrom : LitState → Nat → Bytes → Option (Bytes × Bytes)
  | _, _, [] => none
  | st, depth, c :: s =>
    match litStep st depth c with
    | (out, none) => some (out, s)
    | (out, some (st', depth')) => (litFrom st' depth' s).map (fun p => (out ++ p.1, p.2))

/-- Read a literal string: the bytes it denotes and the rest of the input. -/
def readLiteral : Bytes → Option (Bytes × Bytes)
  | 40 :: s => litFrom .plain 0 s
  | _ => none

/-- White-space characters of PDF. -/
def pdfWs (c : UInt8) : Bool := c == 0 || c == 9 || c == 10 || c == 12 || c == 13 || c == 32

/-- Delimiter characters of PDF. -/
def pdfDelim (c : UInt8) : Bool :=
  c == 40 || c == 41 || c == 60 || c == 62 || c == 91 || c == 93 || c == 123 || c == 125 || c == 47 || c == 37

/-- Value of a hexadecimal digit. -/
def hexDigit (c : UInt8) : Option Nat :=
  if 48 ≤ c ∧ c ≤ 57 then some (c.toNat - 48)
  else if 65 ≤ c ∧ c ≤ 70 then some (c.toNat - 55)
  else if 97 ≤ c ∧ c ≤ 102 then some (c.toNat - 87)
  else none

/-- The regular characters of a name after the '/', with `#xx` escapes decoded, and the rest. -/
def nameFrom : Bytes → Bytes × Bytes
  | [] => ([], [])
  | 35 :: h :: l :: s =>
    match hexDigit h, hexDigit l with
    | some a, some b => let p := nameFrom s; (UInt8.ofNat (16 * a + b) :: p.1, p.2)
    | _, _ => let p := nameFrom (h :: l :: s); (35 :: p.1, p.2)
  | c :: s =>
    if pdfWs c || pdfDelim c then ([], c :: s)
    else let p := nameFrom s; (c :: p.1, p.2)

/-- Read a name: the bytes it denotes and the rest of the input. -/
def readName : Bytes → Option (Bytes × Bytes)
  | 47 :: s => some (nameFrom s)
  | _ => none

/-- What is left of a text after pdfer has escaped and unescaped it: a backslash followed by one of the letters
n, r, t keeps the backslash but turns the letter into a control character. -/
def mangled : Bytes → Bytes
  | 92 :: 110 :: s => 92 :: 10 :: mangled s
  | 92 :: 114 :: s => 92 :: 13 :: mangled s
  | 92 :: 116 :: s => 92 :: 9 :: mangled s
  | c :: s => c :: mangled s
  | [] => []

end Pdfer.Spec
