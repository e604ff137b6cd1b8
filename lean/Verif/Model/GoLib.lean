import Verif.Basic

/-! Models of the Go standard-library functions pdfer uses, on byte lists. -/

namespace Pdfer.Go

/-- ASCII digit of a number below ten. -/
def digit (n : Nat) : UInt8 := UInt8.ofNat (48 + n)

/-- Decimal digits with fuel (at least the number of digits). -/
def natDecAux : Nat → Nat → Bytes
  | 0, n => [digit (n % 10)]
  | f + 1, n => if n < 10 then [digit n] else natDecAux f (n / 10) ++ [digit (n % 10)]

/-- `strconv.Itoa` / `%d` of a non-negative number. -/
def natDec (n : Nat) : Bytes := natDecAux n n

/-- `strconv.Itoa` / `%d`. -/
def itoa : Int → Bytes
  | .ofNat n => natDec n
  | .negSucc n => 45 :: natDec (n + 1)

/-- `%0kd` of a non-negative number. -/
def padDec (k n : Nat) : Bytes := List.replicate (k - (natDec n).length) 48 ++ natDec n

/-- An ASCII digit. -/
def isDigit (c : UInt8) : Bool := 48 ≤ c && c ≤ 57

/-- Value of a list of ASCII digits. -/
def digitsVal (bs : Bytes) : Nat := bs.foldl (fun v c => 10 * v + (c.toNat - 48)) 0

/-- The digits part of `strconv.ParseInt(s, 10, 64)` / `strconv.Atoi` (64-bit `int`): at least one
digit, only digits, magnitude at most `limit`. -/
def atoiMag (limit : Nat) (bs : Bytes) : Option Nat :=
  if bs = [] then none
  else if bs.all isDigit then
    if digitsVal bs ≤ limit then some (digitsVal bs) else none
  else none

/-- `strconv.Atoi` / `strconv.ParseInt(s, 10, 64)`: optional sign, digits, error on anything else or on
overflow. -/
def atoi : Bytes → Option Int
  | 43 :: r => (atoiMag 9223372036854775807 r).map Int.ofNat
  | 45 :: r => (atoiMag 9223372036854775808 r).map (fun n => - Int.ofNat n)
  | r => (atoiMag 9223372036854775807 r).map Int.ofNat

/-- ASCII white space of `strings.TrimSpace` / `strings.Fields` (the non-ASCII Unicode spaces are not
modelled). -/
def isSpace (c : UInt8) : Bool := c == 32 || (9 ≤ c && c ≤ 13)

/-- `strings.TrimSpace`. -/
def trimSpace (bs : Bytes) : Bytes := ((bs.dropWhile isSpace).reverse.dropWhile isSpace).reverse

/-- `strings.Split(s, sep)` for a one-byte separator. -/
def split (sep : UInt8) : Bytes → List Bytes
  | [] => [[]]
  | c :: cs =>
    if c = sep then [] :: split sep cs
    else match split sep cs with
      | [] => [[c]]
      | l :: ls => (c :: l) :: ls

/-- `strings.Fields`: maximal runs of non-space bytes. -/
def fieldsAux : Bytes → Bytes → List Bytes
  | acc, [] => if acc = [] then [] else [acc.reverse]
  | acc, c :: cs =>
    if isSpace c then (if acc = [] then fieldsAux [] cs else acc.reverse :: fieldsAux [] cs)
    else fieldsAux (c :: acc) cs

/-- `strings.Fields`. -/
def fields (bs : Bytes) : List Bytes := fieldsAux [] bs

/-- `bytes.Index` / `strings.Index`. -/
def index (pat : Bytes) : Bytes → Option Nat
  | [] => if pat = [] then some 0 else none
  | c :: cs => if pat.isPrefixOf (c :: cs) then some 0 else (index pat cs).map (· + 1)

/-- `strings.Contains`. -/
def contains (s pat : Bytes) : Bool := (index pat s).isSome

/-- `bytes.LastIndex` / `strings.LastIndex`. -/
def lastIndex (pat : Bytes) : Bytes → Option Nat
  | [] => if pat = [] then some 0 else none
  | c :: cs =>
    match lastIndex pat cs with
    | some i => some (i + 1)
    | none => if pat.isPrefixOf (c :: cs) then some 0 else none

/-- Upper-case hexadecimal digit. -/
def hexUp (n : Nat) : UInt8 := if n < 10 then UInt8.ofNat (48 + n) else UInt8.ofNat (55 + n)

/-- `%X` of a byte slice. -/
def hexUpper (bs : Bytes) : Bytes :=
  bs.flatMap (fun b => [hexUp (b.toNat / 16), hexUp (b.toNat % 16)])

/-! ### Maps -/

/-- A Go `map[K]V` as an association list with one entry per key. -/
abbrev Map (κ ν : Type) := List (κ × ν)

/-- `m[k]`. -/
def Map.get {κ ν : Type} [DecidableEq κ] (m : Map κ ν) (k : κ) : Option ν :=
  (m.find? (fun e => e.1 = k)).map (·.2)

/-- `m[k] = v`. -/
def Map.set {κ ν : Type} [DecidableEq κ] (m : Map κ ν) (k : κ) (v : ν) : Map κ ν :=
  (k, v) :: m.filter (fun e => e.1 ≠ k)

/-- `delete(m, k)`. -/
def Map.del {κ ν : Type} [DecidableEq κ] (m : Map κ ν) (k : κ) : Map κ ν :=
  m.filter (fun e => e.1 ≠ k)

/-- The keys, in the association-list order. -/
def Map.keys {κ ν : Type} (m : Map κ ν) : List κ := m.map (·.1)

/-! ### Results -/

/-- Outcome of a Go function returning `(T, error)`: a value, an error, or a run-time panic. -/
inductive Res (α : Type) where
  | ok (a : α)
  | err
  | panic
  deriving DecidableEq, Repr

/-- Sequencing of outcomes. -/
def Res.bind {α β : Type} (r : Res α) (f : α → Res β) : Res β :=
  match r with
  | .ok a => f a
  | .err => .err
  | .panic => .panic

/-- An optional value whose absence is an error. -/
def Res.ofOption {α : Type} : Option α → Res α
  | some a => .ok a
  | none => .err

/-- `s[i:]`: a panic when `i` is out of range. -/
def sliceFrom (s : Bytes) (i : Nat) : Res Bytes := if i ≤ s.length then .ok (s.drop i) else .panic

/-- `s[:j]`: a panic when `j` is out of range. -/
def sliceTo (s : Bytes) (j : Nat) : Res Bytes := if j ≤ s.length then .ok (s.take j) else .panic

/-- `s[i:j]`: a panic unless `i ≤ j ≤ len(s)` (capacity = length in the modelled uses). -/
def slice (s : Bytes) (i j : Nat) : Res Bytes :=
  if i ≤ j ∧ j ≤ s.length then .ok ((s.take j).drop i) else .panic

/-! ### Fragments of package regexp

Each regular expression of the code is modelled by a matcher anchored at the start of its argument and
`searchWith`, which tries it at every position from the left, as leftmost matching does.  The expressions
modelled this way are deterministic: adjacent repetitions are over disjoint classes. -/

/-- `\s` of package regexp. -/
def reSpace (c : UInt8) : Bool := c == 32 || c == 9 || c == 10 || c == 12 || c == 13

/-- Leftmost match. -/
def searchWith {α : Type} (p : Bytes → Option α) : Bytes → Option α
  | [] => p []
  | b :: s => match p (b :: s) with
    | some a => some a
    | none => searchWith p s

/-- Strip a literal. -/
def reLit (l s : Bytes) : Option Bytes := if l.isPrefixOf s then some (s.drop l.length) else none

/-- `\s+`. -/
def reSp1 (s : Bytes) : Option Bytes :=
  match s with
  | c :: r => if reSpace c then some (r.dropWhile reSpace) else none
  | [] => none

/-- `\s*`. -/
def reSp0 (s : Bytes) : Bytes := s.dropWhile reSpace

/-- `(\d+)`: the digits and the rest. -/
def reNum (s : Bytes) : Option (Bytes × Bytes) :=
  if (s.takeWhile isDigit) = [] then none else some (s.takeWhile isDigit, s.dropWhile isDigit)

/-- `key\s+(\d+)` anchored: the digits. -/
def reKeyNum (key s : Bytes) : Option Bytes :=
  (reLit key s).bind (fun r => (reSp1 r).bind (fun r => (reNum r).map (·.1)))

/-- `n, _ := strconv.Atoi(digits)`: on overflow Atoi returns the largest int. -/
def atoiClamp (ds : Bytes) : Nat := min (digitsVal ds) 9223372036854775807

/-- `n, _ := strconv.Atoi(s)` for an arbitrary field: 0 on a syntax error, clamped on overflow. -/
def atoiLax (s : Bytes) : Int :=
  let mag (r : Bytes) : Option Nat := if r ≠ [] ∧ r.all isDigit then some (digitsVal r) else none
  match s with
  | 43 :: r => (mag r).elim 0 (fun n => min (n : Int) 9223372036854775807)
  | 45 :: r => (mag r).elim 0 (fun n => max (-(n : Int)) (-9223372036854775808))
  | r => (mag r).elim 0 (fun n => min (n : Int) 9223372036854775807)

end Pdfer.Go
