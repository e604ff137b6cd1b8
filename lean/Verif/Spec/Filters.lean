import Verif.Basic

/-! Specifications of the ASCII filters (ISO 32000-1, 7.4.2, 7.4.3, 7.4.5), written independently of
the model of the code. -/

namespace Pdfer.Spec

/-- Space, tab, line feed, form feed, carriage return. -/
def white : List UInt8 := [0x20, 0x09, 0x0A, 0x0C, 0x0D]

/-- The numeric value of a hexadecimal digit, either case. -/
def hexValue (c : UInt8) : Option Nat :=
  if c ∈ b!"0123456789" then some (c.toNat - 0x30)
  else if c ∈ b!"ABCDEF" then some (c.toNat - 0x41 + 10)
  else if c ∈ b!"abcdef" then some (c.toNat - 0x61 + 10)
  else none

/-- Bytes given by a sequence of hexadecimal digit values; a missing last digit counts as 0. -/
def hexPairs : List Nat → Bytes
  | [] => []
  | [d] => [UInt8.ofNat (16 * d)]
  | d :: e :: ds => UInt8.ofNat (16 * d + e) :: hexPairs ds

/-- `out` is the ASCIIHex value of `data`: only the text before the first `>` counts, white space is
ignored, everything else must be a hexadecimal digit. -/
def HexDecodesTo (data out : Bytes) : Prop :=
  ∃ ds : List Nat,
    ((data.takeWhile (· != 0x3E)).filter (fun c => !white.contains c)).map hexValue = ds.map some ∧
    out = hexPairs ds

/-- The run-length format: `RunsTo data out`. -/
inductive RunsTo : Bytes → Bytes → Prop
  /-- no more input -/
  | stop : RunsTo [] []
  /-- the EOD marker 128: whatever follows is ignored -/
  | eod (tail : Bytes) : RunsTo (128 :: tail) []
  /-- `n` in 0..127: the next `n+1` bytes literally -/
  | literal (n : UInt8) (lit rest out : Bytes) : n.toNat ≤ 127 → lit.length = n.toNat + 1 →
      RunsTo rest out → RunsTo (n :: (lit ++ rest)) (lit ++ out)
  /-- `n` in 129..255: the next byte `257 - n` times -/
  | run (n x : UInt8) (rest out : Bytes) : 129 ≤ n.toNat →
      RunsTo rest out → RunsTo (n :: x :: rest) (List.replicate (257 - n.toNat) x ++ out)

/-- Input that breaks off inside a run. -/
inductive RunTruncated : Bytes → Prop
  | literal (n : UInt8) (lit : Bytes) : n.toNat ≤ 127 → lit.length < n.toNat + 1 → RunTruncated (n :: lit)
  | run (n : UInt8) : 129 ≤ n.toNat → RunTruncated [n]
  | afterLiteral (n : UInt8) (lit rest : Bytes) : n.toNat ≤ 127 → lit.length = n.toNat + 1 →
      RunTruncated rest → RunTruncated (n :: (lit ++ rest))
  | afterRun (n x : UInt8) (rest : Bytes) : 129 ≤ n.toNat → RunTruncated rest → RunTruncated (n :: x :: rest)

/-- The characters of an ASCII85 text that count: cut at the first `~>`, white space dropped. -/
def a85Cut : Bytes → Bytes
  | 0x7E :: 0x3E :: _ => []
  | c :: rest => c :: a85Cut rest
  | [] => []

def a85Significant (data : Bytes) : Bytes := (a85Cut data).filter (fun c => !white.contains c)

/-- A base-85 digit character `!`..`u`. -/
def IsDigit85 (c : UInt8) : Prop := 0x21 ≤ c.toNat ∧ c.toNat ≤ 0x75

/-- Value of a list of base-85 digit characters, most significant first. -/
def value85 (cs : Bytes) : Nat := cs.foldl (fun v c => 85 * v + (c.toNat - 0x21)) 0

/-- The four big-endian bytes of a number (modulo 2^32). -/
def be4 (v : Nat) : Bytes :=
  [UInt8.ofNat (v / 2 ^ 24), UInt8.ofNat (v / 2 ^ 16), UInt8.ofNat (v / 2 ^ 8), UInt8.ofNat v]

/-- ASCII85 groups: `z`, five digits, or a final group of `n+1` digits (n = 0..3) giving `n` bytes
after padding with `u`.  Group values above 2^32-1 are taken modulo 2^32, as the code does. -/
inductive A85To : Bytes → Bytes → Prop
  | stop : A85To [] []
  | zero (rest out : Bytes) : A85To rest out → A85To (0x7A :: rest) (0 :: 0 :: 0 :: 0 :: out)
  | group (cs rest out : Bytes) : cs.length = 5 → (∀ c ∈ cs, IsDigit85 c) → A85To rest out →
      A85To (cs ++ rest) (be4 (value85 cs) ++ out)
  | last (cs : Bytes) : 1 ≤ cs.length → cs.length ≤ 4 → (∀ c ∈ cs, IsDigit85 c) →
      A85To cs ((be4 (value85 (cs ++ List.replicate (5 - cs.length) 0x75))).take (cs.length - 1))

end Pdfer.Spec
