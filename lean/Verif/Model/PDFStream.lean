import Verif.Model.Document

/-! Model of forms/xfa/stream.go:16-322: the byte stream, the object header reader on it, and how `ReadObjectFromXRef` finds the header of an
object.  What is done after the header is found (parsing and decrypting the dictionary) is a parameter; `verbose` is off. -/

namespace Pdfer.PDFStream

open Pdfer.Go

/-- forms/xfa/stream.go:16-20 – `PDFStream`. -/
structure Stream where
  data : Bytes
  offset : Int := 0
deriving DecidableEq, Repr

/-- Go's `int` (64 bit) addition. -/
def wrap (x : Int) : Int := (x + 9223372036854775808) % 18446744073709551616 - 9223372036854775808

/-- forms/xfa/stream.go:26-42 – `Seek`: the new stream; its offset is what is returned. -/
def seek (s : Stream) (off : Int) (whence : Nat) : Stream :=
  let o : Int := match whence with
    | 0 => off
    | 1 => wrap (s.offset + off)
    | 2 => wrap (s.data.length + off)
    | _ => s.offset
  let o := if o < 0 then 0 else o
  { s with offset := if o > s.data.length then s.data.length else o }

/-- forms/xfa/stream.go:48-59 – `Read` (`.err` = io.EOF). -/
def read (s : Stream) (n : Int) : Res (Bytes × Stream) :=
  if s.offset ≥ s.data.length then .err
  else
    let e := wrap (s.offset + n)
    let e := if e > s.data.length then (s.data.length : Int) else e
    if 0 ≤ s.offset ∧ s.offset ≤ e then .ok ((s.data.drop s.offset.toNat).take (e - s.offset).toNat, { s with offset := e }) else .panic

/-- forms/xfa/stream.go:61-68 – `ReadByte`. -/
def readByte (s : Stream) : Res (UInt8 × Stream) :=
  if s.offset ≥ s.data.length then .err
  else if 0 ≤ s.offset then .ok (s.data.getD s.offset.toNat 0, { s with offset := s.offset + 1 }) else .panic

/-- forms/xfa/stream.go:70-79 – `Peek`. -/
def peek (s : Stream) (n : Int) : Res Bytes :=
  if s.offset ≥ s.data.length then .ok []
  else
    let e := wrap (s.offset + n)
    let e := if e > s.data.length then (s.data.length : Int) else e
    if 0 ≤ s.offset ∧ s.offset ≤ e then .ok ((s.data.drop s.offset.toNat).take (e - s.offset).toNat) else .panic

/-- A call of a method. -/
inductive Call where
  | seek (off : Int) (whence : Nat)
  | read (n : Int)
  | readByte
  | peek (n : Int)

/-- The stream after a call (`.panic` when it crashes; io.EOF leaves the stream as it is). -/
def call (s : Stream) : Call → Res Stream
  | .seek o w => .ok (seek s o w)
  | .read n => match read s n with | .ok r => .ok r.2 | .err => .ok s | .panic => .panic
  | .readByte => match readByte s with | .ok r => .ok r.2 | .err => .ok s | .panic => .panic
  | .peek n => match peek s n with | .ok _ => .ok s | .err => .ok s | .panic => .panic

/-- Calls one after the other. -/
def calls (s : Stream) : List Call → Res Stream
  | [] => .ok s
  | c :: cs => (call s c).bind fun s => calls s cs

/-! ### Reading a header; positions in the data, which `Seek` keeps between 0 and the length -/

/-- forms/xfa/stream.go:91, :108 – the white space of these functions. -/
def ws (c : UInt8) : Bool := c == 32 || c == 9 || c == 13 || c == 10

/-- forms/xfa/stream.go:83-100 – `skipOverWhitespace`: at the end of the data it moves one byte back. -/
def skipWs (d : Bytes) (p : Nat) : Nat :=
  let q := p + ((d.drop p).takeWhile ws).length
  if q ≥ d.length then q - 1 else q

/-- forms/xfa/stream.go:104-118 – `readUntilWhitespace`: the bytes and the new position. -/
def readTok (d : Bytes) (p : Nat) : Bytes × Nat :=
  let t := (d.drop p).takeWhile fun c => !ws c
  (t, p + t.length)

/-- forms/xfa/stream.go:122-138 – `skipOverComment`. -/
def skipComment (d : Bytes) (p : Nat) : Nat :=
  match d.drop p with
  | 37 :: r => min d.length (p + 1 + (r.takeWhile fun c => c ≠ 10 ∧ c ≠ 13).length + 1)
  | _ => p

/-- forms/xfa/stream.go:142-199 – `readObjectHeader`: number, generation and the position behind it (`none` = error). -/
def readHeader (d : Bytes) (p : Nat) : Option (Int × Int × Nat) :=
  let p := skipWs d (skipComment d p) - 1
  let id := readTok d p
  let p := skipWs d id.2 - 1
  let gen := readTok d (skipWs d p)
  let p := skipWs d gen.2 - 1
  let p := skipWs d p
  if (d.drop p).take 3 = b!"obj" then
    (atoi id.1).bind fun i => (atoi gen.1).map fun g => (i, g, skipWs d (p + 3) - 1)
  else none

/-- forms/xfa/stream.go:204-216 – `findObjectHeaderByRegex`: `\s%d\s+%d\s+obj`, the position after the first white space. -/
def findHeader (d : Bytes) (n g : Int) : Option Nat :=
  let rec go : Bytes → Nat → Option Nat
    | [], _ => none
    | c :: r, i =>
      if reSpace c ∧ ((reLit (itoa n) r).bind fun r => (reSp1 r).bind fun r => (reLit (itoa g) r).bind fun r => (reSp1 r).bind fun r => reLit b!"obj" r).isSome
      then some (i + 1) else go r (i + 1)
  go d 0

/-- forms/xfa/stream.go:220-328 – `ReadObjectFromXRef` up to the header: `rest g p` is what is done with generation `g` at position `p`.  The
offset is one for which `±500` does not overflow. -/
def readObject (rest : Int → Nat → Res Bytes) (d : Bytes) (n g off : Int) : Res Bytes :=
  let at_ (o : Int) : Nat := (seek { data := d } o 0).offset.toNat
  let finish (h : Int × Int × Nat) : Res Bytes := if h.1 ≠ n then .err else rest h.2.1 h.2.2
  match readHeader d (at_ off) with
  | some h => finish h
  | none =>
    let lo := max 0 (off - 500)
    let hi := min (d.length : Int) (off + 500)
    if lo ≤ hi then
      match index (itoa n ++ b!" " ++ itoa g ++ b!" obj") ((d.take hi.toNat).drop lo.toNat) with
      | some p => (match readHeader d (lo.toNat + p) with
        | some h => finish h
        | none => .err)
      | none =>
        match readHeader d (at_ (match findHeader d n g with | some p => (p : Int) | none => -1)) with
        | some h => finish h
        | none => finish (n, g, at_ off)
    else .panic

end Pdfer.PDFStream
