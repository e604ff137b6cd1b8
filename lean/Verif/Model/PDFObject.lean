import Verif.Model.PDFStream
import Verif.Model.XFAEncrypted

/-! Model of forms/xfa/stream.go:318-458, :488-702: the dictionary reader on the byte stream and what `ReadObjectFromXRef` does behind the header of
an object.  `verbose` is off. -/

namespace Pdfer.PDFStream

open Pdfer.Go

/-- forms/xfa/stream.go:578 – the bytes a name ends at. -/
def nameEnd (c : UInt8) : Bool := c ∈ b!" \t\r\n/[]<>()"

/-- forms/xfa/stream.go:560-586 – `readNameObject`: the name and the position behind it (`none` = error). -/
def readName (d : Bytes) (p : Nat) : Option (Bytes × Nat) :=
  match d.drop p with
  | 47 :: r => let t := r.takeWhile fun c => !nameEnd c
    some (47 :: t, p + 1 + t.length)
  | _ => none

/-- forms/xfa/stream.go:602-606 – what `readPDFObject` keeps: the byte before, the depths of dictionaries, arrays and strings, and whether the
next byte is the second one of a marker. -/
structure Scan where
  prev : UInt8
  dict : Int := 0
  arr : Int := 0
  str : Int := 0
  skip : Bool := false

/-- forms/xfa/stream.go:615, :624 – outside of everything. -/
def Scan.top (s : Scan) : Bool := s.dict == 0 && s.arr == 0 && s.str == 0

/-- forms/xfa/stream.go:632-651 – one byte `c`, followed by `r`. -/
def Scan.step (s : Scan) (c : UInt8) (r : Bytes) : Scan :=
  if s.skip then { s with prev := c, skip := false }
  else if s.str = 0 ∧ c = 60 ∧ r.head? = some 60 then { s with prev := c, dict := s.dict + 1, skip := true }
  else if s.str = 0 ∧ c = 62 ∧ r.head? = some 62 then { s with prev := c, dict := s.dict - 1, skip := true }
  else
    let s := if s.str = 0 ∧ c = 91 then { s with arr := s.arr + 1 } else if s.str = 0 ∧ c = 93 then { s with arr := s.arr - 1 } else s
    let s := if c = 40 ∧ s.prev ≠ 92 then { s with str := s.str + 1 }
      else if c = 41 ∧ 0 < s.str ∧ s.prev ≠ 92 then { s with str := s.str - 1 } else s
    { s with prev := c }

/-- forms/xfa/stream.go:611-656 – how many bytes `readPDFObject` takes. -/
def scan : Scan → Bytes → Nat
  | _, [] => 0
  | s, c :: r =>
    if !s.skip && s.top && ((c == 62 && r.head? == some 62) || (ws s.prev && c == 47)) then 0
    else scan (s.step c r) r + 1

/-- forms/xfa/stream.go:593-657 – `readPDFObject`: the bytes and the position behind them.  (It is called behind `<<`, so there is a byte before.) -/
def readValue (d : Bytes) (p : Nat) : Bytes × Nat :=
  let n := scan { prev := d.getD (p - 1) 0 } (d.drop p)
  ((d.drop p).take n, p + n)

/-- forms/xfa/stream.go:509-552 – the loop of `parseDictionaryFromStream` from position `p`, at most `fuel` rounds (`none` = still running). -/
def dictLoop (d : Bytes) : Nat → Nat → Option (Res (List (Bytes × Bytes)))
  | 0, _ => none
  | fuel + 1, p =>
    let p := skipComment d (skipWs d p)
    if (d.drop p).take 2 = b!">>" then some (.ok [])
    else match readName d p with
      | none => if (index b!">>" (d.drop p)).isSome then some (.ok []) else some .err
      | some (k, q) =>
        let v := readValue d (skipWs d q)
        (dictLoop d fuel v.2).map fun r => r.bind fun es => .ok ((k, v.1) :: es)

/-- forms/xfa/stream.go:497-557 – `parseDictionaryFromStream` from position `p`. -/
def parseDict (d : Bytes) (fuel p : Nat) : Option (Res (List (Bytes × Bytes))) :=
  if (d.drop p).take 2 = b!"<<" then dictLoop d fuel (p + 2) else some .err

/-- forms/xfa/stream.go:689-702 – `reconstructDictionary`. -/
def rebuildDict (es : List (Bytes × Bytes)) : Bytes := b!"<<\n" ++ (es.flatMap fun e => e.1 ++ b!" " ++ e.2 ++ b!"\n") ++ b!">>"

/-- forms/xfa/stream.go:445-449 – the object around its content. -/
def objText (n g : Int) (c : Bytes) : Bytes := itoa n ++ b!" " ++ itoa g ++ b!" obj\n" ++ c ++ b!"\nendobj"

/-- forms/xfa/stream.go:661-683 – `decryptParsedDictionary`. -/
def decryptDict (v : Int) (dec : Bytes → Option Bytes) (es : List (Bytes × Bytes)) : List (Bytes × Bytes) :=
  es.map fun e => (e.1, match dec e.2 with
    | some t => t
    | none => (XFA.decryptInChunks v dec e.2).getD e.2)

/-- forms/xfa/stream.go:318-457 – `ReadObjectFromXRef` behind the header: object `n`, asked for with generation `asked`; `g` is the generation of
the header and `p` the position.  Without encryption `DecryptObject` gives its data back (core/encrypt/decrypt.go:13-16) and `decrypts` is false. -/
def readBody (decrypts : Bool) (v : Int) (dec : Int → Int → Bytes → Option Bytes) (d : Bytes) (fuel : Nat) (n asked : Int) (g : Int) (p : Nat) :
    Option (Res Bytes) :=
  if (d.drop p).take 2 = b!"<<" then
    (parseDict d fuel p).map fun r => r.bind fun es =>
      .ok (objText n asked (rebuildDict (if decrypts then decryptDict v (dec n g) es else es)))
  else
    let whole (c : Bytes) : Option Bytes := match dec n g c with
      | some t => some t
      | none => XFA.decryptInChunks v (dec n g) c
    let test := match dec n g ((d.drop p).take (min 200 (d.length - p))) with
      | some t => decide (d.length > p) && contains t b!"<<"
      | none => false
    match index b!"endobj" (d.drop p) with
    | none => some .err
    | some e =>
      let c := (d.drop p).take e
      if test then
        match whole c with
        | none => some .err
        | some t => (parseDict t fuel 0).map fun
          | .ok es => .ok (objText n asked (rebuildDict es))
          | .err => .ok (objText n asked t)
          | .panic => .panic
      else if decrypts then some ((Res.ofOption (whole c)).bind fun t => .ok (objText n asked t))
      else some (.ok (objText n asked c))

end Pdfer.PDFStream
