import Verif.Basic

/-! Model of core/parse/filters.go (everything but FlateDecode, which is Go's zlib). -/

namespace Pdfer.Filters

/-- core/parse/filters.go:50 and :113 – the whitespace test of both decoders:
`b == ' ' || b == '\t' || b == '\r' || b == '\n' || b == '\f'`. -/
def isWs (b : UInt8) : Bool :=
  b == 32 || b == 9 || b == 13 || b == 10 || b == 12

/-- core/parse/filters.go:60-70 – hex character to nibble (`none` is the error case). -/
def nibble (b : UInt8) : Option UInt8 :=
  if 48 ≤ b && b ≤ 57 then some (b - 48)
  else if 65 ≤ b && b ≤ 70 then some (b - 65 + 10)
  else if 97 ≤ b && b ≤ 102 then some (b - 97 + 10)
  else none

/-- core/parse/filters.go:84-87 – what is written when the loop ends with or without a pending nibble. -/
def hexFinish : Option UInt8 → Bytes
  | none => []
  | some h => [h <<< 4]

/-- core/parse/filters.go:44-90 – the loop of `DecodeASCIIHex`; the state is `haveNibble`/`hexByte`
(as an `Option`) and the bytes written by the rest of the loop are returned.  `none` is the error. -/
def hexLoop : Option UInt8 → Bytes → Option Bytes
  | st, [] => some (hexFinish st)
  | st, b :: rest =>
    if isWs b then hexLoop st rest
    else if b == 62 then some (hexFinish st)
    else match nibble b with
      | none => none
      | some n =>
        match st with
        | some h => (hexLoop none rest).map (fun out => (h <<< 4 ||| n) :: out)
        | none => hexLoop (some n) rest

/-- core/parse/filters.go:44-90 – `DecodeASCIIHex`. -/
def decodeASCIIHex (data : Bytes) : Option Bytes := hexLoop none data

/-- core/parse/filters.go:228 – `hexChars[i]` of "0123456789ABCDEF" (index always below 16). -/
def hexChar (i : UInt8) : UInt8 := (b!"0123456789ABCDEF").getD i.toNat 0

/-- core/parse/filters.go:226-237 – `EncodeASCIIHex`. -/
def encodeASCIIHex (data : Bytes) : Bytes :=
  data.flatMap (fun (b : UInt8) => [hexChar (b >>> 4), hexChar (b &&& 0x0F)]) ++ [62]

/-- core/parse/filters.go:165-181 – `decodeASCII85Tuple`: base-85 value in uint32 arithmetic
(wrap-around modulo 2^32), then four big-endian bytes. -/
def a85TupleBytes (t : List Nat) : Bytes :=
  let v := (t.getD 0 0 * 85 * 85 * 85 * 85 + t.getD 1 0 * 85 * 85 * 85 + t.getD 2 0 * 85 * 85
            + t.getD 3 0 * 85 + t.getD 4 0) % 4294967296
  [UInt8.ofNat (v / 16777216), UInt8.ofNat (v / 65536), UInt8.ofNat (v / 256), UInt8.ofNat v]

/-- core/parse/filters.go:147-159 – the partial tuple at the end: pad with 84 and keep
`tupleIndex - 1` bytes. -/
def a85Flush (t : List Nat) : Bytes :=
  if t.length > 0 then
    (a85TupleBytes (t ++ List.replicate (5 - t.length) 84)).take (t.length - 1)
  else []

/-- core/parse/filters.go:108-145 – the loop of `DecodeASCII85`; `t` holds `tuple[:tupleIndex]`. -/
def a85Loop : List Nat → Bytes → Option Bytes
  | t, [] => some (a85Flush t)
  | t, b :: rest =>
    if isWs b then a85Loop t rest
    else if b == 126 && rest.head? == some 62 then some (a85Flush t)
    else if b == 122 then
      if t.length ≠ 0 then none
      else (a85Loop t rest).map (fun out => [0, 0, 0, 0] ++ out)
    else if b < 33 || b > 117 then none
    else
      let t' := t ++ [(b - 33).toNat]
      if t'.length = 5 then (a85Loop [] rest).map (fun out => a85TupleBytes t' ++ out)
      else a85Loop t' rest

/-- core/parse/filters.go:99-101 – drop a leading `<~`. -/
def a85Strip (data : Bytes) : Bytes :=
  if (b!"<~").isPrefixOf data then data.drop 2 else data

/-- core/parse/filters.go:95-162 – `DecodeASCII85`. -/
def decodeASCII85 (data : Bytes) : Option Bytes := a85Loop [] (a85Strip data)

/-- core/parse/filters.go:259-263 and :273-277 – five base-85 digits of a 32-bit value, most
significant first, each plus '!'. -/
def a85Digits (v : Nat) : Bytes :=
  [UInt8.ofNat (v / 52200625 % 85) + 33, UInt8.ofNat (v / 614125 % 85) + 33,
   UInt8.ofNat (v / 7225 % 85) + 33, UInt8.ofNat (v / 85 % 85) + 33, UInt8.ofNat (v % 85) + 33]

/-- core/parse/filters.go:246-280 – the loop of `EncodeASCII85` over groups of four bytes; the
uint32 shifts and ors never overlap or overflow, so they are written as Nat arithmetic. -/
def a85Groups : Bytes → Bytes
  | a :: b :: c :: d :: rest =>
    let v := a.toNat * 16777216 + b.toNat * 65536 + c.toNat * 256 + d.toNat
    if v = 0 then 122 :: a85Groups rest
    else a85Digits v ++ a85Groups rest
  | [a, b, c] => (a85Digits (a.toNat * 16777216 + b.toNat * 65536 + c.toNat * 256)).take 4
  | [a, b] => (a85Digits (a.toNat * 16777216 + b.toNat * 65536)).take 3
  | [a] => (a85Digits (a.toNat * 16777216)).take 2
  | [] => []

/-- core/parse/filters.go:241-284 – `EncodeASCII85`. -/
def encodeASCII85 (data : Bytes) : Bytes := b!"<~" ++ a85Groups data ++ b!"~>"

/-- core/parse/filters.go:188-222 – `DecodeRunLength` (structural recursion on a fuel argument that
is always at least the number of remaining bytes; each step of the Go loop consumes at least one). -/
def rleDecodeFuel : Nat → Bytes → Option Bytes
  | _, [] => some []
  | 0, _ :: _ => none
  | fuel + 1, len :: rest =>
    if len.toNat = 128 then some []
    else if len.toNat < 128 then
      let count := len.toNat + 1
      if count > rest.length then none
      else (rleDecodeFuel fuel (rest.drop count)).map (fun out => rest.take count ++ out)
    else
      match rest with
      | [] => none
      | x :: rest' => (rleDecodeFuel fuel rest').map (fun out => List.replicate (257 - len.toNat) x ++ out)

/-- core/parse/filters.go:188-222 – `DecodeRunLength`. -/
def decodeRunLength (data : Bytes) : Option Bytes := rleDecodeFuel data.length data

/-- core/parse/filters.go:297-299 – `for i < len(data)-1 && data[i] == data[i+1] && i-runStart < 127`;
`k` is `i - runStart`, the list is `data[i:]`; returns the final `i - runStart`. -/
def runScan : Nat → Bytes → Nat
  | k, x :: y :: rest => if x == y && k < 127 then runScan (k + 1) (y :: rest) else k
  | k, _ => k

/-- core/parse/filters.go:309-311 – the literal scan; `k` is `i - literalStart`, the list is `data[i:]`. -/
def litScan : Nat → Bytes → Nat
  | k, [] => k
  | k, [_] => if k < 127 then k + 1 else k
  | k, x :: y :: rest => if x != y && k < 127 then litScan (k + 1) (y :: rest) else k

/-- core/parse/filters.go:294-321 – the loop of `EncodeRunLength` (fuel at least the number of
remaining bytes; each iteration consumes at least one). -/
def rleEncodeFuel : Nat → Bytes → Bytes
  | _, [] => [128]
  | 0, _ :: _ => [128]
  | fuel + 1, x :: xs =>
    let data := x :: xs
    let runLength := runScan 0 data + 1
    if runLength ≥ 2 then
      UInt8.ofNat (257 - runLength) :: x :: rleEncodeFuel fuel (data.drop runLength)
    else
      let lit := litScan 0 data
      UInt8.ofNat (lit - 1) :: (data.take lit ++ rleEncodeFuel fuel (data.drop lit))

/-- core/parse/filters.go:287-324 – `EncodeRunLength`. -/
def encodeRunLength (data : Bytes) : Bytes := rleEncodeFuel data.length data

/-- core/parse/filters.go:329-343 – `DecodeDCTDecode`: pass-through after checking the SOI marker. -/
def decodeDCT (data : Bytes) : Option Bytes :=
  if data.length < 2 then none
  else if data.getD 0 0 != 0xFF || data.getD 1 0 != 0xD8 then none
  else some data

/-- core/parse/filters.go:347-355 – `EncodeDCTDecode`. -/
def encodeDCT (data : Bytes) : Option Bytes :=
  if data.length < 2 || data.getD 0 0 != 0xFF || data.getD 1 0 != 0xD8 then none
  else some data

/-- core/parse/filters.go:13-28 – `DecodeFilter`; `flate` stands for Go's zlib reader
(core/parse/filters.go:31-39). -/
def decodeFilter (flate : Bytes → Option Bytes) (data : Bytes) (filterName : Bytes) : Option Bytes :=
  if filterName = b!"/FlateDecode" ∨ filterName = b!"FlateDecode" then flate data
  else if filterName = b!"/ASCIIHexDecode" ∨ filterName = b!"ASCIIHexDecode" then decodeASCIIHex data
  else if filterName = b!"/ASCII85Decode" ∨ filterName = b!"ASCII85Decode" then decodeASCII85 data
  else if filterName = b!"/RunLengthDecode" ∨ filterName = b!"RunLengthDecode" then decodeRunLength data
  else if filterName = b!"/DCTDecode" ∨ filterName = b!"DCTDecode" then decodeDCT data
  else none

end Pdfer.Filters
