import Verif.Model.XFA

/-! Model of forms/xfa on encrypted files: forms/xfa/xfa_utils.go:178-528, :664-799 and forms/xfa/xfa.go:117-314 with `encryptInfo ≠ nil`.

`dec` is `encrypt.DecryptObject` with the key of the file (object number, generation, data; `none` = an error), `v` its algorithm number.
`verbose` is off.  The array behind the caller's slice is passed along, because the code appends to parts of that slice. -/

namespace Pdfer.XFA

open Pdfer.Go Pdfer.Document Pdfer.Forms Pdfer.Incremental

/-- forms/xfa/xfa_utils.go:21-153 – `findObjectBoundaries` as `objectBytes`, with the start of the object in the file. -/
def objectSpan (pdf : Bytes) (i : Int) (n : Int) : Res (Nat × Bytes) :=
  let head := itoa n ++ b!" 0 obj"
  let cut (start : Int) : Res (Nat × Bytes) :=
    if start < 0 ∨ start > pdf.length then .panic
    else (Res.ofOption (index b!"endobj" (pdf.drop start.toNat))).bind fun e => .ok (start.toNat, (pdf.drop start.toNat).take (e + 6))
  let near : Res (Option Nat) :=
    if 0 ≤ i ∧ i < pdf.length then (window pdf i 2000 2000).bind fun w => .ok ((index head w.2).map (· + w.1)) else .ok none
  near.bind fun
  | some p => cut (lineStart pdf p)
  | none =>
    match index head pdf with
    | some p => cut (lineStart pdf p)
    | none =>
      (window pdf i 1000 1000).bind fun w =>
      let other : Option Nat := (index (itoa n) w.2).bind fun p =>
        let r := pdf.drop (w.1 + p + (itoa n).length)
        if 10 < r.length then
          (match r with | c :: r' => if objWs c ∧ (b!"0 obj").isPrefixOf (r'.take 9) then some (w.1 + p) else none | [] => none)
        else none
      match other with
      | some p => cut (lineStart pdf p)
      | none =>
        (window pdf i 5000 5000).bind fun w5 =>
        if contains w5.2 b!"obj" then cut i
        else window pdf i 200 10000

/-- forms/xfa/xfa_utils.go:668-670 – `%d\s+(\d+)\s+obj` anchored: the digits. -/
def reGen (n : Int) (s : Bytes) : Option Bytes :=
  (reLit (itoa n) s).bind fun s => (reSp1 s).bind fun s => (reNum s).bind fun q => (reSp1 q.2).bind fun s => (reLit b!"obj" s).map fun _ => q.1

/-- forms/xfa/xfa_utils.go:671 – `%d\s*(\d+)\s*obj` anchored: the digits. -/
def reGenLoose (n : Int) (s : Bytes) : Option Bytes :=
  (reLit (itoa n) s).bind fun s => (reNum (reSp0 s)).bind fun q => (reLit b!"obj" (reSp0 q.2)).map fun _ => q.1

/-- forms/xfa/xfa_utils.go:674-682 – the patterns one after the other (the first two are the same). -/
def genIn (n : Int) (s : Bytes) : Option Nat :=
  match (searchWith (reGen n) s).bind (atoiMag 9223372036854775807) with
  | some g => some g
  | none => (searchWith (reGenLoose n) s).bind (atoiMag 9223372036854775807)

/-- forms/xfa/xfa_utils.go:664-701 – `extractGenerationNumber`. -/
def genNumber (obj : Bytes) (n : Int) : Nat :=
  match genIn n obj with
  | some g => g
  | none => if obj.length > 1000 then (genIn n (obj.take 500)).getD 0 else 0

/-- forms/xfa/xfa_utils.go:455-481 – whether a decryption is taken for part of a PDF file.  The quotient of two ints below 2^50 is above the float
0.3 exactly if it is above 3/10. -/
def looksLikePDF (d : Bytes) : Bool :=
  let keywords := contains d b!"/" && (contains d b!"/XFA" || contains d b!"/Fields" || contains d b!"/AcroForm")
  let dict := contains d b!"/Type" || contains d b!"/Subtype" || contains d b!"/Kids"
  let printable := decide (10 * (d.filter fun b => 32 ≤ b && b < 127).length > 3 * d.length)
  (contains d b!"<<" && contains d b!">>" && (keywords || dict)) || (keywords && printable)

/-- forms/xfa/xfa_utils.go:442-505 – one offset. -/
def chunkAt (dec : Bytes → Option Bytes) (data : Bytes) (k : Nat) : Option Bytes :=
  if data.length - k < 16 ∨ (data.length - k) % 16 ≠ 0 then none
  else (dec (data.drop k)).bind fun d => if d ≠ [] ∧ looksLikePDF d then some (data.take k ++ d) else none

/-- forms/xfa/xfa_utils.go:430-528 – `decryptInChunks` (`none` = error). -/
def decryptInChunks (v : Int) (dec : Bytes → Option Bytes) (data : Bytes) : Option Bytes :=
  if data = [] then some data
  else if v = 4 ∨ v = 5 then
    match (List.range (min 200 data.length)).findSome? (chunkAt dec data) with
    | some r => some r
    | none => dec data
  else dec data

/-- forms/xfa/xfa_utils.go:178-426 – `findAndDecryptAcroForm`: the object, and the array behind the caller's slice afterwards.  The decrypted part is
appended to the slice that ends where the encrypted part begins, so it overwrites the file. -/
def decryptAcroForm (xref : Bytes → Nat → Option (Map Int Int)) (v : Int) (dec : Decrypt) (arr : Bytes) (len : Nat) (n : Int) :
    Res (Bytes × Bytes) :=
  let pdf := arr.take len
  (Res.ofOption (findObjectByNumber xref pdf n)).bind fun i =>
  (objectSpan pdf i n).bind fun span =>
  let start := span.1
  let obj := span.2
  let key := index b!"obj" obj
  let chunks := decryptInChunks v (dec n (genNumber obj n))
  let ds := match key with | some o => o + 3 + ((obj.drop (o + 3)).takeWhile objWs).length | none => 0
  match index b!"stream" obj with
  | some k => (slice obj ds k).bind fun d => match chunks d with
    | none => .ok (obj, arr)
    | some t =>
      let s1 := append arr (.shared (start + ds)) t
      let s2 := append s1.2 s1.1 ((s1.2.take (start + obj.length)).drop (start + k))
      .ok ((s2.1.read s2.2).drop start, s2.2)
  | none => match index b!"endobj" obj with
    | none =>
      if key = none then
        let rel := (i - start).toNat
        let m := min 10000 (obj.length - rel) / 16 * 16
        if 16 ≤ m then
          match chunks ((obj.drop rel).take m) with
          | some t => .ok (if t ≠ [] then t else obj, arr)
          | none => .ok (obj, arr)
        else .ok (obj, arr)
      else match chunks (obj.drop ds) with
        | none => .ok (obj, arr)
        | some t =>
          let s1 := append arr (.shared (start + ds)) t
          .ok ((s1.1.read s1.2).drop start, s1.2)
    | some e => (slice obj ds e).bind fun d => match chunks d with
      | none => .ok (obj, arr)
      | some t =>
        if key ≠ none then
          let s1 := append arr (.shared (start + ds)) t
          let s2 := append s1.2 s1.1 b!"endobj"
          .ok ((s2.1.read s2.2).drop start, s2.2)
        else .ok (t, arr)

/-- forms/xfa/xfa_utils.go:704-799 – `extractStreamFromPDF` on an encrypted file. -/
def oldStreamEnc (xref : Bytes → Nat → Option (Map Int Int)) (dec : Decrypt) (pdf : Bytes) (n : Int) : Res Bytes :=
  (Res.ofOption (findObjectByNumber xref pdf n)).bind fun i =>
  (objectBytes pdf i n).bind fun obj =>
  (oldStream xref pdf n).bind fun s => Res.ofOption (dec n (genNumber obj n) s)

/-- forms/xfa/xfa.go:243-283 – the data of one stream (`.ok none` = skipped). -/
def streamInfoEnc (src : Src) (dec : Decrypt) (pdf : Bytes) (n : Int) : Res (Option Info) :=
  let obj : Res Bytes := match getObject src.unz (some dec) pdf n with
    | .err => oldStreamEnc src.xref dec pdf n
    | r => r
  match obj with
  | .panic => .panic
  | .err => .ok none
  | .ok o => match streamDataOf src.zip o with
    | .panic => .panic
    | .err => .ok none
    | .ok d => .ok (some { data := (decompress src.zip d).1, num := n, compressed := (decompress src.zip d).2 })

/-- forms/xfa/xfa.go:236-311 – the loop over the references. -/
def streamLoopEnc (src : Src) (dec : Decrypt) (pdf : Bytes) : Map Bytes Info → List (Bytes × Bytes) → Res (Map Bytes Info)
  | m, [] => .ok m
  | m, (name, ds) :: rest =>
    match atoi ds with
    | none => streamLoopEnc src dec pdf m rest
    | some n => (streamInfoEnc src dec pdf n).bind fun
      | none => streamLoopEnc src dec pdf m rest
      | some i => streamLoopEnc src dec pdf (if name ∈ known then m.set name i else m) rest

/-- forms/xfa/xfa.go:117-314 – `ExtractAllXFAStreams` on an encrypted file: the streams by name, and the array behind the caller's slice
afterwards (the caller's slice is its first `len` bytes). -/
def extractAllEnc (src : Src) (v : Int) (dec : Decrypt) (arr : Bytes) (len : Nat) : Res (Map Bytes Info × Bytes) :=
  let pdf := arr.take len
  let content : Res (Bytes × Bytes) :=
    (match searchWith reAcroForm pdf with
      | some ds => Res.ofOption (atoi ds)
      | none => if (searchWith (fun s => (reLit b!"/AcroForm" s).bind fun r => reLit b!"<<" (reSp0 r)) pdf).isSome then .ok 0 else .err).bind fun n =>
    if n > 0 then
      (match getObject src.unz (some dec) pdf n with
        | .err => decryptAcroForm src.xref v dec arr len n
        | .ok o => .ok (o, arr)
        | .panic => .panic).bind fun obj => (Res.ofOption (xfaArray obj.1)).bind fun a => .ok (a, obj.2)
    else (Res.ofOption (xfaInline pdf)).bind fun a => .ok (a, arr)
  content.bind fun a =>
  let refs := findAll reStreamRef 0 a.1
  if refs = [] then .err else (streamLoopEnc src dec (a.2.take len) [] refs).bind fun m => .ok (m, a.2)

end Pdfer.XFA
