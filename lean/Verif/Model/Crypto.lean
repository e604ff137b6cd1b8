import Verif.Model.Incremental

/-! Encryption: core/encrypt/key_derivation.go, core/encrypt/decrypt.go, core/encrypt/parser.go,
core/write/encryption_v5.go and core/write/writer.go:482-546.

The primitives of Go's `crypto` packages (MD5, SHA-256, the AES block functions and the RC4 key stream) are
the fields of `Prim`; the theorems range over every `Prim` satisfying `Prim.Lawful`, and
`Model/CryptoPrim.lean` supplies executable definitions of the real ones.  Random bytes are parameters. -/

namespace Pdfer.Crypto

open Go

/-- Go's `crypto/md5`, `crypto/sha256`, `crypto/aes` (one 16-byte block) and `crypto/rc4` (key stream). -/
structure Prim where
  md5 : Bytes → Bytes
  sha256 : Bytes → Bytes
  aesEnc : Bytes → Bytes → Bytes
  aesDec : Bytes → Bytes → Bytes
  rc4 : Bytes → Nat → UInt8

/-- crypto/aes `NewCipher`: the accepted key sizes (any other length is an error). -/
def aesKeyOk (k : Bytes) : Bool := k.length == 16 || k.length == 24 || k.length == 32

/-- What is used of the primitives: digest sizes, block size, and that AES decryption inverts encryption. -/
structure Prim.Lawful (P : Prim) : Prop where
  md5_len : ∀ m, (P.md5 m).length = 16
  sha_len : ∀ m, (P.sha256 m).length = 32
  enc_len : ∀ k b, aesKeyOk k = true → b.length = 16 → (P.aesEnc k b).length = 16
  dec_len : ∀ k b, aesKeyOk k = true → b.length = 16 → (P.aesDec k b).length = 16
  dec_enc : ∀ k b, aesKeyOk k = true → b.length = 16 → P.aesDec k (P.aesEnc k b) = b

/-- types/types.go:4-19 – `PDFEncryption` (the fields the code uses).  `keyTail` is what follows the slice
`EncryptKey` in its backing array: re-slicing it (decrypt.go:232) may reach those bytes. -/
structure Enc where
  v : Nat
  r : Nat
  keyLength : Nat
  o : Bytes
  u : Bytes
  ue : Bytes
  oe : Bytes
  p : Int
  encryptMetadata : Bool
  encryptKey : Bytes
  keyTail : Bytes
  deriving DecidableEq, Repr, Inhabited

/-! ### Small helpers of package crypto -/

/-- crypto/rc4 `XORKeyStream` of a fresh cipher. -/
def rc4Xor (P : Prim) (k data : Bytes) : Bytes := (data.zipIdx).map fun e => e.1 ^^^ P.rc4 k e.2

/-- crypto/rc4 `NewCipher`: an error unless 1 to 256 key bytes. -/
def rc4KeyOk (k : Bytes) : Bool := 1 ≤ k.length && k.length ≤ 256

/-- XOR of two blocks (crypto/cipher CBC). -/
def xorB (a b : Bytes) : Bytes := List.zipWith (· ^^^ ·) a b

/-- The 16-byte blocks of a slice whose length is a multiple of 16. -/
def blocks : Nat → Bytes → List Bytes
  | 0, _ => []
  | f + 1, d => if d = [] then [] else d.take 16 :: blocks f (d.drop 16)

/-- Block-wise application without chaining: the ECB loops at core/encrypt/key_derivation.go:429-431,
:478-480 and core/write/encryption_v5.go:216-218. -/
def ecb (f : Bytes → Bytes) (d : Bytes) : Bytes := ((blocks d.length d).map f).flatten

/-- crypto/cipher `NewCBCEncrypter(...).CryptBlocks`. -/
def cbcEnc (f : Bytes → Bytes) : Bytes → List Bytes → Bytes
  | _, [] => []
  | iv, b :: bs => let c := f (xorB b iv); c ++ cbcEnc f c bs

/-- crypto/cipher `NewCBCDecrypter(...).CryptBlocks`. -/
def cbcDec (f : Bytes → Bytes) : Bytes → List Bytes → Bytes
  | _, [] => []
  | iv, c :: cs => xorB (f c) iv ++ cbcDec f c cs

/-- core/write/writer.go:514-519, core/write/encryption_v5.go:201-207 – PKCS#7 padding. -/
def pkcs7 (d : Bytes) : Bytes :=
  let n := 16 - d.length % 16
  d ++ List.replicate n (UInt8.ofNat n)

/-! ### Keys from passwords, revisions 2 to 4 -/

/-- core/encrypt/key_derivation.go:30-35 – the 32-byte padding string. -/
def paddingString : Bytes :=
  [0x28, 0xBF, 0x4E, 0x5E, 0x4E, 0x75, 0x8A, 0x41, 0x64, 0x00, 0x4E, 0x56, 0xFF, 0xFA, 0x01, 0x08,
   0x2E, 0x2E, 0x00, 0xB6, 0xD0, 0x68, 0x3E, 0x80, 0x2F, 0x0C, 0xA9, 0xFE, 0x64, 0x53, 0x69, 0x7A]

/-- core/encrypt/key_derivation.go:37-50, :213-225 – the password brought to 32 bytes. -/
def padPassword (pw : Bytes) : Bytes :=
  if pw.length = 0 then paddingString
  else (List.range 32).map fun i => pw.getD (i % pw.length) 0

/-- core/encrypt/key_derivation.go:58-59 – `uint32(P)`, little-endian. -/
def le32 (p : Int) : Bytes :=
  let n := (p % 4294967296).toNat
  [UInt8.ofNat (n % 256), UInt8.ofNat (n / 256 % 256), UInt8.ofNat (n / 65536 % 256), UInt8.ofNat (n / 16777216)]

/-- core/encrypt/key_derivation.go:86-92, :233-239 – `k` further MD5 rounds over `key[:n]`. -/
def md5Rounds (P : Prim) (n : Nat) : Nat → Bytes → Res Bytes
  | 0, key => .ok key
  | k + 1, key => (sliceTo key n).bind fun s => md5Rounds P n k (P.md5 s)

/-- core/encrypt/key_derivation.go:52-97 – the key, before truncation to `KeyLength`. -/
def deriveDigestV4 (P : Prim) (pw : Bytes) (e : Enc) (fileID : Bytes) : Res Bytes :=
  let digest := P.md5 (padPassword pw ++ e.o ++ le32 e.p ++ fileID ++
    (if e.encryptMetadata then [] else [0xFF, 0xFF, 0xFF, 0xFF]))
  if e.r ≥ 3 then md5Rounds P e.keyLength 50 digest else .ok digest

/-- core/encrypt/key_derivation.go:21-100 – `DeriveEncryptionKey`, `R < 5`: the key and the rest of its
backing array. -/
def deriveKeyV4 (P : Prim) (pw : Bytes) (e : Enc) (fileID : Bytes) : Res (Bytes × Bytes) :=
  (deriveDigestV4 P pw e fileID).bind fun d => .ok (d.take e.keyLength, d.drop e.keyLength)

/-- core/encrypt/key_derivation.go:163-170 – the 19 further RC4 passes of Algorithm 5. -/
def rc4Rounds (P : Prim) (key : Bytes) : List Nat → Bytes → Bytes
  | [], d => d
  | i :: is, d => rc4Rounds P key is (rc4Xor P (key.map (· ^^^ UInt8.ofNat i)) d)

/-- core/encrypt/key_derivation.go:105-195 – `ComputeUValue`. -/
def computeU (P : Prim) (key : Bytes) (e : Enc) (fileID : Bytes) : Res Bytes :=
  if e.r = 2 then
    if rc4KeyOk key then .ok (rc4Xor P key paddingString) else .err
  else if e.r ≥ 3 ∧ e.r < 5 then
    if rc4KeyOk key then
      .ok (rc4Rounds P key ((List.range 19).map (· + 1)) (rc4Xor P key ((P.md5 (paddingString ++ fileID)).take 16)) ++
        List.replicate 16 0)
    else .err
  else .err

/-- core/encrypt/key_derivation.go:199-263 – `DeriveOwnerKey`, `R < 5`. -/
def deriveOwnerV4 (P : Prim) (pw : Bytes) (e : Enc) (fileID : Bytes) : Res (Bytes × Bytes) :=
  (if e.r ≥ 3 then md5Rounds P e.keyLength 50 (P.md5 (padPassword pw)) else .ok (P.md5 (padPassword pw))).bind
    fun h =>
  let k := h.take e.keyLength
  if rc4KeyOk k then
    let dec := if e.r = 2 then rc4Xor P k e.o
      else rc4Xor P k (e.o.take 32) ++ List.replicate (e.o.length - 32) 0
    deriveKeyV4 P dec e fileID
  else .err

/-! ### Keys from passwords, revision 5 and later -/

/-- core/encrypt/key_derivation.go:362-374, core/write/encryption_v5.go:17-22 – the first eight bytes of the
file identifier, zero-padded. -/
def fileID8 (fileID : Bytes) : Bytes := (fileID ++ List.replicate 8 0).take 8

/-- core/encrypt/key_derivation.go:388-395, core/write/encryption_v5.go:122-126 – `k` further SHA-256 rounds. -/
def shaRounds (P : Prim) : Nat → Bytes → Bytes
  | 0, key => key
  | k + 1, key => shaRounds P k (P.sha256 key)

/-- core/encrypt/key_derivation.go:360-401 – `DeriveEncryptionKeyV5`; `DeriveOwnerKeyV5` (:504-507) is the same
function. -/
def deriveKeyV5 (P : Prim) (pw fileID : Bytes) : Bytes := shaRounds P 64 (P.sha256 (pw ++ fileID8 fileID))

/-- core/encrypt/key_derivation.go:405-451 and :455-500 – `UnwrapUserKeyV5` / `UnwrapOwnerKeyV5` on the wrapped
key `w`: the key and the rest of its backing array. -/
def unwrapV5 (P : Prim) (pwKey w : Bytes) : Res (Bytes × Bytes) :=
  if w.length = 0 then .err
  else if pwKey.length < 16 then .err
  else if w.length % 16 ≠ 0 then .err
  else
    let d := ecb (P.aesDec (pwKey.take 16)) w
    let pad := (d.getLastD 0).toNat
    if pad > d.length ∨ pad > 16 then .err
    else .ok (d.take (d.length - pad), d.drop (d.length - pad))

/-- core/encrypt/key_derivation.go:524-547, core/write/encryption_v5.go:134-151 – the 32 bytes stored in /U
(or /O): the SHA-256 digest of the message encrypted block by block. -/
def hashedV5 (P : Prim) (pwKey msg : Bytes) : Bytes :=
  let h := P.sha256 msg
  P.aesEnc (pwKey.take 16) (h.take 16) ++ P.aesEnc (pwKey.take 16) (h.drop 16)

/-- core/encrypt/key_derivation.go:511-599 – `VerifyUValueV5` with `ComputeUValueV5`. -/
def verifyUV5 (P : Prim) (pw pwKey u : Bytes) : Res Bool :=
  if u.length < 48 then .err
  else if pwKey.length < 16 then .err
  else .ok ((u.take 40).drop 8 == hashedV5 P pwKey (pw ++ u.take 8))

/-! ### `DecryptPDF` -/

/-- core/encrypt/decrypt.go:34-93 – the branch `R ≥ 5`. -/
def unlockV5 (P : Prim) (e : Enc) (fileID pw : Bytes) : Res Enc :=
  let k := deriveKeyV5 P pw fileID
  (verifyUV5 P pw k e.u).bind fun ok =>
  if ok then
    (unwrapV5 P k e.ue).bind fun q => .ok { e with encryptKey := q.1, keyTail := q.2 }
  else
    match unwrapV5 P k e.oe with
    | .ok q => .ok { e with encryptKey := q.1, keyTail := q.2 }
    | .err => .err
    | .panic => .panic

/-- core/encrypt/decrypt.go:117-124 – the comparison with the stored /U value. -/
def uMatches (u computed : Bytes) : Bool :=
  decide (u.length ≥ 16) && decide (computed.length ≥ 16) && (computed.take 16 == u.take 16)

/-- core/encrypt/decrypt.go:94-168 – the branch `R < 5`. -/
def unlockV4 (P : Prim) (e : Enc) (fileID pw : Bytes) : Res Enc :=
  (deriveKeyV4 P pw e fileID).bind fun q =>
  (computeU P q.1 e fileID).bind fun uv =>
  if uMatches e.u uv then .ok { e with encryptKey := q.1, keyTail := q.2 }
  else
    match deriveOwnerV4 P pw e fileID with
    | .panic => .panic
    | .err => .err
    | .ok q2 =>
      match computeU P q2.1 e fileID with
      | .ok uv2 => if uMatches e.u uv2 then .ok { e with encryptKey := q2.1, keyTail := q2.2 } else .err
      | .err => .err
      | .panic => .panic

/-- core/encrypt/decrypt.go:17-180 – `DecryptPDF` after the dictionary and the file identifier have been read
(the errors are not distinguished). -/
def unlock (P : Prim) (e : Enc) (fileID pw : Bytes) : Res Enc :=
  if e.r ≥ 5 then unlockV5 P e fileID pw else unlockV4 P e fileID pw

/-! ### Objects -/

/-- core/encrypt/decrypt.go:209-218, core/write/writer.go:488-489 – number and generation, little-endian. -/
def packObj (n : Int) (g : Nat) : Bytes :=
  [UInt8.ofNat (n % 256).toNat, UInt8.ofNat (n / 256 % 256).toNat, UInt8.ofNat (n / 65536 % 256).toNat,
   UInt8.ofNat (g % 256), UInt8.ofNat (g / 256 % 256)]

/-- core/encrypt/decrypt.go:248-252, core/write/writer.go:504-508 – "sAlT". -/
def salt : Bytes := [0x73, 0x41, 0x6C, 0x54]

/-- core/encrypt/decrypt.go:201-304 – `DecryptObject`. -/
def decryptObject (P : Prim) (e : Enc) (n : Int) (g : Nat) (data : Bytes) : Res Bytes :=
  if e.encryptKey.length = 0 then .ok data
  else
    let kl := if e.v > 1 then e.keyLength else 5
    (sliceTo (e.encryptKey ++ e.keyTail) kl).bind fun k =>
    if e.v = 1 ∨ e.v = 2 then
      .ok (rc4Xor P ((P.md5 (k ++ packObj n g)).take (min (kl + 5) 16)) data)
    else if e.v = 4 ∨ e.v = 5 then
      let ak := (P.md5 (k ++ packObj n g ++ salt)).take (min (kl + 5) 16)
      if data.length < 16 then .err
      else
        let iv := data.take 16
        let body := data.drop 16
        if body.length = 0 then .ok body
        else if body.length % 16 ≠ 0 then .err
        else if ¬ aesKeyOk ak then .err
        else
          let d := cbcDec (P.aesDec ak) iv (blocks body.length body)
          let pad := (d.getLastD 0).toNat
          if pad > d.length then .err else .ok (d.take (d.length - pad))
    else .ok data

/-- core/write/writer.go:482-546 – `encryptStream`; `iv` is the random initialisation vector. -/
def encryptStream (P : Prim) (e : Enc) (iv : Bytes) (n : Int) (g : Nat) (data : Bytes) : Res Bytes :=
  if e.encryptKey.length = 0 then .ok data
  else
    let kl := if e.keyLength = 0 then 5 else e.keyLength
    (sliceTo (e.encryptKey ++ e.keyTail) kl).bind fun k =>
    if e.v = 4 ∨ e.v = 5 then
      let ak := (P.md5 (k ++ packObj n g ++ salt)).take (min (kl + 5) 16)
      if ¬ aesKeyOk ak then .err
      else
        let padded := pkcs7 data
        .ok (iv ++ cbcEnc (P.aesEnc ak) iv (blocks padded.length padded))
    else .ok data

/-! ### Setting up AES-256 -/

/-- core/write/encryption_v5.go:193-221 – `wrapKeyV5` (the wrapping key is a 32-byte digest here). -/
def wrapKeyV5 (P : Prim) (key wrapping : Bytes) : Bytes := ecb (P.aesEnc (wrapping.take 16)) (pkcs7 key)

/-- The random bytes drawn by `SetupAES256Encryption` (core/write/encryption_v5.go:37-66; the owner
encryption key drawn at :43-46 is never used). -/
structure Random where
  key : Bytes
  userSalt : Bytes
  userKeySalt : Bytes
  ownerSalt : Bytes
  ownerKeySalt : Bytes

/-- The sizes of the random values (core/write/encryption_v5.go:37, :49-52). -/
structure Random.Ok (g : Random) : Prop where
  key : g.key.length = 32
  userSalt : g.userSalt.length = 8
  userKeySalt : g.userKeySalt.length = 8
  ownerSalt : g.ownerSalt.length = 8
  ownerKeySalt : g.ownerKeySalt.length = 8

/-- core/write/encryption_v5.go:15-107 – `SetupAES256Encryption` (with :112-187 inlined). -/
def setupAES256 (P : Prim) (g : Random) (userPw ownerPw fileID : Bytes) (perm : Int) (encryptMetadata : Bool) : Enc :=
  let uk := deriveKeyV5 P userPw fileID
  let ok := deriveKeyV5 P ownerPw fileID
  let u := g.userSalt ++ hashedV5 P uk (userPw ++ g.userSalt) ++ g.userKeySalt
  { v := 5, r := 5, keyLength := 32, p := perm, encryptMetadata := encryptMetadata,
    u := u,
    o := g.ownerSalt ++ hashedV5 P ok (ownerPw ++ g.ownerSalt ++ u) ++ g.ownerKeySalt,
    ue := wrapKeyV5 P g.key uk,
    oe := wrapKeyV5 P g.key ok,
    encryptKey := g.key, keyTail := [] }

/-! ### The encryption dictionary -/

/-- core/write/encryption_v5.go:224-271 – `CreateEncryptionDictionary`. -/
def encryptDict (e : Enc) : Bytes :=
  b!"<<\n/Filter /Standard\n" ++ b!"/V " ++ natDec e.v ++ b!"\n" ++ b!"/R " ++ natDec e.r ++ b!"\n" ++
  b!"/Length " ++ natDec (e.keyLength * 8) ++ b!"\n" ++ b!"/P " ++ itoa e.p ++ b!"\n" ++
  b!"/U <" ++ hexUpper e.u ++ b!">\n" ++ b!"/O <" ++ hexUpper e.o ++ b!">\n" ++
  (if e.ue.length > 0 then b!"/UE <" ++ hexUpper e.ue ++ b!">\n" else []) ++
  (if e.oe.length > 0 then b!"/OE <" ++ hexUpper e.oe ++ b!">\n" else []) ++
  (if e.encryptMetadata then [] else b!"/EncryptMetadata false\n") ++ b!">>"

/-- A hexadecimal digit. -/
def isHex (c : UInt8) : Bool := (48 ≤ c && c ≤ 57) || (65 ≤ c && c ≤ 70) || (97 ≤ c && c ≤ 102)

/-- The value of a hexadecimal digit (as `strconv.ParseUint(_, 16, 8)` reads it). -/
def hexDigit (c : UInt8) : Option Nat :=
  if 48 ≤ c ∧ c ≤ 57 then some (c.toNat - 48)
  else if 65 ≤ c ∧ c ≤ 70 then some (c.toNat - 55)
  else if 97 ≤ c ∧ c ≤ 102 then some (c.toNat - 87)
  else none

/-- core/encrypt/key_derivation.go:347-355 – the pairs of digits; a pair that is not hexadecimal is skipped. -/
def parseHexPairs : Bytes → Bytes
  | a :: b :: r =>
    match hexDigit a, hexDigit b with
    | some x, some y => UInt8.ofNat (16 * x + y) :: parseHexPairs r
    | _, _ => parseHexPairs r
  | _ => []

/-- core/encrypt/key_derivation.go:341-356 – `parseHexString` (`strconv.ParseUint` would also accept a
leading sign in no case, and underscores only with base 0). -/
def parseHexString (s : Bytes) : Bytes := parseHexPairs (s.filter fun c => !(c == 32 || c == 10 || c == 13))

/-- core/encrypt/parser.go:20 – `/Encrypt\s+(\d+)\s+(\d+)\s+R`; the first group. -/
def reEncrypt (s : Bytes) : Option Bytes :=
  (reLit b!"/Encrypt" s).bind fun s => (reSp1 s).bind fun s => (reNum s).bind fun p => (reSp1 p.2).bind fun s =>
  (reNum s).bind fun q => (reSp1 q.2).bind fun s => (reLit b!"R" s).map fun _ => p.1

/-- core/encrypt/parser.go:56-69 – the scan for the matching `>>`: how many bytes the dictionary takes.
`fuel` is the number of positions still to be visited (the 2000-byte window). -/
def scanDict : Nat → Int → Nat → Bytes → Option Nat
  | fuel + 1, depth, i, a :: b :: r =>
    if a = 60 ∧ b = 60 then scanDict (fuel - 1) (depth + 1) (i + 2) r
    else if a = 62 ∧ b = 62 then
      if depth - 1 = 0 then some (i + 2) else scanDict (fuel - 1) (depth - 1) (i + 2) r
    else scanDict fuel depth (i + 1) (b :: r)
  | _, _, _, _ => none

/-- `FindAllStringSubmatch` of `key\s+(\d+)` (core/encrypt/parser.go:89, :106, :121): the matched texts with
their group, left to right, without overlap. -/
def findKeyNums (key : Bytes) : Nat → Bytes → List (Bytes × Bytes)
  | _, [] => []
  | skip + 1, _ :: r => findKeyNums key skip r
  | 0, c :: r =>
    match ((reLit key (c :: r)).bind fun s => (reSp1 s).bind fun s => (reNum s)) with
    | some p =>
      let m := (c :: r).take ((c :: r).length - p.2.length)
      (m, p.1) :: findKeyNums key (m.length - 1) r
    | none => findKeyNums key 0 r

/-- core/encrypt/parser.go:93-102 – the text just before the first occurrence of the match contains one of
the markers of a crypt-filter dictionary. -/
def nested (markers : List Bytes) (dict m : Bytes) : Bool :=
  let before := dict.take ((index m dict).getD 0)
  let near := before.drop (before.length - 50)
  markers.any fun k => contains near k

/-- core/encrypt/parser.go:86-116 – the top-level `/V` or `/R`. -/
def topNum (key dict : Bytes) : Nat :=
  match (findKeyNums key 0 dict).find? (fun m => !nested [b!"/CF", b!"/StdCF"] dict m.1) with
  | some m => atoiClamp m.2
  | none => 0

/-- core/encrypt/parser.go:118-133 – the top-level `/Length`, in bytes. -/
def topLength (dict : Bytes) : Nat :=
  match (findKeyNums b!"/Length" 0 dict).find?
      (fun m => !nested [b!"/CF"] dict m.1 && decide (atoiClamp m.2 > 0)) with
  | some m => atoiClamp m.2 / 8
  | none => 0

/-- core/encrypt/parser.go:155 (and :182, :228, :253) – `key\s*<([0-9A-Fa-f]+)>`; the group. -/
def reKeyHex (key s : Bytes) : Option Bytes :=
  (reLit key s).bind fun s => (reLit b!"<" (reSp0 s)).bind fun s =>
  let h := s.takeWhile isHex
  if h = [] then none else (reLit b!">" (s.drop h.length)).map fun _ => h

/-- core/encrypt/parser.go:165 – `key\s*\(`: what follows the parenthesis. -/
def reKeyParen (key s : Bytes) : Option Bytes :=
  (reLit key s).bind fun s => reLit b!"(" (reSp0 s)

/-- core/encrypt/parser.go:153-178 – a hexadecimal or literal string value; `dict` is the dictionary and
`tail` the file from the start of the dictionary. -/
def keyBytes (key dict tail : Bytes) : Bytes :=
  match searchWith (reKeyHex key) dict with
  | some h => parseHexString h
  | none =>
    match searchWith (reKeyParen key) dict with
    | none => []
    | some rest =>
      let from_ := tail.drop (dict.length - rest.length)
      match index b!")" from_ with
      | some k => from_.take k
      | none => []

/-- core/encrypt/parser.go:250-281 – /OE, whose literal form is copied from one byte too early. -/
def keyBytesOE (dict tail : Bytes) : Bytes :=
  match searchWith (reKeyHex b!"/OE") dict with
  | some h => parseHexString h
  | none =>
    match searchWith (reKeyParen b!"/OE") dict with
    | none => []
    | some rest =>
      let from_ := tail.drop (dict.length - rest.length)
      match index b!")" from_ with
      | some k => (tail.drop (dict.length - rest.length - 1)).take k
      | none => []

/-- core/encrypt/parser.go:209 – `/P\s+(-?\d+)`; the sign and the digits. -/
def reKeyInt (key s : Bytes) : Option (Bool × Bytes) :=
  (reLit key s).bind fun s => (reSp1 s).bind fun s =>
  match reLit b!"-" s with
  | some s' => (reNum s').map fun p => (true, p.1)
  | none => (reNum s).map fun p => (false, p.1)

/-- `strconv.ParseInt(_, 10, 32)` with its error ignored: values out of range are clamped. -/
def parseInt32 : Bool × Bytes → Int
  | (true, d) => -(min (digitsVal d) 2147483648 : Nat)
  | (false, d) => (min (digitsVal d) 2147483647 : Nat)

/-- core/encrypt/parser.go:79-287 – the values read from the dictionary text. -/
def readDict (dict tail : Bytes) : Enc :=
  let v := topNum b!"/V" dict
  let r := topNum b!"/R" dict
  let r := if r = 0 then 4 else r
  let kl := topLength dict
  { v := if v = 0 then 4 else v,
    r := r,
    keyLength := if kl = 0 then (if r = 2 then 5 else if r ≥ 5 then 32 else 16) else kl,
    o := keyBytes b!"/O" dict tail,
    u := keyBytes b!"/U" dict tail,
    p := ((searchWith (reKeyInt b!"/P") dict).map parseInt32).getD 0,
    encryptMetadata := !contains dict b!"/EncryptMetadata false",
    ue := if r ≥ 5 then keyBytes b!"/UE" dict tail else [],
    oe := if r ≥ 5 then keyBytesOE dict tail else [],
    encryptKey := [], keyTail := [] }

/-- core/encrypt/parser.go:15-289 – `ParseEncryptionDictionary` (`none` = error). -/
def parseEncrypt (pdf : Bytes) : Option Enc :=
  (searchWith reEncrypt pdf).bind fun d =>
  (atoi d).bind fun n =>
  (index (itoa n ++ b!" 0 obj") pdf).bind fun at_ =>
  (index b!"<<" (pdf.drop at_)).bind fun k =>
  let tail := pdf.drop (at_ + k)
  (scanDict 2000 0 0 tail).map fun len => readDict (tail.take len) tail

/-- core/encrypt/key_derivation.go:300 – `/ID\[<([0-9A-Fa-f]+)>`; the group. -/
def reIDHex2 (s : Bytes) : Option Bytes :=
  (reLit b!"/ID[<" s).bind fun s =>
  let h := s.takeWhile isHex
  if h = [] then none else (reLit b!">" (s.drop h.length)).map fun _ => h

/-- core/encrypt/key_derivation.go:283 – `/ID\s*\[\s*<([0-9A-Fa-f]+)>`; the group. -/
def reIDHex (s : Bytes) : Option Bytes :=
  (reLit b!"/ID" s).bind fun s => (reLit b!"[" (reSp0 s)).bind fun s => (reLit b!"<" (reSp0 s)).bind fun s =>
  let h := s.takeWhile isHex
  if h = [] then none else (reLit b!">" (s.drop h.length)).map fun _ => h

/-- core/encrypt/key_derivation.go:316 – `/ID\s*\[\s*\(`; what follows. -/
def reIDParen (s : Bytes) : Option Bytes :=
  (reLit b!"/ID" s).bind fun s => (reLit b!"[" (reSp0 s)).bind fun s => reLit b!"(" (reSp0 s)

/-- core/encrypt/key_derivation.go:278-338 – `ExtractFileID`. -/
def extractFileID (pdf : Bytes) : Bytes :=
  let hex := ((searchWith reIDHex pdf).map parseHexString).getD []
  let hex2 := ((searchWith reIDHex2 pdf).map parseHexString).getD []
  if hex.length > 0 then hex
  else if hex2.length > 0 then hex2
  else
    match searchWith reIDParen pdf with
    | none => []
    | some rest =>
      match index b!")" rest with
      | some k => rest.take k
      | none => []

/-- core/encrypt/decrypt.go:17-180 – `DecryptPDF`: the encryption record with its key. -/
def decryptPDF (P : Prim) (pdf pw : Bytes) : Res Enc :=
  (Res.ofOption (parseEncrypt pdf)).bind fun e => unlock P e (extractFileID pdf) pw

/-- core/parse/api.go:118-138 – `handleEncryption`: `ok none` when no encryption dictionary can be read. -/
def handleEncryption (P : Prim) (pdf pw : Bytes) : Res (Option Enc) :=
  match parseEncrypt pdf with
  | none => .ok none
  | some e => (unlock P e (extractFileID pdf) pw).bind fun e => .ok (some e)

end Pdfer.Crypto
