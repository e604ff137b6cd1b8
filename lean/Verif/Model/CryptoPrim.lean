import Verif.Model.Crypto

/-! Executable definitions of the cryptographic primitives that pdfer takes from Go's standard library:
MD5 (RFC 1321), SHA-256 (FIPS 180-4), AES (FIPS 197) and RC4.  They instantiate `Prim`, so that the theorems
about every lawful `Prim` hold of the real algorithms, and concrete files can be evaluated.  32-bit words are
natural numbers. -/

namespace Pdfer.Crypto

/-! ### Words -/

/-- Addition modulo 2^32. -/
def add32 (a b : Nat) : Nat := (a + b) % 4294967296

/-- Left rotation of a 32-bit word. -/
def rotl (x n : Nat) : Nat := (x <<< n) % 4294967296 ||| (x >>> (32 - n))

/-- Right rotation of a 32-bit word. -/
def rotr (x n : Nat) : Nat := rotl x (32 - n)

/-- Bitwise complement of a 32-bit word. -/
def not32 (x : Nat) : Nat := 4294967295 - x

/-- A 32-bit word from four bytes, big-endian. -/
def wordBE (b : Bytes) : Nat := b.foldl (fun v c => 256 * v + c.toNat) 0

/-- A 32-bit word from four bytes, little-endian. -/
def wordLE (b : Bytes) : Nat := wordBE b.reverse

/-- The bytes of a word, big-endian. -/
def bytesBE (x : Nat) : Bytes :=
  [UInt8.ofNat (x / 16777216 % 256), UInt8.ofNat (x / 65536 % 256), UInt8.ofNat (x / 256 % 256), UInt8.ofNat (x % 256)]

/-- The bytes of a word, little-endian. -/
def bytesLE (x : Nat) : Bytes :=
  [UInt8.ofNat (x % 256), UInt8.ofNat (x / 256 % 256), UInt8.ofNat (x / 65536 % 256), UInt8.ofNat (x / 16777216 % 256)]

/-- Cuts a list into pieces of `n` elements. -/
def chunks {α : Type} (n : Nat) : Nat → List α → List (List α)
  | 0, _ => []
  | f + 1, l => if l.isEmpty then [] else l.take n :: chunks n f (l.drop n)

/-- The length of a message in bits, as eight big-endian bytes. -/
def len64BE (n : Nat) : Bytes := bytesBE (n * 8 / 4294967296) ++ bytesBE (n * 8 % 4294967296)

/-- The padding of MD5 and SHA-256 up to the length field. -/
def mdPad (n : Nat) : Bytes := 0x80 :: List.replicate ((119 - n % 64) % 64) 0

/-! ### SHA-256 -/

/-- The round constants of SHA-256. -/
def shaK : List Nat :=
  [0x428a2f98, 0x71374491, 0xb5c0fbcf, 0xe9b5dba5, 0x3956c25b, 0x59f111f1, 0x923f82a4, 0xab1c5ed5,
   0xd807aa98, 0x12835b01, 0x243185be, 0x550c7dc3, 0x72be5d74, 0x80deb1fe, 0x9bdc06a7, 0xc19bf174,
   0xe49b69c1, 0xefbe4786, 0x0fc19dc6, 0x240ca1cc, 0x2de92c6f, 0x4a7484aa, 0x5cb0a9dc, 0x76f988da,
   0x983e5152, 0xa831c66d, 0xb00327c8, 0xbf597fc7, 0xc6e00bf3, 0xd5a79147, 0x06ca6351, 0x14292967,
   0x27b70a85, 0x2e1b2138, 0x4d2c6dfc, 0x53380d13, 0x650a7354, 0x766a0abb, 0x81c2c92e, 0x92722c85,
   0xa2bfe8a1, 0xa81a664b, 0xc24b8b70, 0xc76c51a3, 0xd192e819, 0xd6990624, 0xf40e3585, 0x106aa070,
   0x19a4c116, 0x1e376c08, 0x2748774c, 0x34b0bcb5, 0x391c0cb3, 0x4ed8aa4a, 0x5b9cca4f, 0x682e6ff3,
   0x748f82ee, 0x78a5636f, 0x84c87814, 0x8cc70208, 0x90befffa, 0xa4506ceb, 0xbef9a3f7, 0xc67178f2]

/-- The message schedule: `k` further words from the last sixteen (most recent first). -/
def shaSchedule : Nat → List Nat → List Nat
  | 0, w => w
  | k + 1, w =>
    let w15 := w.getD 14 0
    let w2 := w.getD 1 0
    let s0 := rotr w15 7 ^^^ rotr w15 18 ^^^ (w15 >>> 3)
    let s1 := rotr w2 17 ^^^ rotr w2 19 ^^^ (w2 >>> 10)
    shaSchedule k (add32 (add32 (w.getD 15 0) s0) (add32 (w.getD 6 0) s1) :: w)

/-- The eight working variables of SHA-256. -/
structure Sha where
  (a b c d e f g h : Nat)

/-- One round of SHA-256 with the sum of round constant and schedule word. -/
def shaRound (s : Sha) (kw : Nat) : Sha :=
  let s1 := rotr s.e 6 ^^^ rotr s.e 11 ^^^ rotr s.e 25
  let ch := (s.e &&& s.f) ^^^ (not32 s.e &&& s.g)
  let t1 := add32 (add32 s.h s1) (add32 ch kw)
  let s0 := rotr s.a 2 ^^^ rotr s.a 13 ^^^ rotr s.a 22
  let maj := (s.a &&& s.b) ^^^ (s.a &&& s.c) ^^^ (s.b &&& s.c)
  ⟨add32 t1 (add32 s0 maj), s.a, s.b, s.c, add32 s.d t1, s.e, s.f, s.g⟩

/-- The compression function of SHA-256 on one 64-byte block. -/
def shaBlock (s : Sha) (blk : Bytes) : Sha :=
  let w := (shaSchedule 48 ((chunks 4 16 blk).map wordBE).reverse).reverse
  let t := (List.zipWith add32 shaK w).foldl shaRound s
  ⟨add32 s.a t.a, add32 s.b t.b, add32 s.c t.c, add32 s.d t.d, add32 s.e t.e, add32 s.f t.f, add32 s.g t.g,
   add32 s.h t.h⟩

/-- SHA-256. -/
def sha256 (m : Bytes) : Bytes :=
  let p := m ++ mdPad m.length ++ len64BE m.length
  let s := (chunks 64 p.length p).foldl shaBlock
    ⟨0x6a09e667, 0xbb67ae85, 0x3c6ef372, 0xa54ff53a,
     0x510e527f, 0x9b05688c, 0x1f83d9ab, 0x5be0cd19⟩
  bytesBE s.a ++ bytesBE s.b ++ bytesBE s.c ++ bytesBE s.d ++ bytesBE s.e ++ bytesBE s.f ++ bytesBE s.g ++ bytesBE s.h

/-! ### MD5 -/

/-- The constants, rotations and message word indices of the 64 steps of MD5. -/
def md5Steps : List (Nat × Nat × Nat) :=
  [(0xd76aa478, 7, 0), (0xe8c7b756, 12, 1), (0x242070db, 17, 2), (0xc1bdceee, 22, 3),
   (0xf57c0faf, 7, 4), (0x4787c62a, 12, 5), (0xa8304613, 17, 6), (0xfd469501, 22, 7),
   (0x698098d8, 7, 8), (0x8b44f7af, 12, 9), (0xffff5bb1, 17, 10), (0x895cd7be, 22, 11),
   (0x6b901122, 7, 12), (0xfd987193, 12, 13), (0xa679438e, 17, 14), (0x49b40821, 22, 15),
   (0xf61e2562, 5, 1), (0xc040b340, 9, 6), (0x265e5a51, 14, 11), (0xe9b6c7aa, 20, 0),
   (0xd62f105d, 5, 5), (0x02441453, 9, 10), (0xd8a1e681, 14, 15), (0xe7d3fbc8, 20, 4),
   (0x21e1cde6, 5, 9), (0xc33707d6, 9, 14), (0xf4d50d87, 14, 3), (0x455a14ed, 20, 8),
   (0xa9e3e905, 5, 13), (0xfcefa3f8, 9, 2), (0x676f02d9, 14, 7), (0x8d2a4c8a, 20, 12),
   (0xfffa3942, 4, 5), (0x8771f681, 11, 8), (0x6d9d6122, 16, 11), (0xfde5380c, 23, 14),
   (0xa4beea44, 4, 1), (0x4bdecfa9, 11, 4), (0xf6bb4b60, 16, 7), (0xbebfbc70, 23, 10),
   (0x289b7ec6, 4, 13), (0xeaa127fa, 11, 0), (0xd4ef3085, 16, 3), (0x04881d05, 23, 6),
   (0xd9d4d039, 4, 9), (0xe6db99e5, 11, 12), (0x1fa27cf8, 16, 15), (0xc4ac5665, 23, 2),
   (0xf4292244, 6, 0), (0x432aff97, 10, 7), (0xab9423a7, 15, 14), (0xfc93a039, 21, 5),
   (0x655b59c3, 6, 12), (0x8f0ccc92, 10, 3), (0xffeff47d, 15, 10), (0x85845dd1, 21, 1),
   (0x6fa87e4f, 6, 8), (0xfe2ce6e0, 10, 15), (0xa3014314, 15, 6), (0x4e0811a1, 21, 13),
   (0xf7537e82, 6, 4), (0xbd3af235, 10, 11), (0x2ad7d2bb, 15, 2), (0xeb86d391, 21, 9)]

/-- The state of MD5. -/
structure Md5 where
  (a b c d : Nat)

/-- One step of MD5; `q` is the quarter (0 to 3). -/
def md5Step (w : List Nat) (q : Nat) (s : Md5) (st : Nat × Nat × Nat) : Md5 :=
  let f := match q with
    | 0 => (s.b &&& s.c) ||| (not32 s.b &&& s.d)
    | 1 => (s.d &&& s.b) ||| (not32 s.d &&& s.c)
    | 2 => s.b ^^^ s.c ^^^ s.d
    | _ => s.c ^^^ (s.b ||| not32 s.d)
  ⟨s.d, add32 s.b (rotl (add32 (add32 s.a f) (add32 st.1 (w.getD st.2.2 0))) st.2.1), s.b, s.c⟩

/-- The compression function of MD5 on one 64-byte block. -/
def md5Block (s : Md5) (blk : Bytes) : Md5 :=
  let w := (chunks 4 16 blk).map wordLE
  let t := (md5Steps.take 16).foldl (md5Step w 0) s
  let t := ((md5Steps.drop 16).take 16).foldl (md5Step w 1) t
  let t := ((md5Steps.drop 32).take 16).foldl (md5Step w 2) t
  let t := (md5Steps.drop 48).foldl (md5Step w 3) t
  ⟨add32 s.a t.a, add32 s.b t.b, add32 s.c t.c, add32 s.d t.d⟩

/-- MD5. -/
def md5 (m : Bytes) : Bytes :=
  let p := m ++ mdPad m.length ++ (len64BE m.length).reverse
  let s := (chunks 64 p.length p).foldl md5Block ⟨0x67452301, 0xefcdab89, 0x98badcfe, 0x10325476⟩
  bytesLE s.a ++ bytesLE s.b ++ bytesLE s.c ++ bytesLE s.d

/-! ### AES -/

/-- The AES S-box. -/
def sbox : List UInt8 :=
  [0x63, 0x7c, 0x77, 0x7b, 0xf2, 0x6b, 0x6f, 0xc5, 0x30, 0x01, 0x67, 0x2b, 0xfe, 0xd7, 0xab, 0x76,
   0xca, 0x82, 0xc9, 0x7d, 0xfa, 0x59, 0x47, 0xf0, 0xad, 0xd4, 0xa2, 0xaf, 0x9c, 0xa4, 0x72, 0xc0,
   0xb7, 0xfd, 0x93, 0x26, 0x36, 0x3f, 0xf7, 0xcc, 0x34, 0xa5, 0xe5, 0xf1, 0x71, 0xd8, 0x31, 0x15,
   0x04, 0xc7, 0x23, 0xc3, 0x18, 0x96, 0x05, 0x9a, 0x07, 0x12, 0x80, 0xe2, 0xeb, 0x27, 0xb2, 0x75,
   0x09, 0x83, 0x2c, 0x1a, 0x1b, 0x6e, 0x5a, 0xa0, 0x52, 0x3b, 0xd6, 0xb3, 0x29, 0xe3, 0x2f, 0x84,
   0x53, 0xd1, 0x00, 0xed, 0x20, 0xfc, 0xb1, 0x5b, 0x6a, 0xcb, 0xbe, 0x39, 0x4a, 0x4c, 0x58, 0xcf,
   0xd0, 0xef, 0xaa, 0xfb, 0x43, 0x4d, 0x33, 0x85, 0x45, 0xf9, 0x02, 0x7f, 0x50, 0x3c, 0x9f, 0xa8,
   0x51, 0xa3, 0x40, 0x8f, 0x92, 0x9d, 0x38, 0xf5, 0xbc, 0xb6, 0xda, 0x21, 0x10, 0xff, 0xf3, 0xd2,
   0xcd, 0x0c, 0x13, 0xec, 0x5f, 0x97, 0x44, 0x17, 0xc4, 0xa7, 0x7e, 0x3d, 0x64, 0x5d, 0x19, 0x73,
   0x60, 0x81, 0x4f, 0xdc, 0x22, 0x2a, 0x90, 0x88, 0x46, 0xee, 0xb8, 0x14, 0xde, 0x5e, 0x0b, 0xdb,
   0xe0, 0x32, 0x3a, 0x0a, 0x49, 0x06, 0x24, 0x5c, 0xc2, 0xd3, 0xac, 0x62, 0x91, 0x95, 0xe4, 0x79,
   0xe7, 0xc8, 0x37, 0x6d, 0x8d, 0xd5, 0x4e, 0xa9, 0x6c, 0x56, 0xf4, 0xea, 0x65, 0x7a, 0xae, 0x08,
   0xba, 0x78, 0x25, 0x2e, 0x1c, 0xa6, 0xb4, 0xc6, 0xe8, 0xdd, 0x74, 0x1f, 0x4b, 0xbd, 0x8b, 0x8a,
   0x70, 0x3e, 0xb5, 0x66, 0x48, 0x03, 0xf6, 0x0e, 0x61, 0x35, 0x57, 0xb9, 0x86, 0xc1, 0x1d, 0x9e,
   0xe1, 0xf8, 0x98, 0x11, 0x69, 0xd9, 0x8e, 0x94, 0x9b, 0x1e, 0x87, 0xe9, 0xce, 0x55, 0x28, 0xdf,
   0x8c, 0xa1, 0x89, 0x0d, 0xbf, 0xe6, 0x42, 0x68, 0x41, 0x99, 0x2d, 0x0f, 0xb0, 0x54, 0xbb, 0x16]

/-- The inverse S-box. -/
def invSbox : List UInt8 :=
  [0x52, 0x09, 0x6a, 0xd5, 0x30, 0x36, 0xa5, 0x38, 0xbf, 0x40, 0xa3, 0x9e, 0x81, 0xf3, 0xd7, 0xfb,
   0x7c, 0xe3, 0x39, 0x82, 0x9b, 0x2f, 0xff, 0x87, 0x34, 0x8e, 0x43, 0x44, 0xc4, 0xde, 0xe9, 0xcb,
   0x54, 0x7b, 0x94, 0x32, 0xa6, 0xc2, 0x23, 0x3d, 0xee, 0x4c, 0x95, 0x0b, 0x42, 0xfa, 0xc3, 0x4e,
   0x08, 0x2e, 0xa1, 0x66, 0x28, 0xd9, 0x24, 0xb2, 0x76, 0x5b, 0xa2, 0x49, 0x6d, 0x8b, 0xd1, 0x25,
   0x72, 0xf8, 0xf6, 0x64, 0x86, 0x68, 0x98, 0x16, 0xd4, 0xa4, 0x5c, 0xcc, 0x5d, 0x65, 0xb6, 0x92,
   0x6c, 0x70, 0x48, 0x50, 0xfd, 0xed, 0xb9, 0xda, 0x5e, 0x15, 0x46, 0x57, 0xa7, 0x8d, 0x9d, 0x84,
   0x90, 0xd8, 0xab, 0x00, 0x8c, 0xbc, 0xd3, 0x0a, 0xf7, 0xe4, 0x58, 0x05, 0xb8, 0xb3, 0x45, 0x06,
   0xd0, 0x2c, 0x1e, 0x8f, 0xca, 0x3f, 0x0f, 0x02, 0xc1, 0xaf, 0xbd, 0x03, 0x01, 0x13, 0x8a, 0x6b,
   0x3a, 0x91, 0x11, 0x41, 0x4f, 0x67, 0xdc, 0xea, 0x97, 0xf2, 0xcf, 0xce, 0xf0, 0xb4, 0xe6, 0x73,
   0x96, 0xac, 0x74, 0x22, 0xe7, 0xad, 0x35, 0x85, 0xe2, 0xf9, 0x37, 0xe8, 0x1c, 0x75, 0xdf, 0x6e,
   0x47, 0xf1, 0x1a, 0x71, 0x1d, 0x29, 0xc5, 0x89, 0x6f, 0xb7, 0x62, 0x0e, 0xaa, 0x18, 0xbe, 0x1b,
   0xfc, 0x56, 0x3e, 0x4b, 0xc6, 0xd2, 0x79, 0x20, 0x9a, 0xdb, 0xc0, 0xfe, 0x78, 0xcd, 0x5a, 0xf4,
   0x1f, 0xdd, 0xa8, 0x33, 0x88, 0x07, 0xc7, 0x31, 0xb1, 0x12, 0x10, 0x59, 0x27, 0x80, 0xec, 0x5f,
   0x60, 0x51, 0x7f, 0xa9, 0x19, 0xb5, 0x4a, 0x0d, 0x2d, 0xe5, 0x7a, 0x9f, 0x93, 0xc9, 0x9c, 0xef,
   0xa0, 0xe0, 0x3b, 0x4d, 0xae, 0x2a, 0xf5, 0xb0, 0xc8, 0xeb, 0xbb, 0x3c, 0x83, 0x53, 0x99, 0x61,
   0x17, 0x2b, 0x04, 0x7e, 0xba, 0x77, 0xd6, 0x26, 0xe1, 0x69, 0x14, 0x63, 0x55, 0x21, 0x0c, 0x7d]

/-- `SubBytes` on one byte. -/
def sub (x : UInt8) : UInt8 := sbox.getD x.toNat 0

/-- `InvSubBytes` on one byte. -/
def invSub (x : UInt8) : UInt8 := invSbox.getD x.toNat 0

/-- Multiplication by x in GF(2^8). -/
def xtime (a : UInt8) : UInt8 := if a &&& 0x80 = 0 then a <<< 1 else (a <<< 1) ^^^ 0x1b

/-- Multiplication by a constant below 16 in GF(2^8). -/
def gmul (k : Nat) (a : UInt8) : UInt8 :=
  (if k.testBit 0 then a else 0) ^^^ (if k.testBit 1 then xtime a else 0) ^^^
  (if k.testBit 2 then xtime (xtime a) else 0) ^^^ (if k.testBit 3 then xtime (xtime (xtime a)) else 0)

/-- `MixColumns` / `InvMixColumns` on one column with the circulant matrix of first row `(p, q, r, s)`. -/
def mixCol (p q r s : Nat) : Bytes → Bytes
  | [a, b, c, d] =>
    [gmul p a ^^^ gmul q b ^^^ gmul r c ^^^ gmul s d,
     gmul s a ^^^ gmul p b ^^^ gmul q c ^^^ gmul r d,
     gmul r a ^^^ gmul s b ^^^ gmul p c ^^^ gmul q d,
     gmul q a ^^^ gmul r b ^^^ gmul s c ^^^ gmul p d]
  | _ => []

/-- `MixColumns`-like transformation of a 16-byte state (columns of four bytes). -/
def mixCols (p q r s : Nat) (st : Bytes) : Bytes := ((chunks 4 4 st).map (mixCol p q r s)).flatten

/-- `ShiftRows` on the column-major state. -/
def shiftRows : Bytes → Bytes
  | [a0, a1, a2, a3, b0, b1, b2, b3, c0, c1, c2, c3, d0, d1, d2, d3] =>
    [a0, b1, c2, d3, b0, c1, d2, a3, c0, d1, a2, b3, d0, a1, b2, c3]
  | _ => []

/-- `InvShiftRows`. -/
def invShiftRows : Bytes → Bytes
  | [a0, a1, a2, a3, b0, b1, b2, b3, c0, c1, c2, c3, d0, d1, d2, d3] =>
    [a0, d1, c2, b3, b0, a1, d2, c3, c0, b1, a2, d3, d0, c1, b2, a3]
  | _ => []

/-- The key expansion: `k` further words; `prev` holds the words so far, most recent first, `nk` the key
length in words, `i` the index of the next word and `rc` the next round constant. -/
def expand (nk : Nat) : Nat → Nat → UInt8 → List Bytes → List Bytes
  | 0, _, _, prev => prev
  | k + 1, i, rc, prev =>
    let t := prev.getD 0 []
    let t' := if i % nk = 0 then xorB ((t.drop 1 ++ t.take 1).map sub) [rc, 0, 0, 0]
      else if nk > 6 ∧ i % nk = 4 then t.map sub else t
    expand nk k (i + 1) (if i % nk = 0 then xtime rc else rc) (xorB (prev.getD (nk - 1) []) t' :: prev)

/-- The round keys of an AES key of 16, 24 or 32 bytes. -/
def roundKeys (key : Bytes) : List Bytes :=
  let nk := key.length / 4
  let ws := (expand nk (4 * (nk + 7) - nk) nk 1 (chunks 4 nk key).reverse).reverse
  (chunks 4 (nk + 7) ws).map List.flatten

/-- One inner round of AES encryption. -/
def encRound (st rk : Bytes) : Bytes := xorB (mixCols 2 3 1 1 (shiftRows (st.map sub))) rk

/-- One inner round of AES decryption. -/
def decRound (st rk : Bytes) : Bytes := (invShiftRows (mixCols 14 11 13 9 (xorB st rk))).map invSub

/-- AES encryption of one block. -/
def aesEnc (key b : Bytes) : Bytes :=
  let rk := roundKeys key
  let st := ((rk.drop 1).take (key.length / 4 + 5)).foldl encRound (xorB b (rk.getD 0 []))
  xorB (shiftRows (st.map sub)) (rk.getD (key.length / 4 + 6) [])

/-- AES decryption of one block. -/
def aesDec (key c : Bytes) : Bytes :=
  let rk := roundKeys key
  let st := (invShiftRows (xorB c (rk.getD (key.length / 4 + 6) []))).map invSub
  xorB (((rk.drop 1).take (key.length / 4 + 5)).reverse.foldl decRound st) (rk.getD 0 [])

/-! ### RC4 -/

/-- The RC4 key schedule: the permutation after steps `i`, `i+1`, ... -/
def rc4Init (key : Bytes) : Nat → Nat → Nat → List Nat → List Nat
  | 0, _, _, s => s
  | f + 1, i, j, s =>
    let j' := (j + s.getD i 0 + (key.getD (i % key.length) 0).toNat) % 256
    rc4Init key f (i + 1) j' ((s.set i (s.getD j' 0)).set j' (s.getD i 0))

/-- The first `f` bytes of the RC4 key stream. -/
def rc4Stream : Nat → Nat → Nat → List Nat → List UInt8
  | 0, _, _, _ => []
  | f + 1, i, j, s =>
    let i' := (i + 1) % 256
    let j' := (j + s.getD i' 0) % 256
    let s' := (s.set i' (s.getD j' 0)).set j' (s.getD i' 0)
    UInt8.ofNat (s'.getD ((s'.getD i' 0 + s'.getD j' 0) % 256) 0) :: rc4Stream f i' j' s'

/-- Byte `n` of the RC4 key stream. -/
def rc4 (key : Bytes) (n : Nat) : UInt8 := (rc4Stream (n + 1) 0 0 (rc4Init key 256 0 0 (List.range 256))).getD n 0

/-- The primitives of Go's standard library. -/
def goPrim : Prim := ⟨md5, sha256, aesEnc, aesDec, rc4⟩

end Pdfer.Crypto
