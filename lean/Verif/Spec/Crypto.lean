import Verif.Model.Crypto
import Verif.Spec.Incremental

/-! What ISO 32000-1 7.6.3 says about password-based encryption at revision 2, and vocabulary for C31–C35, C59–C63. -/

namespace Pdfer.Spec

open Pdfer.Crypto

/-- ISO 32000-1 Algorithm 2 step a: pad or truncate the password to 32 bytes with the fixed padding string. -/
def isoPad (pw : Bytes) : Bytes := (pw ++ paddingString).take 32

/-- Algorithm 2 (revision 2, 40-bit key): the file key. -/
def isoKeyR2 (P : Prim) (pw o pBytes fid : Bytes) : Bytes := (P.md5 (isoPad pw ++ o ++ pBytes ++ fid)).take 5

/-- Algorithm 3 (revision 2): the value of /O. -/
def isoOwnerR2 (P : Prim) (userPw ownerPw : Bytes) : Bytes := rc4Xor P ((P.md5 (isoPad ownerPw)).take 5) (isoPad userPw)

/-- Algorithm 4 (revision 2): the value of /U. -/
def isoUserR2 (P : Prim) (pw o pBytes fid : Bytes) : Bytes := rc4Xor P (isoKeyR2 P pw o pBytes fid) paddingString

/-- The encryption dictionary of a revision-2 file made by a conforming writer for the two passwords, with
/P -4 (whose four bytes are FC FF FF FF). -/
def isoRecordR2 (P : Prim) (userPw ownerPw fid : Bytes) : Enc :=
  let o := isoOwnerR2 P userPw ownerPw
  { v := 1, r := 2, keyLength := 5, o := o, u := isoUserR2 P userPw o [0xFC, 0xFF, 0xFF, 0xFF] fid, ue := [], oe := [],
    p := -4, encryptMetadata := true, encryptKey := [], keyTail := [] }

/-- The low `k` bytes of a number, the lowest first. -/
def lowBytes : Nat → Nat → Bytes
  | 0, _ => []
  | k + 1, n => UInt8.ofNat (n % 256) :: lowBytes k (n / 256)

/-- Algorithm 1 steps b to d: the key of object `n` of generation `g` – the first `length of the file key + 5` (at most 16)
bytes of the MD5 of the file key, three bytes of the number, two of the generation and, for AES, the text sAlT. -/
def isoObjectKey (P : Prim) (aes : Bool) (key : Bytes) (n g : Nat) : Bytes :=
  (P.md5 (key ++ lowBytes 3 n ++ lowBytes 2 g ++ if aes then b!"sAlT" else [])).take (min (key.length + 5) 16)

/-- Cipher-block chaining: every block is combined with the previous cipher block before it is encrypted. -/
def isoCbc (f : Bytes → Bytes) : Bytes → List Bytes → List Bytes
  | _, [] => []
  | prev, b :: bs => f (List.zipWith (· ^^^ ·) b prev) :: isoCbc f (f (List.zipWith (· ^^^ ·) b prev)) bs

/-- `bs` are the 16-byte blocks of the data followed by its padding: 1 to 16 bytes, each of which is their number. -/
def PaddedBlocks (data : Bytes) (bs : List Bytes) : Prop :=
  (∀ b ∈ bs, b.length = 16) ∧ ∃ k, 1 ≤ k ∧ k ≤ 16 ∧ bs.flatten = data ++ List.replicate k (UInt8.ofNat k)

/-- A stream object with dictionary text `dict` and stored data `c` that a reader looking for keywords can take apart: one
/Length, and none of the keywords `stream`, `endstream` and `endobj` where they do not belong. -/
structure Separable (dict c : Bytes) : Prop where
  lengthOnce : ∀ i j, OccursAt b!"/Length" dict i → OccursAt b!"/Length" dict j → i = j
  stream : Absent b!"stream" dict
  endstream : Absent b!"endstream" (dict ++ b!"\nstream\n" ++ c)
  endobj : Absent b!"endobj" (dict ++ b!"\nstream\n" ++ c ++ b!"\nendstream")

/-- Opening succeeded, whatever the key. -/
def Opens (r : Go.Res Enc) : Prop := ∃ e, r = .ok e

/-- Opening succeeded and the file key is `key`. -/
def OpensWith (r : Go.Res Enc) (key : Bytes) : Prop := ∃ e, r = .ok e ∧ e.encryptKey = key

end Pdfer.Spec
