import Verif.Model.Writer
import Verif.Model.Crypto
import Verif.Model.Incremental

/-! Model of core/write/encryption_helper.go: encryption of a document by two passwords, and of the reader's entry with a
password. -/

namespace Pdfer.Protect

open Pdfer.Go Pdfer.Crypto
open Pdfer.Writer (Writer)

/-- What `SetupEncryptionWithPasswords` leaves behind: the writer, the number of the encryption dictionary and the record
(`w.encryptInfo`). -/
structure Setup where
  writer : Writer
  num : Int
  record : Enc

/-- core/write/encryption_helper.go:11-34 – `SetupEncryptionWithPasswords`; `newID` are the 16 random bytes drawn if the
writer has no file identifier yet (:13-19), `g` the random values of the encryption.  Failures of the random source are
not modelled. -/
def setupPasswords (P : Prim) (g : Random) (newID : Bytes) (w : Writer) (userPw ownerPw : Bytes) (perm : Int) (em : Bool) : Setup :=
  let fid := if w.fileID.length = 0 then newID else w.fileID
  let e := setupAES256 P g userPw ownerPw fid perm em
  let r := Writer.addObject w (some (encryptDict e))
  { writer := { r.1 with encryptRef := Writer.ref r.2, fileID := fid }, num := r.2, record := e }

/-- core/write/writer.go:482-546 as `Write` uses it (:311-318): `encryptStream` with the record and an initialisation
vector for every object; an error leaves the data as it is. -/
def crypt (P : Prim) (e : Enc) (ivs : Int → Bytes) (n : Int) (s : Bytes) : Option Bytes :=
  match encryptStream P e (ivs n) n 0 s with
  | .ok c => some c
  | _ => none

/-- core/parse/api.go:118-138, core/parse/get_object.go:203-208, :226-230 – opening with a password: the decryption of the
objects, `none` when opening fails (a crash is taken for a failure here; see C60). -/
def withPassword (P : Prim) (pw : Bytes) (pdf : Bytes) : Option (Option (Int → Nat → Bytes → Option Bytes)) :=
  match handleEncryption P pdf pw with
  | .ok none => some none
  | .ok (some e) => some (some fun n g data =>
      match decryptObject P e n g data with
      | .ok d => some d
      | _ => none)
  | _ => none

end Pdfer.Protect
