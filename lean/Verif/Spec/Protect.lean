import Verif.Model.Writer
import Verif.Spec.Written

/-! Files written with an encryption dictionary: where the words that describe it stand. -/

namespace Pdfer.Spec.Protect

open Pdfer.Go Pdfer.Spec

/-- `k` stands at one place of the text at most. -/
def Once (k s : Bytes) : Prop := ∀ i j, OccursAt k s i → OccursAt k s j → i = j

/-- Nothing in the file looks like the header of the encryption dictionary, like its entry in the trailer or like a file
identifier, apart from these themselves.  `em` tells whether the metadata is encrypted. -/
structure Marks (file : Bytes) (n : Int) (em : Bool) : Prop where
  head : Once (itoa n ++ b!" 0 obj") file
  id : Once b!"/ID" file
  entry : Once (b!"/Encrypt " ++ Writer.ref n) file
  noMetadata : Once b!"/EncryptMetadata false" file
  others : ∀ i, OccursAt b!"/Encrypt" file i →
    OccursAt (b!"/Encrypt " ++ Writer.ref n) file i ∨ (em = false ∧ OccursAt b!"/EncryptMetadata false" file i)

/-- Calls that leave the encryption as it was set up: the object `n`, the reference to it and the file identifier. -/
def LeavesEncryption (n : Int) : Writer.Op → Prop
  | .setObject m _ => m ≠ n
  | .setStream m _ _ _ => m ≠ n
  | .setEncryptRef _ => False
  | .setEncryption _ => False
  | .useObjectStream on => on = false
  | _ => True

/-- Stream data of which only is left whether there is any. -/
def hideData (data : Option Bytes) : Option Bytes := data.map fun s => if s.length > 0 then [0] else []

/-- A call without the data of its stream. -/
def hide : Writer.Op → Writer.Op
  | .addStream d data compress => .addStream d (hideData data) compress
  | .setStream n d data compress => .setStream n d (hideData data) compress
  | op => op

end Pdfer.Spec.Protect
