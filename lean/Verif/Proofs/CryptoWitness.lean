import Verif.Proofs.Crypto
import Verif.Proofs.CryptoPrim
import Verif.Spec.Crypto

/-! Concrete computations with the real primitives, evaluated in the kernel. -/

namespace Pdfer.Crypto

open Go

set_option maxRecDepth 1000000

/-- Fixed "random" values for the witnesses. -/
def witRandom : Random :=
  ⟨(List.range 32).map (UInt8.ofNat), List.replicate 8 1, List.replicate 8 2, List.replicate 8 3, List.replicate 8 4⟩

/-- A record set up for the passwords "user" and "owner", no file identifier. -/
def witEnc : Enc := setupAES256 goPrim witRandom b!"user" b!"owner" [] (-4) true

def keyUser : Bytes :=
  [194, 50, 172, 243, 33, 46, 94, 68, 182, 170, 228, 222, 102, 241, 75, 73, 234, 147, 162, 119, 184, 134, 118, 240, 12,
   147, 2, 243, 116, 197, 205, 210]
def keyOwner : Bytes :=
  [33, 206, 98, 158, 35, 96, 53, 173, 21, 60, 13, 8, 128, 18, 114, 125, 116, 119, 8, 152, 112, 3, 229, 15, 88, 245, 63,
   130, 131, 223, 121, 83]

theorem keyUser_eq : deriveKeyV5 goPrim b!"user" [] = keyUser := by decide +kernel
theorem keyOwner_eq : deriveKeyV5 goPrim b!"owner" [] = keyOwner := by decide +kernel

def keyGuess : Bytes :=
  [111, 13, 117, 134, 175, 237, 144, 1, 36, 66, 117, 72, 207, 1, 49, 225, 215, 51, 127, 157, 166, 210, 92, 24, 4, 71, 43,
   59, 148, 94, 44, 159]

theorem keyGuess_eq : deriveKeyV5 goPrim b!"guess16" [] = keyGuess := by decide +kernel

def witOE : Bytes :=
  [49, 157, 172, 50, 112, 108, 130, 197, 173, 174, 90, 90, 40, 92, 105, 146, 142, 33, 118, 119, 90, 230, 193, 36, 60, 181,
   57, 97, 215, 10, 112, 209, 216, 9, 241, 150, 211, 155, 179, 32, 42, 3, 83, 141, 250, 180, 22, 117]

theorem witOE_eq : wrapKeyV5 goPrim witRandom.key keyOwner = witOE := by decide +kernel

theorem guess_hash : hashedV5 goPrim keyUser (b!"user" ++ witRandom.userSalt) ≠
    hashedV5 goPrim keyGuess (b!"guess16" ++ witRandom.userSalt) := by decide +kernel

theorem owner_hash : hashedV5 goPrim keyUser (b!"user" ++ witRandom.userSalt) ≠
    hashedV5 goPrim keyOwner (b!"owner" ++ witRandom.userSalt) := by decide +kernel

theorem guess_unwrap : (match unwrapV5 goPrim keyGuess witOE with | .ok q => q.1.length | _ => 0) = 35 := by decide +kernel

theorem witRandom_ok : witRandom.Ok := by refine ⟨?_, ?_, ?_, ?_, ?_⟩ <;> rfl

/-- The password "guess16" opens the file, with a key of 35 bytes instead of the file's 32. -/
theorem guess_opens : ∃ e, unlock goPrim witEnc [] b!"guess16" = .ok e ∧ e.encryptKey.length = 35 := by
  have hr : witEnc.r ≥ 5 := by simp [witEnc, setupAES256]
  have hv := setup_verify goPrim_lawful witRandom witRandom_ok b!"user" b!"owner" [] (-4) true b!"guess16"
  have hoe : witEnc.oe = witOE := by
    rw [← witOE_eq, ← keyOwner_eq]; rfl
  have hne : (hashedV5 goPrim keyUser (b!"user" ++ witRandom.userSalt) ==
      hashedV5 goPrim keyGuess (b!"guess16" ++ witRandom.userSalt)) = false := by
    rw [beq_eq_false_iff_ne]; exact guess_hash
  rw [keyUser_eq, keyGuess_eq, hne] at hv
  simp only [unlock, if_pos hr, unlockV5]
  rw [keyGuess_eq, show witEnc.u = (setupAES256 goPrim witRandom b!"user" b!"owner" [] (-4) true).u from rfl, hv, hoe]
  have := guess_unwrap
  cases hu : unwrapV5 goPrim keyGuess witOE with
  | err => rw [hu] at this; simp at this
  | panic => rw [hu] at this; simp at this
  | ok q =>
    rw [hu] at this
    exact ⟨_, rfl, this⟩

/-! ### RC4 -/

theorem rc4Stream_prefix : ∀ (m n i j : Nat) (s : List Nat), m ≤ n → (rc4Stream n i j s).take m = rc4Stream m i j s := by
  intro m
  induction m with
  | zero => intro n i j s _; simp [rc4Stream]
  | succ m ih =>
    intro n i j s h
    obtain ⟨k, rfl⟩ : ∃ k, n = k + 1 := ⟨n - 1, by omega⟩
    simp only [rc4Stream, List.take_succ_cons]
    rw [ih k _ _ _ (by omega)]

theorem rc4Stream_length : ∀ (n i j : Nat) (s : List Nat), (rc4Stream n i j s).length = n := by
  intro n
  induction n with
  | zero => intro i j s; rfl
  | succ n ih => intro i j s; simp [rc4Stream, ih]

/-- RC4 with the state set up once. -/
theorem rc4Xor_goPrim (k d : Bytes) :
    rc4Xor goPrim k d = List.zipWith (· ^^^ ·) d (rc4Stream d.length 0 0 (rc4Init k 256 0 0 (List.range 256))) := by
  apply List.ext_getElem
  · simp [rc4Xor, rc4Stream_length]
  · intro i h1 h2
    have hi : i < d.length := by simpa [rc4Xor] using h1
    simp only [rc4Xor, List.getElem_map, List.getElem_zipIdx, List.getElem_zipWith, goPrim, rc4]
    congr 1
    have := rc4Stream_prefix (0 + i + 1) d.length 0 0 (rc4Init k 256 0 0 (List.range 256)) (by omega)
    rw [← this]
    simp [List.getD_eq_getElem?_getD, List.getElem?_take, List.getElem?_eq_getElem, rc4Stream_length, hi]

/-- /O and /U of the revision-2 file with the passwords "user" and "owner". -/
def r2O : Bytes :=
  [148, 232, 9, 68, 25, 102, 42, 119, 68, 66, 251, 7, 46, 61, 159, 25, 233, 209, 48, 236, 9, 164, 208, 6, 30, 120, 254,
   146, 15, 122, 182, 47]
def r2U : Bytes :=
  [69, 140, 247, 194, 91, 48, 236, 156, 34, 24, 220, 127, 35, 179, 3, 202, 65, 76, 121, 107, 251, 158, 208, 41, 59, 4,
   134, 111, 175, 198, 166, 190]

theorem r2O_eq : Spec.isoOwnerR2 goPrim b!"user" b!"owner" = r2O := by
  have : (goPrim.md5 (Spec.isoPad b!"owner")).take 5 = [198, 211, 10, 176, 32] := by decide +kernel
  rw [Spec.isoOwnerR2, this, rc4Xor_goPrim]
  decide +kernel

theorem r2U_eq : Spec.isoUserR2 goPrim b!"user" r2O [0xFC, 0xFF, 0xFF, 0xFF] [] = r2U := by
  have : Spec.isoKeyR2 goPrim b!"user" r2O [0xFC, 0xFF, 0xFF, 0xFF] [] = [177, 243, 237, 170, 16] := by decide +kernel
  rw [Spec.isoUserR2, this, rc4Xor_goPrim]
  decide +kernel

/-- The same record with the values written out. -/
def r2Enc : Enc :=
  { v := 1, r := 2, keyLength := 5, o := r2O, u := r2U, ue := [], oe := [], p := -4, encryptMetadata := true,
    encryptKey := [], keyTail := [] }

theorem r2Enc_eq : Spec.isoRecordR2 goPrim b!"user" b!"owner" [] = r2Enc := by
  simp only [Spec.isoRecordR2, r2O_eq, r2U_eq, r2Enc]

theorem r2_derive : deriveKeyV4 goPrim b!"user" r2Enc [] =
    .ok ([134, 114, 90, 221, 112], [221, 85, 15, 99, 183, 245, 234, 47, 219, 194, 88]) := by decide +kernel

theorem r2_u1 : uMatches r2U (rc4Xor goPrim [134, 114, 90, 221, 112] paddingString) = false := by
  rw [rc4Xor_goPrim]; decide +kernel

def r2Dec : Bytes :=
  [1, 106, 87, 158, 27, 211, 210, 64, 29, 142, 90, 171, 196, 194, 217, 15, 218, 195, 255, 51, 213, 12, 206, 172, 126, 105,
   80, 191, 27, 10, 153, 145]

theorem r2_dec : rc4Xor goPrim [106, 131, 168, 253, 137] r2O = r2Dec := by
  rw [rc4Xor_goPrim]; decide +kernel

theorem r2_derive2 : deriveKeyV4 goPrim r2Dec r2Enc [] =
    .ok ([211, 250, 102, 251, 110], [221, 52, 237, 153, 75, 25, 249, 123, 140, 28, 115]) := by decide +kernel

theorem r2_u2 : uMatches r2U (rc4Xor goPrim [211, 250, 102, 251, 110] paddingString) = false := by
  rw [rc4Xor_goPrim]; decide +kernel

theorem r2_owner : deriveOwnerV4 goPrim b!"user" r2Enc [] =
    .ok ([211, 250, 102, 251, 110], [221, 52, 237, 153, 75, 25, 249, 123, 140, 28, 115]) := by
  have h1 : (goPrim.md5 (padPassword b!"user")).take 5 = [106, 131, 168, 253, 137] := by decide +kernel
  have h2 : r2Enc.r = 2 := rfl
  have h3 : r2Enc.keyLength = 5 := rfl
  have h4 : r2Enc.o = r2O := rfl
  have h5 : rc4KeyOk [106, 131, 168, 253, 137] = true := rfl
  simp only [deriveOwnerV4, h2, if_neg (show ¬ 2 ≥ 3 by omega), Res.bind, h3, h1, h5, if_true, h4, r2_dec, r2_derive2]

/-- The correct user password is rejected. -/
theorem r2_rejected : unlock goPrim (Spec.isoRecordR2 goPrim b!"user" b!"owner" []) [] b!"user" = .err := by
  have h2 : r2Enc.r = 2 := rfl
  have h4 : r2Enc.u = r2U := rfl
  have h5 : rc4KeyOk [134, 114, 90, 221, 112] = true := rfl
  have h6 : rc4KeyOk [211, 250, 102, 251, 110] = true := rfl
  rw [r2Enc_eq]
  simp only [unlock, h2, if_neg (show ¬ 2 ≥ 5 by omega), unlockV4, r2_derive, Res.bind, computeU, h5, h6, if_true, h4,
    r2_u1, r2_owner, r2_u2, Bool.false_eq_true, if_false]

end Pdfer.Crypto
