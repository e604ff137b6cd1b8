import Verif.Spec.Crypto
import Verif.Proofs.CryptoFile
import Verif.Proofs.CryptoWitness

/-! Properties C31–C35 and C59–C62: encryption (core/encrypt, core/write/encryption_v5.go).

The theorems hold for every choice of the primitives satisfying `Prim.Lawful`; `goPrim_lawful` shows that the
real MD5, SHA-256 and AES do.  Where a property is violated the witness uses the real primitives. -/

namespace Pdfer.Props

open Pdfer.Go Pdfer.Spec Pdfer.Crypto Pdfer.Incremental

variable {P : Prim}

/-- The real primitives satisfy the assumptions. -/
theorem C31_primitives : goPrim.Lawful := goPrim_lawful

/-! ### C31 -/

/-- C31: whatever the random values and the two passwords, the user password recovers exactly the file key. -/
theorem C31_user_password (h : P.Lawful) (g : Random) (hg : g.Ok) (userPw ownerPw fid : Bytes) (perm : Int) (em : Bool) :
    OpensWith (unlock P (setupAES256 P g userPw ownerPw fid perm em) fid userPw) g.key := by
  obtain ⟨e, h1, h2, _⟩ := unlock_user h g hg userPw ownerPw fid perm em
  exact ⟨e, h1, h2⟩

/-- C31 for files: in a file with the encryption dictionary as object `n`, an entry `/Encrypt n 0 R` and the file
identifier in the trailer, the user password recovers the file key.  `pre`, `mid` and `post` are the rest of the
file; they mention neither /Encrypt nor /ID, and no earlier text looks like the header of object `n`. -/
theorem C31_user_password_file (h : P.Lawful) (g : Random) (hg : g.Ok) (userPw ownerPw fid : Bytes) (perm : Int) (em : Bool)
    (hp : -2147483648 ≤ perm ∧ perm ≤ 2147483647) (n : Nat) (hn : n ≤ 9223372036854775807)
    (pre mid post : Bytes) (hl : Lines pre) (hm : Lines mid)
    (h1 : NoOcc b!"/Encrypt" pre) (h2 : NoOcc b!"/Encrypt" mid) (h3 : NoOcc (natDec n ++ b!" 0 obj") pre)
    (h4 : NoOcc b!"/ID" pre) (h5 : NoOcc b!"/ID" mid) (h6 : NoOcc b!"/ID" post) :
    OpensWith (decryptPDF P (pre ++ (natDec n ++ b!" 0 obj\n" ++
        encryptDict (setupAES256 P g userPw ownerPw fid perm em) ++ b!"\nendobj\n") ++ mid ++
      (b!"/Encrypt " ++ natDec n ++ b!" 0 R\n" ++ idText fid ++ post)) userPw) g.key := by
  rw [decryptPDF_file _ (setup_dictOk h g hg _ _ _ _ _ hp) (by simp [setupAES256])
    (setup_dict_length h g hg _ _ _ _ _ hp) n hn fid userPw pre mid post hl hm h1 h2 h3 h4 h5 h6]
  exact C31_user_password h g hg userPw ownerPw fid perm em

/-- The hypotheses are met by a complete small file. -/
example : OpensWith (decryptPDF goPrim (b!"%PDF-1.7\n1 0 obj\n<</Type/Catalog/Pages 2 0 R>>\nendobj\n" ++
    (natDec 3 ++ b!" 0 obj\n" ++ encryptDict (setupAES256 goPrim witRandom b!"user" b!"owner" b!"0123456789abcdef" (-4) true) ++
      b!"\nendobj\n") ++ b!"xref\n0 4\n...\ntrailer\n<<\n/Size 4\n/Root 1 0 R\n" ++
    (b!"/Encrypt " ++ natDec 3 ++ b!" 0 R\n" ++ idText b!"0123456789abcdef" ++ b!">>\nstartxref\n9\n%%EOF\n")) b!"user")
    witRandom.key := by
  refine C31_user_password_file goPrim_lawful _ witRandom_ok _ _ _ _ _ (by decide) 3 (by decide) _ _ _ ?_ ?_ ?_ ?_ ?_ ?_ ?_ ?_
  · exact .inr ⟨b!"%PDF-1.7\n1 0 obj\n<</Type/Catalog/Pages 2 0 R>>\nendobj", rfl⟩
  · exact .inr ⟨b!"xref\n0 4\n...\ntrailer\n<<\n/Size 4\n/Root 1 0 R", rfl⟩
  all_goals exact noOcc_iff_index.2 (by decide +kernel)

/-! ### C32 -/

/-- C32 (partial: when the owner password differs from the user password, the check values stored in /U for the two
must differ – which fails only for a SHA-256/AES coincidence): the owner password recovers the file key. -/
theorem C32_owner_password_partial (h : P.Lawful) (g : Random) (hg : g.Ok) (userPw ownerPw fid : Bytes) (perm : Int) (em : Bool)
    (hne : ownerPw = userPw ∨ hashedV5 P (deriveKeyV5 P userPw fid) (userPw ++ g.userSalt) ≠
      hashedV5 P (deriveKeyV5 P ownerPw fid) (ownerPw ++ g.userSalt)) :
    OpensWith (unlock P (setupAES256 P g userPw ownerPw fid perm em) fid ownerPw) g.key := by
  obtain ⟨e, h1, h2⟩ := unlock_owner h g hg userPw ownerPw fid perm em hne
  exact ⟨e, h1, h2⟩

/-- C32 for files. -/
theorem C32_owner_password_file_partial (h : P.Lawful) (g : Random) (hg : g.Ok) (userPw ownerPw fid : Bytes) (perm : Int)
    (em : Bool) (hp : -2147483648 ≤ perm ∧ perm ≤ 2147483647)
    (hne : ownerPw = userPw ∨ hashedV5 P (deriveKeyV5 P userPw fid) (userPw ++ g.userSalt) ≠
      hashedV5 P (deriveKeyV5 P ownerPw fid) (ownerPw ++ g.userSalt))
    (n : Nat) (hn : n ≤ 9223372036854775807)
    (pre mid post : Bytes) (hl : Lines pre) (hm : Lines mid)
    (h1 : NoOcc b!"/Encrypt" pre) (h2 : NoOcc b!"/Encrypt" mid) (h3 : NoOcc (natDec n ++ b!" 0 obj") pre)
    (h4 : NoOcc b!"/ID" pre) (h5 : NoOcc b!"/ID" mid) (h6 : NoOcc b!"/ID" post) :
    OpensWith (decryptPDF P (pre ++ (natDec n ++ b!" 0 obj\n" ++
        encryptDict (setupAES256 P g userPw ownerPw fid perm em) ++ b!"\nendobj\n") ++ mid ++
      (b!"/Encrypt " ++ natDec n ++ b!" 0 R\n" ++ idText fid ++ post)) ownerPw) g.key := by
  rw [decryptPDF_file _ (setup_dictOk h g hg _ _ _ _ _ hp) (by simp [setupAES256])
    (setup_dict_length h g hg _ _ _ _ _ hp) n hn fid ownerPw pre mid post hl hm h1 h2 h3 h4 h5 h6]
  exact C32_owner_password_partial h g hg userPw ownerPw fid perm em hne

/-- The hypothesis is met by two concrete passwords with the real primitives. -/
example : OpensWith (unlock goPrim witEnc [] b!"owner") witRandom.key := by
  apply C32_owner_password_partial goPrim_lawful witRandom witRandom_ok
  right
  rw [keyUser_eq, keyOwner_eq]
  exact owner_hash

/-! ### C33 -/

/-- C33 is violated at revision 5: the password "guess16" opens a file whose passwords are "user" and "owner" – with
a wrong key of 35 bytes, so that the content comes out as garbage.  The owner branch accepts any password for which
the last byte of the unwrapped /OE happens to be at most 16. -/
theorem C33_wrong_password_violated :
    ∃ (g : Random) (userPw ownerPw pw : Bytes) (e : Enc), g.Ok ∧ pw ≠ userPw ∧ pw ≠ ownerPw ∧
      unlock goPrim (setupAES256 goPrim g userPw ownerPw [] (-4) true) [] pw = .ok e ∧ e.encryptKey ≠ g.key := by
  obtain ⟨e, h1, h2⟩ := guess_opens
  refine ⟨witRandom, b!"user", b!"owner", b!"guess16", e, witRandom_ok, by decide, by decide, h1, ?_⟩
  intro hk
  rw [hk] at h2
  exact absurd h2 (by decide)

/-- C33 (partial: revision 5 and later): exactly which passwords open a file set up with two passwords – those whose
check value is the one stored in /U, and those for which the decrypted /OE ends with a byte of at most 16. -/
theorem C33_accepts_iff_partial (h : P.Lawful) (g : Random) (hg : g.Ok) (userPw ownerPw fid : Bytes) (perm : Int) (em : Bool)
    (pw : Bytes) :
    Opens (unlock P (setupAES256 P g userPw ownerPw fid perm em) fid pw) ↔
      if hashedV5 P (deriveKeyV5 P userPw fid) (userPw ++ g.userSalt) = hashedV5 P (deriveKeyV5 P pw fid) (pw ++ g.userSalt)
      then ((ecb (P.aesDec ((deriveKeyV5 P pw fid).take 16)) (wrapKeyV5 P g.key (deriveKeyV5 P userPw fid))).getLastD 0).toNat ≤ 16
      else ((ecb (P.aesDec ((deriveKeyV5 P pw fid).take 16)) (wrapKeyV5 P g.key (deriveKeyV5 P ownerPw fid))).getLastD 0).toNat ≤ 16 := by
  have hr : (setupAES256 P g userPw ownerPw fid perm em).r ≥ 5 := by simp [setupAES256]
  have hk := length_deriveKeyV5 h pw fid
  have hk16 := key16_ok h pw fid
  have key : ∀ q, (∃ r, unwrapV5 P (deriveKeyV5 P pw fid) (wrapKeyV5 P g.key (deriveKeyV5 P q fid)) = .ok r) ↔
      ((ecb (P.aesDec ((deriveKeyV5 P pw fid).take 16)) (wrapKeyV5 P g.key (deriveKeyV5 P q fid))).getLastD 0).toNat ≤ 16 := by
    intro q
    have hw : (wrapKeyV5 P g.key (deriveKeyV5 P q fid)).length = 48 := by
      rw [length_wrapKeyV5 h, length_pkcs7_eq, hg.key]
    have hd : (ecb (P.aesDec ((deriveKeyV5 P pw fid).take 16)) (wrapKeyV5 P g.key (deriveKeyV5 P q fid))).length = 48 := by
      rw [length_ecb _ (fun b hb => h.dec_len _ b hk16 hb) _ (by rw [hw]), hw]
    simp only [unwrapV5, hw, hk, hd, if_neg (show ¬ 48 = 0 by omega), if_neg (show ¬ 32 < 16 by omega),
      if_neg (show ¬ 48 % 16 ≠ 0 by omega)]
    constructor
    · rintro ⟨r, hr⟩
      split at hr
      · simp at hr
      · omega
    · intro hle
      rw [if_neg (by omega)]
      exact ⟨_, rfl⟩
  have hue : (setupAES256 P g userPw ownerPw fid perm em).ue = wrapKeyV5 P g.key (deriveKeyV5 P userPw fid) := rfl
  have hoe : (setupAES256 P g userPw ownerPw fid perm em).oe = wrapKeyV5 P g.key (deriveKeyV5 P ownerPw fid) := rfl
  simp only [Opens, unlock, if_pos hr, unlockV5]
  rw [setup_verify h g hg, hue, hoe]
  simp only [Res.bind, beq_iff_eq]
  by_cases he : hashedV5 P (deriveKeyV5 P userPw fid) (userPw ++ g.userSalt) = hashedV5 P (deriveKeyV5 P pw fid) (pw ++ g.userSalt)
  · rw [if_pos he, if_pos he, ← key]
    constructor
    · rintro ⟨e, h⟩
      split at h
      · exact ⟨_, ‹_›⟩
      · simp at h
      · simp at h
    · rintro ⟨r, hr⟩
      rw [hr]; exact ⟨_, rfl⟩
  · rw [if_neg he, if_neg he, ← key]
    constructor
    · rintro ⟨e, h⟩
      split at h
      · exact ⟨_, ‹_›⟩
      · simp at h
      · simp at h
    · rintro ⟨r, hr⟩
      rw [hr]; exact ⟨_, rfl⟩

/-- C33 (partial: revisions 2 to 4): a password is accepted only if the check value computed with the key that is
returned agrees with the stored /U in its first 16 bytes. -/
theorem C33_check_value_partial (e e' : Enc) (fid pw : Bytes) (hr : e.r < 5) (h : unlock P e fid pw = .ok e') :
    ∃ uv, computeU P e'.encryptKey e fid = .ok uv ∧ 16 ≤ uv.length ∧ 16 ≤ e.u.length ∧ uv.take 16 = e.u.take 16 := by
  have key : ∀ uv, uMatches e.u uv = true → 16 ≤ uv.length ∧ 16 ≤ e.u.length ∧ uv.take 16 = e.u.take 16 := by
    intro uv hm
    simp only [uMatches, Bool.and_eq_true, decide_eq_true_eq, beq_iff_eq] at hm
    exact ⟨hm.1.2, hm.1.1, hm.2⟩
  rw [unlock, if_neg (by omega)] at h
  unfold unlockV4 at h
  cases h1 : deriveKeyV4 P pw e fid with
  | err => rw [h1] at h; simp [Res.bind] at h
  | panic => rw [h1] at h; simp [Res.bind] at h
  | ok q =>
    rw [h1] at h
    simp only [Res.bind] at h
    cases h2 : computeU P q.1 e fid with
    | err => rw [h2] at h; simp at h
    | panic => rw [h2] at h; simp at h
    | ok uv =>
      rw [h2] at h
      simp only at h
      by_cases hm : uMatches e.u uv = true
      · rw [if_pos hm] at h
        injection h with h
        subst h
        exact ⟨uv, h2, key uv hm⟩
      · rw [if_neg hm] at h
        cases h3 : deriveOwnerV4 P pw e fid with
        | err => rw [h3] at h; simp at h
        | panic => rw [h3] at h; simp at h
        | ok q2 =>
          rw [h3] at h
          simp only at h
          cases h4 : computeU P q2.1 e fid with
          | err => rw [h4] at h; simp at h
          | panic => rw [h4] at h; simp at h
          | ok uv2 =>
            rw [h4] at h
            simp only at h
            by_cases hm2 : uMatches e.u uv2 = true
            · rw [if_pos hm2] at h
              injection h with h
              subst h
              exact ⟨uv2, h4, key uv2 hm2⟩
            · rw [if_neg hm2] at h; simp at h

/-- A revision-2 record whose /U is the check value of the empty password: it opens (so the hypothesis of
`C33_check_value_partial` is met). -/
example : Opens (unlock goPrim (isoRecordR2 goPrim [] b!"owner" []) [] []) := by
  have hr : ¬ (isoRecordR2 goPrim [] b!"owner" []).r ≥ 5 := by simp [isoRecordR2]
  generalize ho : isoOwnerR2 goPrim [] b!"owner" = o
  have hlen : (isoKeyR2 goPrim [] o [0xFC, 0xFF, 0xFF, 0xFF] []).length = 5 := by
    simp [isoKeyR2, goPrim_lawful.md5_len]
  have hk : deriveKeyV4 goPrim [] (isoRecordR2 goPrim [] b!"owner" []) [] =
      .ok (isoKeyR2 goPrim [] o [0xFC, 0xFF, 0xFF, 0xFF] [],
        (goPrim.md5 (isoPad [] ++ o ++ [0xFC, 0xFF, 0xFF, 0xFF] ++ [])).drop 5) := by
    simp only [deriveKeyV4, deriveDigestV4, isoRecordR2, if_neg (show ¬ 2 ≥ 3 by omega), Res.bind, isoKeyR2, ho, if_true,
      List.append_nil]
    have h1 : padPassword [] = isoPad [] := by decide
    have h2 : le32 (-4) = [0xFC, 0xFF, 0xFF, 0xFF] := by decide
    rw [h1, h2]
  have hc : computeU goPrim (isoKeyR2 goPrim [] o [0xFC, 0xFF, 0xFF, 0xFF] []) (isoRecordR2 goPrim [] b!"owner" []) [] =
      .ok (isoUserR2 goPrim [] o [0xFC, 0xFF, 0xFF, 0xFF] []) := by
    simp only [computeU, isoRecordR2, if_true, rc4KeyOk, hlen, isoUserR2]
    rfl
  have hu : (isoRecordR2 goPrim [] b!"owner" []).u = isoUserR2 goPrim [] o [0xFC, 0xFF, 0xFF, 0xFF] [] := by
    simp only [isoRecordR2, ho]
  have hm : uMatches (isoUserR2 goPrim [] o [0xFC, 0xFF, 0xFF, 0xFF] []) (isoUserR2 goPrim [] o [0xFC, 0xFF, 0xFF, 0xFF] []) = true := by
    simp [uMatches, isoUserR2, rc4Xor, paddingString]
  rw [unlock, if_neg hr, unlockV4, hk]
  simp only [Res.bind, hc, hu, hm, if_true]
  exact ⟨_, rfl⟩

/-! ### C34 -/

/-- C34 (partial: AES, versions 4 and 5, at least 88-bit keys): what the writer stores for a stream is decrypted to the
data, for every data, object number, generation and initialisation vector. -/
theorem C34_stream_round_trip_partial (h : P.Lawful) (e : Enc) (iv : Bytes) (n : Int) (g : Nat) (data : Bytes)
    (hv : e.v = 4 ∨ e.v = 5) (hkey : e.encryptKey ≠ []) (hlo : 11 ≤ e.keyLength)
    (hhi : e.keyLength ≤ (e.encryptKey ++ e.keyTail).length) (hiv : iv.length = 16) :
    ∃ c, encryptStream P e iv n g data = .ok c ∧ decryptObject P e n g c = .ok data :=
  encryptStream_decryptObject h e iv n g data hv hkey hlo hhi hiv

/-- C34 for the records made by `SetupAES256Encryption`: encrypted with the record in hand, decrypted with the record
recovered by the user password. -/
theorem C34_setup_round_trip (h : P.Lawful) (g : Random) (hg : g.Ok) (userPw ownerPw fid : Bytes) (perm : Int) (em : Bool)
    (iv : Bytes) (hiv : iv.length = 16) (n : Int) (gen : Nat) (data : Bytes) :
    ∃ e' c, unlock P (setupAES256 P g userPw ownerPw fid perm em) fid userPw = .ok e' ∧
      encryptStream P (setupAES256 P g userPw ownerPw fid perm em) iv n gen data = .ok c ∧
      decryptObject P e' n gen c = .ok data := by
  obtain ⟨e', h1, h2, h3⟩ := unlock_user h g hg userPw ownerPw fid perm em
  have hkl : (setupAES256 P g userPw ownerPw fid perm em).keyLength = 32 := rfl
  have hek : (setupAES256 P g userPw ownerPw fid perm em).encryptKey = g.key := rfl
  have hkt : (setupAES256 P g userPw ownerPw fid perm em).keyTail = [] := rfl
  have hv : (setupAES256 P g userPw ownerPw fid perm em).v = 5 := rfl
  obtain ⟨c, hc1, hc2⟩ := encryptStream_decryptObject h (setupAES256 P g userPw ownerPw fid perm em) iv n gen data
    (.inr hv) (by rw [hek]; intro e; have := hg.key; rw [e] at this; simp at this) (by omega)
    (by rw [hek, hkt, hkl]; simp [hg.key]) hiv
  refine ⟨e', c, h1, hc1, ?_⟩
  rw [← hc2, ← h3]
  have hk2 : e'.encryptKey.length = 32 := by rw [h2, hg.key]
  have hkl2 : e'.keyLength = 32 := by
    have := congrArg Enc.keyLength h3; simpa [hkl] using this
  have hv2 : e'.v = 5 := by
    have := congrArg Enc.v h3; simpa [hv] using this
  simp only [decryptObject, hv2, hkl2]
  have hs : ∀ t, sliceTo (e'.encryptKey ++ t) 32 = .ok e'.encryptKey := by
    intro t
    unfold sliceTo
    rw [if_pos (by simp; omega), List.take_left' hk2]
  simp only [show (5 : Nat) > 1 by omega, if_true, hs]

example : ∃ c, encryptStream goPrim { (default : Enc) with v := 4, keyLength := 16, encryptKey := List.replicate 16 7 }
    (List.replicate 16 9) 3 0 b!"some stream data" = .ok c ∧
    decryptObject goPrim { (default : Enc) with v := 4, keyLength := 16, encryptKey := List.replicate 16 7 } 3 0 c =
      .ok b!"some stream data" :=
  C34_stream_round_trip_partial goPrim_lawful _ _ _ _ _ (.inl rfl) (by decide) (by decide) (by decide) (by decide)

/-- C34 through the file: a stream object whose dictionary holds the length of the encrypted data is returned by
`GetObject` with the plain data and the plain length. -/
theorem C34_stream_object_partial (h : P.Lawful) (e : Enc) (iv : Bytes) (n : Int) (hn : (itoa n).length ≤ 40)
    (data a b c : Bytes) (hv : e.v = 4 ∨ e.v = 5) (hkey : e.encryptKey ≠ []) (hlo : 11 ≤ e.keyLength)
    (hhi : e.keyLength ≤ (e.encryptKey ++ e.keyTail).length) (hiv : iv.length = 16)
    (hc : encryptStream P e iv n 0 data = .ok c) (hcl : c.length ≤ 9223372036854775807)
    (ha : NoOcc b!"/Length" (b!"<<" ++ a)) (hb : NoOcc b!"/Length" (b ++ b!">>")) (hb2 : ∀ x, (b ++ b!">>").head? = some x → isDigit x = false)
    (ha2 : ∀ x, a.getLast? = some x → x ∉ b!"/Length")
    (hst : NoOcc b!"stream" (b!"<<" ++ a ++ (b!"/Length " ++ natDec c.length) ++ (b ++ b!">>")))
    (hee : NoOcc b!"endstream" (b!"<<" ++ a ++ (b!"/Length " ++ natDec c.length) ++ (b ++ b!">>") ++ b!"\nstream\n" ++ c))
    (heo : NoOcc b!"endobj" (b!"<<" ++ a ++ (b!"/Length " ++ natDec c.length) ++ (b ++ b!">>") ++ b!"\nstream\n" ++ c ++ b!"\nendstream"))
    (pdf : Bytes) (off : Nat)
    (hat : (itoa n ++ b!" 0 obj\n" ++ (b!"<<" ++ a ++ (b!"/Length " ++ natDec c.length) ++ (b ++ b!">>") ++ b!"\nstream\n" ++ c ++
      b!"\nendstream") ++ b!"\nendobj\n") <+: pdf.drop off) :
    getDirectObject (some (decrypter P e)) pdf n off =
      .ok (itoa n ++ b!" 0 obj\n" ++ (b!"<<" ++ a ++ (b!"/Length " ++ natDec data.length) ++ (b ++ b!">>") ++ b!"\nstream\n" ++ data ++
        b!"\nendstream") ++ b!"\nendobj") := by
  have hav : Avoid b!"/Length" (b!"<<" ++ a) := by
    rcases List.eq_nil_or_concat a with rfl | ⟨a', x, rfl⟩
    · exact avoid_clash (by decide)
    · rw [List.concat_eq_append, ← List.append_assoc] at ha ⊢
      exact avoid_of_noOcc ha (ha2 x (by simp))
  have hd : Delimited (b!"<<" ++ a ++ (b!"/Length " ++ natDec c.length) ++ (b ++ b!">>") ++ b!"\nstream\n" ++ c ++ b!"\nendstream") := by
    refine ⟨heo, ?_, .inr ⟨_, rfl, hee⟩⟩
    intro x hx; simp at hx; subst hx; decide
  have hns : index b!"stream" (b!"<<" ++ a ++ (b!"/Length " ++ natDec c.length) ++ (b ++ b!">>") ++ b!"\nstream\n" ++ c ++
      b!"\nendstream") ≠ none := by
    intro hh
    have := noOcc_iff_index.2 hh
    apply this ((b!"<<" ++ a ++ (b!"/Length " ++ natDec c.length) ++ (b ++ b!">>")).length + 1)
    rw [show b!"<<" ++ a ++ (b!"/Length " ++ natDec c.length) ++ (b ++ b!">>") ++ b!"\nstream\n" ++ c ++ b!"\nendstream" =
      ((b!"<<" ++ a ++ (b!"/Length " ++ natDec c.length) ++ (b ++ b!">>")) ++ b!"\n") ++ (b!"stream" ++ (b!"\n" ++ c ++ b!"\nendstream")) by
      simp only [List.append_assoc, List.cons_append, List.nil_append]]
    rw [List.drop_left' (by simp only [List.length_append, List.length_cons, List.length_nil])]
    exact List.prefix_append _ _
  have hw := decryptStream_written h e iv n data (b!"<<" ++ a) (b ++ b!">>") c hv hkey hlo hhi hiv hc hcl hav hb hb2 (by simp) hst
  rw [getDirect_crypt (some (decrypter P e)) pdf n hn _ hd off hat _ rfl, if_neg hns, hw, if_neg]
  · simp only [List.append_assoc, List.cons_append, List.nil_append]
  · intro hh
    rw [List.isSuffixOf_iff_suffix] at hh
    obtain ⟨u, hu⟩ := hh
    rw [show b!"\nendstream" = b!"\nendstrea" ++ [109] from rfl, ← List.append_assoc] at hu
    have := congrArg List.getLast? hu
    rw [List.getLast?_append, List.getLast?_append] at this
    simp at this

/-- C34 is violated for versions 1 and 2 (RC4): the writer leaves the stream in the clear, for every record, key and
data ... -/
theorem C34_rc4_not_encrypted_violated (e : Enc) (iv : Bytes) (n : Int) (g : Nat) (data : Bytes) (hv : e.v = 1 ∨ e.v = 2)
    (hk : 5 ≤ (e.encryptKey ++ e.keyTail).length) (hhi : e.keyLength ≤ (e.encryptKey ++ e.keyTail).length) :
    encryptStream P e iv n g data = .ok data := by
  unfold encryptStream
  by_cases h0 : e.encryptKey.length = 0
  · rw [if_pos h0]
  · rw [if_neg h0]
    have hs : sliceTo (e.encryptKey ++ e.keyTail) (if e.keyLength = 0 then 5 else e.keyLength) =
        .ok ((e.encryptKey ++ e.keyTail).take (if e.keyLength = 0 then 5 else e.keyLength)) := by
      unfold sliceTo
      rw [if_pos (by split <;> omega)]
    simp only [hs, Res.bind]
    rw [if_neg (by omega)]

set_option maxRecDepth 1000000 in
/-- ... and the reader then applies RC4 to it: the stream `stream data` does not come back. -/
theorem C34_rc4_violated : ∃ (e : Enc) (data c : Bytes), encryptStream goPrim e (List.replicate 16 0) 1 0 data = .ok c ∧
    decryptObject goPrim e 1 0 c ≠ .ok data := by
  refine ⟨{ (default : Enc) with v := 2, keyLength := 5, encryptKey := [1, 2, 3, 4, 5] }, b!"ab", b!"ab",
    C34_rc4_not_encrypted_violated _ _ _ _ _ (.inr rfl) (by decide) (by decide), ?_⟩
  intro h
  have : decryptObject goPrim { (default : Enc) with v := 2, keyLength := 5, encryptKey := [1, 2, 3, 4, 5] } 1 0 b!"ab" =
      .ok (rc4Xor goPrim ((goPrim.md5 ([1, 2, 3, 4, 5] ++ packObj 1 0)).take 10) b!"ab") := rfl
  rw [this, rc4Xor_goPrim] at h
  injection h with h
  revert h
  decide +kernel

/-- C34 is violated for AES keys of 1 to 10 bytes: nothing can be encrypted, whatever the data (and `Write` then stores
the data unencrypted). -/
theorem C34_short_key_violated (h : P.Lawful) (e : Enc) (iv : Bytes) (n : Int) (g : Nat) (data : Bytes)
    (hv : e.v = 4 ∨ e.v = 5) (hkey : e.encryptKey ≠ []) (hk : 1 ≤ e.keyLength ∧ e.keyLength ≤ 10)
    (hhi : e.keyLength ≤ (e.encryptKey ++ e.keyTail).length) : encryptStream P e iv n g data = .err := by
  unfold encryptStream
  have h0 : e.encryptKey.length ≠ 0 := by simpa using hkey
  have hs : sliceTo (e.encryptKey ++ e.keyTail) e.keyLength = .ok ((e.encryptKey ++ e.keyTail).take e.keyLength) := by
    unfold sliceTo; rw [if_pos hhi]
  simp only [if_neg h0, if_neg (show e.keyLength ≠ 0 by omega), hs, Res.bind, if_pos hv]
  rw [if_pos]
  simp [aesKeyOk, h.md5_len]; omega

example : encryptStream goPrim { (default : Enc) with v := 4, keyLength := 5, encryptKey := List.replicate 5 7 }
    (List.replicate 16 0) 1 0 b!"x" = .err :=
  C34_short_key_violated goPrim_lawful _ _ _ _ _ (.inl rfl) (by decide) (by decide) (by decide)

/-! ### C35 -/

/-- C35 is violated: a password and the same password typed twice always give the same 32 bytes ... -/
theorem C35_doubled_password_violated (pw : Bytes) (h : pw ≠ []) : padPassword (pw ++ pw) = padPassword pw := by
  have hl : pw.length ≠ 0 := by simpa using h
  have hl2 : (pw ++ pw).length ≠ 0 := by simp [h]
  unfold padPassword
  rw [if_neg hl, if_neg hl2]
  apply List.map_congr_left
  intro i _
  have hm : i % (pw ++ pw).length < 2 * pw.length := by
    have : (pw ++ pw).length = 2 * pw.length := by simp; omega
    rw [this]; exact Nat.mod_lt _ (by omega)
  have e2 : i % (pw ++ pw).length % pw.length = i % pw.length := by
    rw [List.length_append, ← Nat.two_mul, Nat.mul_comm, Nat.mod_mul_right_mod]
  generalize i % (pw ++ pw).length = j at *
  rw [← e2]
  simp only [List.getD_eq_getElem?_getD]
  by_cases hlt : j < pw.length
  · rw [Nat.mod_eq_of_lt hlt, List.getElem?_append_left hlt]
  · have : j % pw.length = j - pw.length := by
      rw [Nat.mod_eq_sub_mod (by omega), Nat.mod_eq_of_lt (by omega)]
    rw [this, List.getElem?_append_right (by omega)]

/-- ... so that both open the same files (revisions 2 to 4, every file). -/
theorem C35_same_files_violated (e : Enc) (fid pw : Bytes) (hr : e.r < 5) (h : pw ≠ []) :
    unlock P e fid (pw ++ pw) = unlock P e fid pw := by
  have hp := C35_doubled_password_violated pw h
  rw [unlock, unlock, if_neg (by omega), if_neg (by omega)]
  simp only [unlockV4, deriveKeyV4, deriveDigestV4, deriveOwnerV4, hp]

/-- C35 (partial: equal lengths): different passwords of the same length, at most 32, give different 32 bytes. -/
theorem C35_distinct_partial (p q : Bytes) (hl : p.length = q.length) (h32 : p.length ≤ 32)
    (h : padPassword p = padPassword q) : p = q := by
  by_cases h0 : p.length = 0
  · have hp := List.eq_nil_of_length_eq_zero h0
    have hq := List.eq_nil_of_length_eq_zero (hl ▸ h0)
    rw [hp, hq]
  · have key : ∀ r : Bytes, r.length ≠ 0 → r.length ≤ 32 → (padPassword r).take r.length = r := by
      intro r hr0 hr
      unfold padPassword
      rw [if_neg hr0]
      apply List.ext_getElem
      · simp; omega
      · intro i h1 h2
        simp [List.getD_eq_getElem?_getD, Nat.mod_eq_of_lt h2, h2]
    rw [← key p h0 h32, ← key q (by omega) (by omega), h, hl]

/-- C35 holds from revision 5 on: what is hashed determines the password. -/
theorem C35_revision5 (p q fid : Bytes) (h : p ++ fileID8 fid = q ++ fileID8 fid) : p = q :=
  List.append_cancel_right h

example : padPassword b!"abcabc" = padPassword b!"abc" ∧ padPassword b!"abd" ≠ padPassword b!"abc" := by decide +kernel

/-! ### C59 -/

/-- C59 is violated: for every password of 1 to 31 bytes not beginning with "(" the padding differs from the one
ISO 32000-1 prescribes. -/
theorem C59_padding_violated (pw : Bytes) (h1 : pw ≠ []) (h2 : pw.length < 32) (h3 : pw.head? ≠ some 0x28) :
    padPassword pw ≠ isoPad pw := by
  intro h
  have hl : pw.length ≠ 0 := by simpa using h1
  have e1 : (padPassword pw)[pw.length]? = pw.head? := by
    unfold padPassword
    rw [if_neg hl]
    simp only [List.getElem?_map, List.getElem?_range h2, Option.map_some, Nat.mod_self, List.getD_eq_getElem?_getD]
    cases pw with
    | nil => exact absurd rfl h1
    | cons c pw => simp
  have e2 : (isoPad pw)[pw.length]? = some 0x28 := by
    unfold isoPad
    rw [List.getElem?_take_of_lt h2, List.getElem?_append_right (Nat.le_refl _), Nat.sub_self]
    rfl
  rw [h] at e1
  exact h3 (by rw [← e1, e2])

/-- ... and a revision-2 file made by a conforming writer is rejected although the password is right. -/
theorem C59_conforming_file_violated :
    unlock goPrim (isoRecordR2 goPrim b!"user" b!"owner" []) [] b!"user" = .err := r2_rejected

/-- C59 (partial: the empty password and passwords of at least 32 bytes): the padding is the prescribed one. -/
theorem C59_padding_partial (pw : Bytes) (h : pw = [] ∨ 32 ≤ pw.length) : padPassword pw = isoPad pw := by
  rcases h with rfl | h
  · decide
  · unfold padPassword isoPad
    rw [if_neg (by omega), List.take_append_of_le_length h]
    apply List.ext_getElem
    · simp; omega
    · intro i h1 h2
      have : i < pw.length := by simp at h2; omega
      simp [List.getD_eq_getElem?_getD, Nat.mod_eq_of_lt this, this]

/-! ### C60 -/

theorem sliceTo_panic {s : Bytes} {n : Nat} (h : s.length < n) : sliceTo s n = .panic := by
  unfold sliceTo; rw [if_neg (by omega)]

theorem md5Rounds_total (h : P.Lawful) (n : Nat) (hn : n ≤ 16) : ∀ k m, m.length = 16 →
    ∃ d, md5Rounds P n k m = .ok d ∧ d.length = 16 := by
  intro k
  induction k with
  | zero => intro m hm; exact ⟨m, rfl, hm⟩
  | succ k ih =>
    intro m hm
    simp only [md5Rounds]
    have : sliceTo m n = .ok (m.take n) := by unfold sliceTo; rw [if_pos (by omega)]
    rw [this]
    exact ih _ (h.md5_len _)

theorem deriveDigest_total (h : P.Lawful) (pw : Bytes) (e : Enc) (fid : Bytes) (hk : e.r < 3 ∨ e.keyLength ≤ 16) :
    ∃ d, deriveDigestV4 P pw e fid = .ok d ∧ d.length = 16 := by
  unfold deriveDigestV4
  simp only
  by_cases hr : e.r ≥ 3
  · rw [if_pos hr]
    exact md5Rounds_total h e.keyLength (by omega) 50 _ (h.md5_len _)
  · rw [if_neg hr]
    exact ⟨_, rfl, h.md5_len _⟩

/-- C60: `Open` of an encrypted file crashes, whatever the password, exactly when the revision is 3 or 4 and the
key length in the dictionary exceeds 128 bits. -/
theorem C60_crash_iff (h : P.Lawful) (e : Enc) (fid pw : Bytes) :
    unlock P e fid pw = .panic ↔ (3 ≤ e.r ∧ e.r < 5 ∧ 16 < e.keyLength) := by
  have hU : ∀ k, computeU P k e fid ≠ .panic := by
    intro k; unfold computeU; split <;> split <;> simp <;> split <;> simp
  constructor
  · intro hp
    apply Classical.byContradiction
    intro hn
    by_cases hr : e.r ≥ 5
    · rw [unlock, if_pos hr, unlockV5] at hp
      have hun : ∀ k w, unwrapV5 P k w ≠ .panic := by
        intro k w; unfold unwrapV5; simp only; repeat' split
        all_goals simp
      have hve : verifyUV5 P pw (deriveKeyV5 P pw fid) e.u ≠ .panic := by
        unfold verifyUV5; repeat' split
        all_goals simp
      cases hv : verifyUV5 P pw (deriveKeyV5 P pw fid) e.u with
      | panic => exact hve hv
      | err => simp [hv, Res.bind] at hp
      | ok b =>
        simp only [hv, Res.bind] at hp
        cases b with
        | true =>
          simp only [if_true] at hp
          cases hu : unwrapV5 P (deriveKeyV5 P pw fid) e.ue with
          | panic => exact hun _ _ hu
          | err => simp [hu] at hp
          | ok q => simp [hu] at hp
        | false =>
          simp only [Bool.false_eq_true, if_false] at hp
          cases hu : unwrapV5 P (deriveKeyV5 P pw fid) e.oe with
          | panic => exact hun _ _ hu
          | err => simp [hu] at hp
          | ok q => simp [hu] at hp
    · rw [unlock, if_neg hr] at hp
      have hk : e.r < 3 ∨ e.keyLength ≤ 16 := by omega
      unfold unlockV4 at hp
      have hder : ∀ q, ∃ d, deriveKeyV4 P q e fid = .ok d := by
        intro q
        obtain ⟨d, hd, _⟩ := deriveDigest_total h q e fid hk
        unfold deriveKeyV4; rw [hd]; exact ⟨_, rfl⟩
      obtain ⟨q, hq⟩ := hder pw
      have hown : deriveOwnerV4 P pw e fid ≠ .panic := by
        unfold deriveOwnerV4
        have : ∃ d, (if e.r ≥ 3 then md5Rounds P e.keyLength 50 (P.md5 (padPassword pw)) else .ok (P.md5 (padPassword pw))) = .ok d := by
          by_cases h3 : e.r ≥ 3
          · rw [if_pos h3]
            obtain ⟨d, hd, _⟩ := md5Rounds_total h e.keyLength (by omega) 50 (P.md5 (padPassword pw)) (h.md5_len _)
            exact ⟨d, hd⟩
          · rw [if_neg h3]; exact ⟨_, rfl⟩
        obtain ⟨d, hd⟩ := this
        rw [hd]
        simp only [Res.bind]
        split
        · obtain ⟨q, hq⟩ := hder (if e.r = 2 then rc4Xor P (d.take e.keyLength) e.o
            else rc4Xor P (d.take e.keyLength) (e.o.take 32) ++ List.replicate (e.o.length - 32) 0)
          rw [hq]; simp
        · simp
      rw [hq] at hp
      simp only [Res.bind] at hp
      cases hc : computeU P q.1 e fid with
      | panic => exact hU _ hc
      | err => rw [hc] at hp; simp at hp
      | ok uv =>
        rw [hc] at hp
        simp only at hp
        split at hp
        · simp at hp
        · cases ho : deriveOwnerV4 P pw e fid with
          | panic => exact hown ho
          | err => rw [ho] at hp; simp at hp
          | ok q2 =>
            rw [ho] at hp
            simp only at hp
            cases hc2 : computeU P q2.1 e fid with
            | panic => exact hU _ hc2
            | err => rw [hc2] at hp; simp at hp
            | ok uv2 => rw [hc2] at hp; simp only at hp; split at hp <;> simp at hp
  · rintro ⟨h1, h2, h3⟩
    rw [unlock, if_neg (by omega), unlockV4, deriveKeyV4, deriveDigestV4, if_pos (by omega)]
    simp only [md5Rounds]
    rw [sliceTo_panic (by rw [h.md5_len]; omega)]
    rfl

/-- A file with /R 4 and /Length 256 (no other unusual feature). -/
def crashFile : Bytes :=
  b!"%PDF-1.6\n1 0 obj\n<</Type/Catalog/Pages 2 0 R>>\nendobj\n5 0 obj\n<</Filter/Standard/V 4/R 4/Length 256/P -4/O<00>/U<00>>>\nendobj\ntrailer\n<</Root 1 0 R/Encrypt 5 0 R>>\n%%EOF\n"

/-- What the reader finds in its encryption dictionary. -/
def crashEnc : Enc :=
  { v := 4, r := 4, keyLength := 32, o := [0], u := [0], ue := [], oe := [], p := -4,
    encryptMetadata := true, encryptKey := [], keyTail := [] }

/-- C60 is violated: this file crashes the program that opens it, with every password. -/
theorem C60_crash_violated (pw : Bytes) : handleEncryption goPrim crashFile pw = .panic := by
  have : parseEncrypt crashFile = some crashEnc := by decide +kernel
  unfold handleEncryption
  rw [this]
  simp only
  rw [(C60_crash_iff goPrim_lawful _ _ _).2 (by decide)]
  rfl

/-- C60 (partial: the key length the dictionary declares is at most 128 bits, or the revision is at least 5 and it is at most the
size of the wrapped keys): neither opening nor decrypting any object crashes. -/
theorem C60_no_crash_partial (h : P.Lawful) (e : Enc) (fid pw : Bytes)
    (hk : if e.r ≥ 5 then e.keyLength ≤ e.ue.length ∧ e.keyLength ≤ e.oe.length else e.keyLength ≤ 16) :
    unlock P e fid pw ≠ .panic ∧
    ∀ e', unlock P e fid pw = .ok e' → ∀ n g data, decryptObject P e' n g data ≠ .panic := by
  constructor
  · intro hp
    rw [C60_crash_iff h] at hp
    rw [if_neg (by omega)] at hk
    omega
  · intro e' he n g data
    have hlen : (if e'.v > 1 then e'.keyLength else 5) ≤ (e'.encryptKey ++ e'.keyTail).length := by
      by_cases hr : e.r ≥ 5
      · rw [if_pos hr] at hk
        rw [unlock, if_pos hr, unlockV5] at he
        have huw : ∀ k w q, aesKeyOk (k.take 16) = true → unwrapV5 P k w = .ok q → (q.1 ++ q.2).length = w.length ∧ 16 ≤ w.length := by
          intro k w q hk16 hq
          unfold unwrapV5 at hq
          split at hq
          · simp at hq
          · split at hq
            · simp at hq
            · split at hq
              · simp at hq
              · simp only at hq
                split at hq
                · simp at hq
                · injection hq with hq
                  rw [← hq]
                  simp only [List.take_append_drop]
                  rw [length_ecb _ (fun b hb => h.dec_len _ b hk16 hb) _ (by omega)]
                  omega
        have k16 := key16_ok h pw fid
        cases hv : verifyUV5 P pw (deriveKeyV5 P pw fid) e.u with
        | err => simp [hv, Res.bind] at he
        | panic => simp [hv, Res.bind] at he
        | ok b =>
          simp only [hv, Res.bind] at he
          cases b with
          | true =>
            simp only [if_true] at he
            cases hu : unwrapV5 P (deriveKeyV5 P pw fid) e.ue with
            | err => simp [hu] at he
            | panic => simp [hu] at he
            | ok q =>
              simp only [hu] at he
              injection he with he
              subst he
              have := huw _ _ _ k16 hu
              simp only
              split <;> omega
          | false =>
            simp only [Bool.false_eq_true, if_false] at he
            cases hu : unwrapV5 P (deriveKeyV5 P pw fid) e.oe with
            | err => simp [hu] at he
            | panic => simp [hu] at he
            | ok q =>
              simp only [hu] at he
              injection he with he
              subst he
              have := huw _ _ _ k16 hu
              simp only
              split <;> omega
      · rw [if_neg hr] at hk
        rw [unlock, if_neg hr, unlockV4] at he
        have hder : ∀ q p, deriveKeyV4 P q e fid = .ok p → (p.1 ++ p.2).length = 16 := by
          intro q p hp
          obtain ⟨d, hd, hl⟩ := deriveDigest_total h q e fid (.inr hk)
          unfold deriveKeyV4 at hp
          rw [hd] at hp
          simp only [Res.bind] at hp
          injection hp with hp
          rw [← hp]; simp [hl]
        have hown : ∀ p, deriveOwnerV4 P pw e fid = .ok p → (p.1 ++ p.2).length = 16 := by
          intro p hp
          unfold deriveOwnerV4 at hp
          cases hm : (if e.r ≥ 3 then md5Rounds P e.keyLength 50 (P.md5 (padPassword pw)) else .ok (P.md5 (padPassword pw)) : Res Bytes) with
          | err => rw [hm] at hp; simp [Res.bind] at hp
          | panic => rw [hm] at hp; simp [Res.bind] at hp
          | ok d =>
            rw [hm] at hp
            simp only [Res.bind] at hp
            split at hp
            · exact hder _ _ hp
            · simp at hp
        cases h1 : deriveKeyV4 P pw e fid with
        | err => simp [h1, Res.bind] at he
        | panic => simp [h1, Res.bind] at he
        | ok q =>
          simp only [h1, Res.bind] at he
          cases h2 : computeU P q.1 e fid with
          | err => simp [h2] at he
          | panic => simp [h2] at he
          | ok uv =>
            simp only [h2] at he
            split at he
            · injection he with he
              subst he
              have := hder _ _ h1
              simp only; split <;> omega
            · cases h3 : deriveOwnerV4 P pw e fid with
              | err => simp [h3] at he
              | panic => simp [h3] at he
              | ok q2 =>
                simp only [h3] at he
                cases h4 : computeU P q2.1 e fid with
                | err => simp [h4] at he
                | panic => simp [h4] at he
                | ok uv2 =>
                  simp only [h4] at he
                  split at he
                  · injection he with he
                    subst he
                    have := hown _ h3
                    simp only; split <;> omega
                  · simp at he
    unfold decryptObject
    split
    · simp
    · have hs : sliceTo (e'.encryptKey ++ e'.keyTail) (if e'.v > 1 then e'.keyLength else 5) =
          .ok ((e'.encryptKey ++ e'.keyTail).take (if e'.v > 1 then e'.keyLength else 5)) := by
        unfold sliceTo; rw [if_pos hlen]
      simp only [hs, Res.bind]
      repeat' split
      all_goals simp

/-- Decryption crashes when the declared key length exceeds what was unwrapped (48 bytes for the records the library
writes): a revision-5 dictionary with /Length 512. -/
theorem C60_decrypt_crash_violated (h : P.Lawful) (g : Random) (hg : g.Ok) (userPw ownerPw fid : Bytes) (n : Int) (data : Bytes) :
    ∃ e', unlock P { setupAES256 P g userPw ownerPw fid (-4) true with keyLength := 64 } fid userPw = .ok e' ∧
      decryptObject P e' n 0 data = .panic := by
  obtain ⟨tail, ht⟩ := unwrap_wrap h userPw fid g.key
  have hv := setup_verify h g hg userPw ownerPw fid (-4) true userPw
  have hr : ({ setupAES256 P g userPw ownerPw fid (-4) true with keyLength := 64 } : Enc).r ≥ 5 := by simp [setupAES256]
  have hu : unlock P { setupAES256 P g userPw ownerPw fid (-4) true with keyLength := 64 } fid userPw =
      .ok { setupAES256 P g userPw ownerPw fid (-4) true with keyLength := 64, encryptKey := g.key, keyTail := tail } := by
    simp only [unlock, if_pos hr, unlockV5]
    rw [show ({ setupAES256 P g userPw ownerPw fid (-4) true with keyLength := 64 } : Enc).u =
      (setupAES256 P g userPw ownerPw fid (-4) true).u from rfl, hv]
    simp only [Res.bind, beq_self_eq_true, if_true]
    rw [show ({ setupAES256 P g userPw ownerPw fid (-4) true with keyLength := 64 } : Enc).ue =
      wrapKeyV5 P g.key (deriveKeyV5 P userPw fid) from rfl, ht]
  refine ⟨_, hu, ?_⟩
  have hlen : (g.key ++ tail).length = 48 := by
    have hw : (wrapKeyV5 P g.key (deriveKeyV5 P userPw fid)).length = 48 := by
      rw [length_wrapKeyV5 h, length_pkcs7_eq, hg.key]
    have hk16 := key16_ok h userPw fid
    unfold unwrapV5 at ht
    rw [hw, length_deriveKeyV5 h] at ht
    simp only [if_neg (show ¬ 48 = 0 by omega), if_neg (show ¬ 32 < 16 by omega), if_neg (show ¬ 48 % 16 ≠ 0 by omega)] at ht
    split at ht
    · simp at ht
    · injection ht with ht
      injection ht with h1 h2
      rw [← h1, ← h2, List.take_append_drop, length_ecb _ (fun b hb => h.dec_len _ b hk16 hb) _ (by rw [hw]), hw]
  have hk0 : g.key.length ≠ 0 := by rw [hg.key]; omega
  simp only [decryptObject, if_neg hk0, show (setupAES256 P g userPw ownerPw fid (-4) true).v = 5 from rfl,
    if_pos (show 5 > 1 by omega)]
  rw [sliceTo_panic (by rw [hlen]; omega)]
  rfl

example : handleEncryption goPrim crashFile b!"secret" = .panic := C60_crash_violated _

/-! ### C61 -/

/-- C61: the encryption dictionary a file carries is read back with the values that were written: version, revision,
key length, permissions, /O, /U, /EncryptMetadata, and from revision 5 on /UE and /OE. -/
theorem C61_dictionary_round_trip (e : Enc) (h : DictOk e) (hlen : (encryptDict e).length ≤ 2000) (n : Nat)
    (hn : n ≤ 9223372036854775807) (pre mid post : Bytes) (hl : Lines pre) (hm : Lines mid)
    (h1 : NoOcc b!"/Encrypt" pre) (h2 : NoOcc b!"/Encrypt" mid) (h3 : NoOcc (natDec n ++ b!" 0 obj") pre) :
    ∃ e', parseEncrypt (pre ++ (natDec n ++ b!" 0 obj\n" ++ encryptDict e ++ b!"\nendobj\n") ++ mid ++
      (b!"/Encrypt " ++ natDec n ++ b!" 0 R" ++ post)) = some e' ∧
      e'.v = e.v ∧ e'.r = e.r ∧ e'.keyLength = e.keyLength ∧ e'.p = e.p ∧ e'.o = e.o ∧ e'.u = e.u ∧
      e'.encryptMetadata = e.encryptMetadata ∧ (5 ≤ e.r → e'.ue = e.ue ∧ e'.oe = e.oe) ∧ e'.encryptKey = [] := by
  refine ⟨stored e, parseEncrypt_file e h hlen n hn pre mid post hl hm h1 h2 h3, rfl, rfl, rfl, rfl, rfl, rfl, rfl, ?_, rfl⟩
  intro hr
  simp only [stored, if_pos (show e.r ≥ 5 from hr), and_self]

/-- A record to be written and read back. -/
def someEnc : Enc :=
  { v := 4, r := 4, keyLength := 16, o := [1, 2], u := [3, 4], ue := [], oe := [], p := -1340,
    encryptMetadata := false, encryptKey := [], keyTail := [] }

example : ∃ e', parseEncrypt (b!"%PDF-1.7\n" ++ (natDec 7 ++ b!" 0 obj\n" ++
    encryptDict someEnc ++ b!"\nendobj\n") ++ b!"trailer\n<<\n" ++
    (b!"/Encrypt " ++ natDec 7 ++ b!" 0 R" ++ b!"\n>>")) = some e' ∧ e'.p = -1340 ∧ e'.encryptMetadata = false := by
  obtain ⟨e', h0, h1, h2, h3, h4, h5, h6, h7, _⟩ := C61_dictionary_round_trip someEnc
    ⟨by decide, by decide, by decide, by decide, by decide, by decide⟩ (by decide +kernel) 7 (by decide)
    b!"%PDF-1.7\n" b!"trailer\n<<\n" b!"\n>>" (.inr ⟨b!"%PDF-1.7", rfl⟩) (.inr ⟨b!"trailer\n<<", rfl⟩)
    (noOcc_iff_index.2 (by decide +kernel)) (noOcc_iff_index.2 (by decide +kernel)) (noOcc_iff_index.2 (by decide +kernel))
  exact ⟨e', h0, h4, h7⟩

/-! ### C62 -/

/-- What the reader makes of the content of a non-stream object of an AES-encrypted file (which the writer stored in
the clear). -/
theorem decrypter_short (e : Enc) (n : Int) (data : Bytes) (hv : e.v = 4 ∨ e.v = 5) (hkey : e.encryptKey ≠ [])
    (hhi : e.keyLength ≤ (e.encryptKey ++ e.keyTail).length) :
    (data.length % 16 ≠ 0 → decrypter P e n 0 data = none) ∧ (data.length = 16 → decrypter P e n 0 data = some []) := by
  have hl : e.encryptKey.length ≠ 0 := by simpa using hkey
  have hv1 : e.v > 1 := by omega
  have hv2 : ¬ (e.v = 1 ∨ e.v = 2) := by omega
  have hs : sliceTo (e.encryptKey ++ e.keyTail) e.keyLength = .ok ((e.encryptKey ++ e.keyTail).take e.keyLength) := by
    unfold sliceTo; rw [if_pos hhi]
  unfold decrypter decryptObject
  simp only [if_neg hl, if_pos hv1, if_neg hv2, if_pos hv, hs, Res.bind]
  constructor
  · intro h
    by_cases h16 : data.length < 16
    · rw [if_pos h16]
    · rw [if_neg h16, if_neg (by simp; omega), if_pos (by simp; omega)]
  · intro h
    rw [if_neg (by omega), if_pos (by simp; omega)]
    simp only
    rw [List.drop_of_length_le (by omega)]

/-- C62 (partial: the length of the content plus one is not a multiple of 16): in an AES-encrypted file written by
the library, a dictionary or other non-stream object is returned as it was written. -/
theorem C62_plain_object_partial (e : Enc) (pdf : Bytes) (n : Int) (hn : (itoa n).length ≤ 40) (body : Bytes)
    (hv : e.v = 4 ∨ e.v = 5) (hkey : e.encryptKey ≠ []) (hhi : e.keyLength ≤ (e.encryptKey ++ e.keyTail).length)
    (hb : Delimited body) (hs : NoOcc b!"stream" body) (hb0 : body ≠ []) (hlen : (body.length + 1) % 16 ≠ 0) (off : Nat)
    (h : (itoa n ++ b!" 0 obj\n" ++ body ++ b!"\nendobj\n") <+: pdf.drop off) :
    getDirectObject (some (decrypter P e)) pdf n off = .ok (itoa n ++ b!" 0 obj\n" ++ body ++ b!"\nendobj") := by
  rw [getDirect_crypt _ pdf n hn body hb off h _ rfl, if_pos (noOcc_iff_index.1 hs), if_neg hb0]
  have := (decrypter_short (P := P) e n (body ++ b!"\n") hv hkey hhi).1 (by simpa using hlen)
  simp only [plainOf, this, Option.getD_none]
  rw [if_pos (by rw [List.isSuffixOf_iff_suffix]; exact List.suffix_append _ _)]
  simp only [List.append_assoc, List.cons_append, List.nil_append]

/-- C62 is violated: content of exactly 15 bytes comes back empty, whatever the key. -/
theorem C62_fifteen_bytes_violated (e : Enc) (pdf : Bytes) (n : Int) (hn : (itoa n).length ≤ 40) (body : Bytes)
    (hv : e.v = 4 ∨ e.v = 5) (hkey : e.encryptKey ≠ []) (hhi : e.keyLength ≤ (e.encryptKey ++ e.keyTail).length)
    (hb : Delimited body) (hs : NoOcc b!"stream" body) (hlen : body.length = 15) (off : Nat)
    (h : (itoa n ++ b!" 0 obj\n" ++ body ++ b!"\nendobj\n") <+: pdf.drop off) :
    getDirectObject (some (decrypter P e)) pdf n off = .ok (itoa n ++ b!" 0 obj\n\nendobj") := by
  have hb0 : body ≠ [] := by intro hh; subst hh; simp at hlen
  rw [getDirect_crypt _ pdf n hn body hb off h _ rfl, if_pos (noOcc_iff_index.1 hs), if_neg hb0]
  have := (decrypter_short (P := P) e n (body ++ b!"\n") hv hkey hhi).2 (by simp [hlen])
  simp only [plainOf, this, Option.getD_some]
  rw [if_neg (by decide)]
  simp only [List.append_assoc, List.cons_append, List.nil_append]

/-- A 15-byte dictionary in a file. -/
example : getDirectObject (some (decrypter goPrim { (default : Enc) with v := 5, keyLength := 32, encryptKey := List.replicate 32 7 }))
    b!"%PDF\n4 0 obj\n<</Count 12345>>\nendobj\n" 4 5 = .ok b!"4 0 obj\n<</Count 12345>>\nendobj" := by
  exact C62_plain_object_partial _ _ 4 (by decide) b!"<</Count 12345>>" (.inr rfl) (by decide) (by decide)
    ⟨noOcc_iff_index.2 (by decide +kernel), by decide, .inl (noOcc_iff_index.2 (by decide +kernel))⟩
    (noOcc_iff_index.2 (by decide +kernel)) (by decide) (by decide) 5 (by decide +kernel)

example : getDirectObject (some (decrypter goPrim { (default : Enc) with v := 5, keyLength := 32, encryptKey := List.replicate 32 7 }))
    b!"%PDF\n4 0 obj\n<</Count 1234>>\nendobj\n" 4 5 = .ok b!"4 0 obj\n\nendobj" := by
  exact C62_fifteen_bytes_violated _ _ 4 (by decide) b!"<</Count 1234>>" (.inr rfl) (by decide) (by decide)
    ⟨noOcc_iff_index.2 (by decide +kernel), by decide, .inl (noOcc_iff_index.2 (by decide +kernel))⟩
    (noOcc_iff_index.2 (by decide +kernel)) (by decide) 5 (by decide +kernel)

end Pdfer.Props
