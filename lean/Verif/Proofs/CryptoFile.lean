import Verif.Proofs.Crypto
import Verif.Proofs.CryptoDict
import Verif.Proofs.DirectObject

/-! From the written file to the decrypted object. -/

namespace Pdfer.Crypto

open Go Pdfer.XRefTable Pdfer.Incremental

variable {P : Prim}

theorem reIDHex_prefix (s : Bytes) (h : reIDHex s ≠ none) : b!"/ID" <+: s := by
  apply reLit_prefix
  intro e; apply h; simp [reIDHex, e]

theorem reIDHex2_prefix (s : Bytes) (h : reIDHex2 s ≠ none) : b!"/ID" <+: s := by
  have : b!"/ID[<" <+: s := by
    apply reLit_prefix
    intro e; apply h; simp [reIDHex2, e]
  exact (show b!"/ID" <+: b!"/ID[<" by decide).trans this

theorem reIDParen_prefix (s : Bytes) (h : reIDParen s ≠ none) : b!"/ID" <+: s := by
  apply reLit_prefix
  intro e; apply h; simp [reIDParen, e]

/-- The entry /ID of the trailer (core/write/writer.go:364-367). -/
def idText (fid : Bytes) : Bytes :=
  if fid.length > 0 then b!"/ID [<" ++ hexUpper fid ++ b!"><" ++ hexUpper fid ++ b!">]\n" else []

theorem reIDHex_here (fid s : Bytes) (h : fid ≠ []) :
    reIDHex (b!"/ID [<" ++ hexUpper fid ++ b!">" ++ s) = some (hexUpper fid) := by
  have e : b!"/ID [<" ++ hexUpper fid ++ b!">" ++ s = b!"/ID" ++ (b!" [<" ++ (hexUpper fid ++ (b!">" ++ s))) := by
    simp only [List.append_assoc, List.cons_append, List.nil_append]
  rw [e, reIDHex, reLit_append]
  simp only [Option.bind_some]
  have h1 : reSp0 (b!" [<" ++ (hexUpper fid ++ (b!">" ++ s))) = b!"[" ++ (b!"<" ++ (hexUpper fid ++ (b!">" ++ s))) := rfl
  rw [h1, reLit_append]
  simp only [Option.bind_some]
  have h2 : reSp0 (b!"<" ++ (hexUpper fid ++ (b!">" ++ s))) = b!"<" ++ (hexUpper fid ++ (b!">" ++ s)) := rfl
  rw [h2, reLit_append]
  simp only [Option.bind_some]
  rw [takeWhile_hex fid _ (by intro c hc; simp at hc; subst hc; decide), if_neg (hexUpper_ne_nil h),
    List.drop_left, reLit_append]
  rfl

theorem extractFileID_written (pre fid post : Bytes) (h : Avoid b!"/ID" pre) (hp : NoOcc b!"/ID" post) :
    extractFileID (pre ++ idText fid ++ post) = fid := by
  unfold extractFileID idText
  by_cases hf : fid = []
  · subst hf
    have hno : NoOcc b!"/ID" (pre ++ post) := by
      intro i hpi
      by_cases hi : i < pre.length
      · rw [List.drop_append_of_le_length (by omega)] at hpi
        exact h i hi post hpi
      · rw [List.drop_append, List.drop_of_length_le (by omega), List.nil_append] at hpi
        exact hp _ hpi
    simp only [List.length_nil, if_neg (Nat.lt_irrefl 0), List.append_nil]
    rw [searchWith_none reIDHex_prefix hno, searchWith_none reIDHex2_prefix hno, searchWith_none reIDParen_prefix hno]
    rfl
  · have hl : fid.length > 0 := List.length_pos_iff.2 hf
    rw [if_pos hl]
    have e : pre ++ (b!"/ID [<" ++ hexUpper fid ++ b!"><" ++ hexUpper fid ++ b!">]\n") ++ post =
        pre ++ (b!"/ID [<" ++ hexUpper fid ++ b!">" ++ (b!"<" ++ hexUpper fid ++ b!">]\n" ++ post)) := by
      simp only [List.append_assoc, List.cons_append, List.nil_append]
    rw [e, searchWith_avoid reIDHex_prefix h, searchWith_here (reIDHex_here fid _ hf)]
    simp only [Option.map_some, Option.getD_some, parseHexString_hexUpper, if_pos hl]

theorem unlock_stored (e : Enc) (hr : 5 ≤ e.r) (fid pw : Bytes) : unlock P (stored e) fid pw = unlock P e fid pw := by
  have h1 : (stored e).r ≥ 5 := hr
  have h2 : e.r ≥ 5 := hr
  have hue : (stored e).ue = e.ue := by simp only [stored, if_pos h2]
  have hoe : (stored e).oe = e.oe := by simp only [stored, if_pos h2]
  have hq : ∀ a b, ({ stored e with encryptKey := a, keyTail := b } : Enc) = { e with encryptKey := a, keyTail := b } := by
    intro a b; simp only [stored, if_pos h2]
  simp only [unlock, if_pos h1, if_pos h2, unlockV5, hue, hoe, hq]
  rfl

theorem avoid_id_dict (e : Enc) : Avoid b!"/ID" (encryptDict e) := by
  rw [dict_parts]; unfold part2 part1 ueText oeText emText; avoid

/-! ### The dictionary of `SetupAES256Encryption` -/

theorem length_wrapKeyV5 (h : P.Lawful) (key pw fid : Bytes) :
    (wrapKeyV5 P key (deriveKeyV5 P pw fid)).length = (pkcs7 key).length :=
  length_ecb _ (fun b hb => h.enc_len _ b (key16_ok h pw fid) hb) _ (length_pkcs7 key)

theorem setup_dictOk (h : P.Lawful) (g : Random) (hg : g.Ok) (upw opw fid : Bytes) (perm : Int) (em : Bool)
    (hp : -2147483648 ≤ perm ∧ perm ≤ 2147483647) : DictOk (setupAES256 P g upw opw fid perm em) := by
  refine ⟨by simp [setupAES256], by simp [setupAES256], by simp [setupAES256], hp, ?_, ?_⟩
  · intro e; have := setup_u_length h g hg upw opw fid perm em; rw [e] at this; simp at this
  · intro e
    have := congrArg List.length e
    simp [setupAES256, hg.ownerSalt] at this

theorem length_hexUpper (bs : Bytes) : (hexUpper bs).length = 2 * bs.length := by
  induction bs with
  | nil => rfl
  | cons b bs ih =>
    have : hexUpper (b :: bs) = hexUp (b.toNat / 16) :: hexUp (b.toNat % 16) :: hexUpper bs := rfl
    rw [this]; simp [ih]; omega

theorem length_itoa32 (p : Int) (hp : -2147483648 ≤ p ∧ p ≤ 2147483647) : (itoa p).length ≤ 11 := by
  cases p with
  | ofNat n =>
    have := natDec_length_le 10 n (by omega) (by have := hp.2; simp at this ⊢; omega)
    simp only [itoa]; omega
  | negSucc n =>
    have := natDec_length_le 10 (n + 1) (by omega) (by have := hp.1; simp at this ⊢; omega)
    simp only [itoa, List.length_cons]; omega

theorem setup_dict_length (h : P.Lawful) (g : Random) (hg : g.Ok) (upw opw fid : Bytes) (perm : Int) (em : Bool)
    (hp : -2147483648 ≤ perm ∧ perm ≤ 2147483647) : (encryptDict (setupAES256 P g upw opw fid perm em)).length ≤ 2000 := by
  have hu := setup_u_length h g hg upw opw fid perm em
  have ho : (setupAES256 P g upw opw fid perm em).o.length = 48 := by
    simp [setupAES256, hg.ownerSalt, hg.ownerKeySalt, length_hashedV5 h]
  have hue : (setupAES256 P g upw opw fid perm em).ue.length = 48 := by
    simp only [setupAES256, length_wrapKeyV5 h, length_pkcs7_eq, hg.key]
  have hoe : (setupAES256 P g upw opw fid perm em).oe.length = 48 := by
    simp only [setupAES256, length_wrapKeyV5 h, length_pkcs7_eq, hg.key]
  have hpl := length_itoa32 perm hp
  have hP : (setupAES256 P g upw opw fid perm em).p = perm := rfl
  have n5 : (natDec 5).length = 1 := by decide
  have n256 : (natDec 256).length = 3 := by decide
  have hv : (setupAES256 P g upw opw fid perm em).v = 5 := rfl
  have hr : (setupAES256 P g upw opw fid perm em).r = 5 := rfl
  have hk : (setupAES256 P g upw opw fid perm em).keyLength * 8 = 256 := rfl
  generalize setupAES256 P g upw opw fid perm em = e at *
  unfold encryptDict
  have hem : (if e.encryptMetadata = true then ([] : Bytes) else b!"/EncryptMetadata false\n").length ≤ 23 := by
    split <;> simp
  simp only [List.length_append, hk, hv, hr, hP, hue, hoe, if_pos (show 48 > 0 by omega), length_hexUpper, hu, ho]
  simp only [List.length_cons, List.length_nil] at hem ⊢
  omega

/-- Opening a written file: the record read back from it is unlocked as the one that was written. -/
theorem decryptPDF_file (e : Enc) (h : DictOk e) (hr : 5 ≤ e.r) (hlen : (encryptDict e).length ≤ 2000) (n : Nat)
    (hn : n ≤ 9223372036854775807) (fid pw pre mid post : Bytes) (hl : Lines pre) (hm : Lines mid)
    (h1 : NoOcc b!"/Encrypt" pre) (h2 : NoOcc b!"/Encrypt" mid) (h3 : NoOcc (natDec n ++ b!" 0 obj") pre)
    (h4 : NoOcc b!"/ID" pre) (h5 : NoOcc b!"/ID" mid) (h6 : NoOcc b!"/ID" post) :
    decryptPDF P (pre ++ (natDec n ++ b!" 0 obj\n" ++ encryptDict e ++ b!"\nendobj\n") ++ mid ++
      (b!"/Encrypt " ++ natDec n ++ b!" 0 R\n" ++ idText fid ++ post)) pw = unlock P e fid pw := by
  generalize hpdf : pre ++ (natDec n ++ b!" 0 obj\n" ++ encryptDict e ++ b!"\nendobj\n") ++ mid ++
      (b!"/Encrypt " ++ natDec n ++ b!" 0 R\n" ++ idText fid ++ post) = pdf
  have e1 : parseEncrypt pdf = some (stored e) := by
    rw [← parseEncrypt_file e h hlen n hn pre mid (b!"\n" ++ idText fid ++ post) hl hm h1 h2 h3, ← hpdf]
    simp only [List.append_assoc, List.cons_append, List.nil_append]
  have e2 : extractFileID pdf = fid := by
    have : pdf = (pre ++ (natDec n ++ b!" 0 obj\n") ++ encryptDict e ++ b!"\nendobj\n" ++ mid ++
      (b!"/Encrypt " ++ natDec n ++ b!" 0 R\n")) ++ idText fid ++ post := by
      rw [← hpdf]; simp only [List.append_assoc]
    rw [this]
    apply extractFileID_written _ _ _ _ h6
    apply avoid_append _ (by avoid)
    apply avoid_append _ (avoid_lines hm h5 (by decide))
    apply avoid_append _ (avoid_clash (by decide))
    apply avoid_append _ (avoid_id_dict e)
    apply avoid_append (avoid_lines hl h4 (by decide)) (by avoid)
  simp only [decryptPDF, e1, e2, Res.ofOption, Res.bind]
  exact unlock_stored e hr fid pw

/-! ### Objects of an opened encrypted file -/

/-- `DecryptObject` as the reader uses it (core/parse/get_object.go:203-208, :226-230): an error leaves the data alone. -/
def decrypter (P : Prim) (e : Enc) : Decrypt := fun n g data =>
  match decryptObject P e n g data with
  | .ok d => some d
  | _ => none

theorem replaceLength_avoid {new a : Bytes} (h : Avoid b!"/Length" a) (s : Bytes) :
    replaceLength new 0 (a ++ s) = a ++ replaceLength new 0 s := by
  induction a with
  | nil => rfl
  | cons c a ih =>
    have : reLit b!"/Length" (c :: (a ++ s)) = none := by
      apply Classical.byContradiction
      intro hne
      exact h 0 (by simp) s (by simpa using reLit_prefix hne)
    rw [List.cons_append, replaceLength, this]
    simp only [Option.bind_none]
    rw [ih (avoid_tail h)]
    rfl

theorem replaceLength_skip {new : Bytes} : ∀ (a s : Bytes), replaceLength new a.length (a ++ s) = replaceLength new 0 s := by
  intro a
  induction a with
  | nil => intro s; rfl
  | cons c a ih => intro s; exact ih s

theorem replaceLength_none {new s : Bytes} (h : NoOcc b!"/Length" s) : replaceLength new 0 s = s := by
  induction s with
  | nil => rfl
  | cons c s ih =>
    have : reLit b!"/Length" (c :: s) = none := by
      apply Classical.byContradiction
      intro hne
      exact h 0 (by simpa using reLit_prefix hne)
    rw [replaceLength, this]
    simp only [Option.bind_none]
    rw [ih (fun i hp => h (i + 1) (by simpa using hp))]

theorem replaceLength_here {new s : Bytes} {k : Nat} (hs : ∀ c, s.head? = some c → isDigit c = false) :
    replaceLength new 0 (b!"/Length " ++ natDec k ++ s) = new ++ replaceLength new 0 s := by
  have hm := key_match (key := b!"/Length") (n := k) hs
  have e : b!"/Length " ++ natDec k ++ s = 47 :: (b!"Length " ++ natDec k ++ s) := rfl
  have e2 : b!"/Length" ++ b!" " ++ natDec k ++ s = 47 :: (b!"Length " ++ natDec k ++ s) := rfl
  have hm' : ((reLit b!"/Length" (47 :: (b!"Length " ++ natDec k ++ s))).bind fun s => (reSp1 s).bind fun s => (reNum s).map (·.2)) = some s := by
    rw [← e2]
    simp only [List.append_assoc, reLit_append, Option.bind_some] at hm ⊢
    cases hh : reSp1 (b!" " ++ (natDec k ++ s)) with
    | none => rw [hh] at hm; simp at hm
    | some t =>
      rw [hh] at hm
      simp only [Option.bind_some] at hm ⊢
      rw [hm]; rfl
  rw [e, replaceLength, hm']
  simp only
  have hl : (b!"Length " ++ natDec k ++ s).length - s.length = (b!"Length " ++ natDec k).length := by
    simp only [List.length_append]; omega
  rw [hl, replaceLength_skip]

/-- An encrypted stream object, read back. -/
theorem decryptStream_written (h : P.Lawful) (e : Enc) (iv : Bytes) (n : Int) (data a b c : Bytes)
    (hv : e.v = 4 ∨ e.v = 5) (hkey : e.encryptKey ≠ []) (hlo : 11 ≤ e.keyLength)
    (hhi : e.keyLength ≤ (e.encryptKey ++ e.keyTail).length) (hiv : iv.length = 16)
    (hc : encryptStream P e iv n 0 data = .ok c) (hcl : c.length ≤ 9223372036854775807)
    (ha : Avoid b!"/Length" a) (hb : NoOcc b!"/Length" b) (hb2 : ∀ x, b.head? = some x → isDigit x = false) (hb0 : b ≠ [])
    (hst : NoOcc b!"stream" (a ++ (b!"/Length " ++ natDec c.length) ++ b)) :
    plainStreamOf (some (decrypter P e)) n (a ++ (b!"/Length " ++ natDec c.length) ++ b ++ b!"\nstream\n" ++ c ++ b!"\nendstream") =
      a ++ (b!"/Length " ++ natDec data.length) ++ b ++ b!"\nstream\n" ++ data ++ b!"\nendstream" := by
  obtain ⟨c', h1, h2⟩ := encryptStream_decryptObject h e iv n 0 data hv hkey hlo hhi hiv
  have : c' = c := by rw [hc] at h1; injection h1 with h1; exact h1.symm
  subst this
  have hcpos : 0 < c'.length := by
    apply Nat.pos_of_ne_zero
    intro h0
    have hl : e.encryptKey.length ≠ 0 := by simpa using hkey
    have : c' = [] := List.eq_nil_of_length_eq_zero h0
    subst this
    have hv1 : e.v > 1 := by omega
    have hv2 : ¬ (e.v = 1 ∨ e.v = 2) := by omega
    simp [decryptObject, hl, hv1, hv2, hv, sliceTo] at h2
    split at h2 <;> simp [Res.bind] at h2
  have hidx : index b!"stream" (a ++ (b!"/Length " ++ natDec c'.length) ++ b ++ b!"\nstream\n" ++ c' ++ b!"\nendstream") =
      some ((a ++ (b!"/Length " ++ natDec c'.length) ++ b).length + 1) := by
    rw [show a ++ (b!"/Length " ++ natDec c'.length) ++ b ++ b!"\nstream\n" ++ c' ++ b!"\nendstream" =
      (a ++ (b!"/Length " ++ natDec c'.length) ++ b) ++ 10 :: (b!"stream" ++ (b!"\n" ++ c' ++ b!"\nendstream")) by
      simp only [List.append_assoc, List.cons_append, List.nil_append]]
    exact index_after (by decide) hst (List.prefix_append _ _)
  simp only [plainStreamOf, hidx, Option.getD_some]
  generalize hS : a ++ (b!"/Length " ++ natDec c'.length) ++ b = S at *
  unfold decryptStream
  have t1 : (S ++ b!"\nstream\n" ++ c' ++ b!"\nendstream").take (S.length + 1) = S ++ b!"\n" := by
    rw [show S ++ b!"\nstream\n" ++ c' ++ b!"\nendstream" = (S ++ b!"\n") ++ (b!"stream\n" ++ c' ++ b!"\nendstream") by
      simp only [List.append_assoc, List.cons_append, List.nil_append]]
    exact List.take_left' (by simp)
  have t2 : (S ++ b!"\nstream\n" ++ c' ++ b!"\nendstream").drop (S.length + 1 + 6) = b!"\n" ++ (c' ++ b!"\nendstream") := by
    rw [show S ++ b!"\nstream\n" ++ c' ++ b!"\nendstream" = (S ++ b!"\nstream") ++ (b!"\n" ++ (c' ++ b!"\nendstream")) by
      simp only [List.append_assoc, List.cons_append, List.nil_append]]
    exact List.drop_left' (by simp)
  have t3 : Pdfer.XRefStream.skipEol (b!"\n" ++ (c' ++ b!"\nendstream")) = c' ++ b!"\nendstream" := rfl
  have t4 : ((searchWith (reKeyNum b!"/Length") (S ++ b!"\n")).map atoiClamp).getD 0 = c'.length := by
    rw [← hS, show a ++ (b!"/Length " ++ natDec c'.length) ++ b ++ b!"\n" =
      a ++ (b!"/Length" ++ b!" " ++ natDec c'.length ++ (b ++ b!"\n")) by
      simp only [List.append_assoc, List.cons_append, List.nil_append]]
    have hpre : ∀ s, reKeyNum b!"/Length" s ≠ none → b!"/Length" <+: s := by
      intro s hs; apply reLit_prefix; intro e; apply hs; simp [reKeyNum, e]
    rw [searchWith_avoid hpre ha]
    have hm := key_match (key := b!"/Length") (n := c'.length) (s := b ++ b!"\n") (by
      intro x hx
      cases b with
      | nil => exact absurd rfl hb0
      | cons y b => exact hb2 x (by simpa using hx))
    have : reKeyNum b!"/Length" (b!"/Length" ++ b!" " ++ natDec c'.length ++ (b ++ b!"\n")) = some (natDec c'.length) := by
      unfold reKeyNum
      simp only [List.append_assoc, reLit_append, Option.bind_some] at hm ⊢
      cases hh : reSp1 (b!" " ++ (natDec c'.length ++ (b ++ b!"\n"))) with
      | none => rw [hh] at hm; simp at hm
      | some t =>
        rw [hh] at hm
        simp only [Option.bind_some] at hm ⊢
        rw [hm]; rfl
    rw [searchWith_here this]
    simp only [Option.map_some, Option.getD_some]
    exact atoiClamp_natDec _ hcl
  simp only [t1, t2, t3, t4]
  rw [if_pos ⟨hcpos, by simp⟩, List.take_left]
  have t5 : decrypter P e n 0 c' = some data := by simp only [decrypter, h2]
  rw [t5]
  simp only
  have t6 : ∀ new, replaceLength new 0 (S ++ b!"\n") = a ++ new ++ b ++ b!"\n" := by
    intro new
    rw [← hS, show a ++ (b!"/Length " ++ natDec c'.length) ++ b ++ b!"\n" =
      a ++ (b!"/Length " ++ natDec c'.length ++ (b ++ b!"\n")) by
      simp only [List.append_assoc]]
    rw [replaceLength_avoid ha, replaceLength_here (by
      intro x hx
      cases b with
      | nil => exact absurd rfl hb0
      | cons y b => exact hb2 x (by simpa using hx)), replaceLength_none]
    · simp only [List.append_assoc]
    · have := noOcc_mid (c := 10) (a := b) (b := []) (pat := b!"/Length") (by decide) hb (noOcc_nil (by decide))
      simpa using this
  rw [t6]
  simp only [List.append_assoc, List.cons_append, List.nil_append]

end Pdfer.Crypto
