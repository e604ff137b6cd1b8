import Verif.Model.Crypto
import Verif.Proofs.GoLib

/-! Lemmas about the encryption model, for every lawful choice of primitives. -/

namespace Pdfer.Crypto

open Go

variable {P : Prim}

/-! ### Blocks, padding, modes -/

/-- Concatenation of 16-byte blocks. -/
def Blocks16 (bs : List Bytes) : Prop := ∀ b ∈ bs, b.length = 16

theorem blocks_spec : ∀ (k f : Nat) (d : Bytes), d.length = 16 * k → k ≤ f →
    (blocks f d).flatten = d ∧ Blocks16 (blocks f d) ∧ (blocks f d).length = k := by
  intro k
  induction k with
  | zero =>
    intro f d hd _
    have : d = [] := List.eq_nil_of_length_eq_zero (by omega)
    subst this
    cases f <;> simp [blocks, Blocks16]
  | succ k ih =>
    intro f d hd hf
    cases f with
    | zero => omega
    | succ f =>
      have hne : d ≠ [] := by intro e; subst e; simp at hd
      simp only [blocks, if_neg hne]
      have := ih f (d.drop 16) (by simp; omega) (by omega)
      refine ⟨by simp [this.1], ?_, by simp [this.2.2]⟩
      intro b hb
      simp only [List.mem_cons] at hb
      rcases hb with rfl | hb
      · simp; omega
      · exact this.2.1 b hb

theorem blocks_flatten : ∀ (bs : List Bytes) (f : Nat), Blocks16 bs → bs.length ≤ f → blocks f bs.flatten = bs := by
  intro bs
  induction bs with
  | nil => intro f _ _; cases f <;> simp [blocks]
  | cons b bs ih =>
    intro f h hf
    have hb := h b (by simp)
    cases f with
    | zero => simp at hf
    | succ f =>
      have hne : b ++ bs.flatten ≠ [] := by
        intro e; have := congrArg List.length e; simp at this; rw [this.1] at hb; simp at hb
      simp only [blocks, List.flatten_cons]
      rw [if_neg hne, List.take_left' hb, List.drop_left' hb, ih f (fun c hc => h c (by simp [hc])) (by simpa using hf)]

theorem length_flatten16 (bs : List Bytes) (h : Blocks16 bs) : bs.flatten.length = 16 * bs.length := by
  induction bs with
  | nil => rfl
  | cons b bs ih =>
    have h1 := h b (by simp)
    have h2 := ih (fun c hc => h c (by simp [hc]))
    simp only [List.flatten_cons, List.length_append, List.length_cons, h1, h2]; omega

theorem blocks_of_len (d : Bytes) (h : d.length % 16 = 0) :
    ∃ bs, Blocks16 bs ∧ bs.flatten = d ∧ blocks d.length d = bs ∧ bs.length = d.length / 16 := by
  have := blocks_spec (d.length / 16) d.length d (by omega) (by omega)
  exact ⟨_, this.2.1, this.1, rfl, this.2.2⟩

theorem length_pkcs7 (d : Bytes) : (pkcs7 d).length % 16 = 0 := by
  simp only [pkcs7, List.length_append, List.length_replicate]; omega

theorem length_pkcs7_eq (d : Bytes) : (pkcs7 d).length = d.length + (16 - d.length % 16) := by
  simp [pkcs7]

theorem getLast_pkcs7 (d : Bytes) : ((pkcs7 d).getLastD 0).toNat = 16 - d.length % 16 := by
  have hn : 16 - d.length % 16 ≠ 0 := by omega
  have : ∀ n, n ≠ 0 → (d ++ List.replicate n (UInt8.ofNat n)).getLastD 0 = UInt8.ofNat n := by
    intro n hn
    obtain ⟨m, rfl⟩ := Nat.exists_eq_succ_of_ne_zero hn
    rw [List.replicate_succ', ← List.append_assoc, List.getLastD_concat]
  simp only [pkcs7]
  rw [this _ hn]
  simp; omega

theorem take_pkcs7 (d : Bytes) : (pkcs7 d).take ((pkcs7 d).length - (16 - d.length % 16)) = d := by
  rw [length_pkcs7_eq]
  simp [pkcs7]

theorem ecb_ecb (f g : Bytes → Bytes) (hf : ∀ b : Bytes, b.length = 16 → (f b).length = 16)
    (hfg : ∀ b : Bytes, b.length = 16 → g (f b) = b) (d : Bytes) (h : d.length % 16 = 0) : ecb g (ecb f d) = d := by
  obtain ⟨bs, h16, hfl, hbl, hn⟩ := blocks_of_len d h
  have e1 : ecb f d = (bs.map f).flatten := by simp only [ecb, hbl]
  have m16 : Blocks16 (bs.map f) := by
    intro b hb
    obtain ⟨c, hc, rfl⟩ := List.mem_map.1 hb
    exact hf c (h16 c hc)
  rw [e1, ecb, blocks_flatten _ _ m16 (by rw [length_flatten16 _ m16]; omega), List.map_map]
  rw [← hfl]
  congr 1
  exact (List.map_congr_left fun b hb => hfg b (h16 b hb)).trans (List.map_id bs)

theorem length_ecb (f : Bytes → Bytes) (hf : ∀ b : Bytes, b.length = 16 → (f b).length = 16) (d : Bytes)
    (h : d.length % 16 = 0) : (ecb f d).length = d.length := by
  obtain ⟨bs, h16, hfl, hbl, hn⟩ := blocks_of_len d h
  have m16 : Blocks16 (bs.map f) := by
    intro b hb
    obtain ⟨c, hc, rfl⟩ := List.mem_map.1 hb
    exact hf c (h16 c hc)
  rw [ecb, hbl, length_flatten16 _ m16]
  simp; omega

theorem length_xorB' (a b : Bytes) : (xorB a b).length = min a.length b.length := by
  simp [xorB]

theorem xorB_cancel (a k : Bytes) (h : a.length ≤ k.length) : xorB (xorB a k) k = a := by
  induction a generalizing k with
  | nil => simp [xorB]
  | cons x a ih =>
    cases k with
    | nil => simp at h
    | cons y k =>
      simp only [xorB, List.zipWith_cons_cons]
      have := ih k (by simpa using h)
      simp only [xorB] at this
      rw [this, UInt8.xor_assoc, UInt8.xor_self, UInt8.xor_zero]

/-- The ciphertext blocks of CBC mode. -/
def cbcBlocks (f : Bytes → Bytes) : Bytes → List Bytes → List Bytes
  | _, [] => []
  | iv, b :: bs => let c := f (xorB b iv); c :: cbcBlocks f c bs

theorem cbcEnc_eq (f : Bytes → Bytes) : ∀ bs iv, cbcEnc f iv bs = (cbcBlocks f iv bs).flatten := by
  intro bs
  induction bs with
  | nil => intro iv; rfl
  | cons b bs ih => intro iv; simp [cbcEnc, cbcBlocks, ih]

theorem cbcBlocks_spec (f : Bytes → Bytes) (hf : ∀ b : Bytes, b.length = 16 → (f b).length = 16) :
    ∀ bs iv, Blocks16 bs → iv.length = 16 → Blocks16 (cbcBlocks f iv bs) ∧ (cbcBlocks f iv bs).length = bs.length := by
  intro bs
  induction bs with
  | nil => intro iv _ _; simp [cbcBlocks, Blocks16]
  | cons b bs ih =>
    intro iv h hi
    have hb := h b (by simp)
    have hc := hf (xorB b iv) (by simp [length_xorB', hb, hi])
    have := ih _ (fun c hc => h c (by simp [hc])) hc
    refine ⟨?_, by simp [cbcBlocks, this.2]⟩
    intro c hc'
    simp only [cbcBlocks, List.mem_cons] at hc'
    rcases hc' with rfl | hc'
    · exact hc
    · exact this.1 c hc'

theorem cbcDec_cbcBlocks (f g : Bytes → Bytes) (hf : ∀ b : Bytes, b.length = 16 → (f b).length = 16)
    (hfg : ∀ b : Bytes, b.length = 16 → g (f b) = b) :
    ∀ bs iv, Blocks16 bs → iv.length = 16 → cbcDec g iv (cbcBlocks f iv bs) = bs.flatten := by
  intro bs
  induction bs with
  | nil => intro iv _ _; rfl
  | cons b bs ih =>
    intro iv h hi
    have hb := h b (by simp)
    have hx : (xorB b iv).length = 16 := by simp [length_xorB', hb, hi]
    simp only [cbcBlocks, cbcDec, List.flatten_cons]
    rw [ih _ (fun c hc => h c (by simp [hc])) (hf _ hx), hfg _ hx, xorB_cancel _ _ (by omega)]

theorem length_cbcDec (g : Bytes → Bytes) (hg : ∀ b : Bytes, b.length = 16 → (g b).length = 16) :
    ∀ cs iv, Blocks16 cs → iv.length = 16 → (cbcDec g iv cs).length = 16 * cs.length := by
  intro cs
  induction cs with
  | nil => intro iv _ _; rfl
  | cons c cs ih =>
    intro iv h hi
    have hc := h c (by simp)
    simp only [cbcDec, List.length_append, List.length_cons]
    rw [ih _ (fun c hc => h c (by simp [hc])) hc, length_xorB', hg c hc, hi]
    omega

/-! ### Streams -/

/-- The AES key of an object has 16 bytes when at least 11 bytes of the file key are used. -/
theorem aesKey_ok (h : P.Lawful) (m : Bytes) (kl : Nat) (hk : 11 ≤ kl) :
    aesKeyOk ((P.md5 m).take (min (kl + 5) 16)) = true := by
  simp [aesKeyOk, h.md5_len]; omega

theorem encryptStream_decryptObject (h : P.Lawful) (e : Enc) (iv : Bytes) (n : Int) (g : Nat) (data : Bytes)
    (hv : e.v = 4 ∨ e.v = 5) (hkey : e.encryptKey ≠ []) (hlo : 11 ≤ e.keyLength)
    (hhi : e.keyLength ≤ (e.encryptKey ++ e.keyTail).length) (hiv : iv.length = 16) :
    ∃ c, encryptStream P e iv n g data = .ok c ∧ decryptObject P e n g c = .ok data := by
  have hl : e.encryptKey.length ≠ 0 := by simpa using hkey
  have hv1 : e.v > 1 := by omega
  have hv2 : ¬ (e.v = 1 ∨ e.v = 2) := by omega
  have hk0 : e.keyLength ≠ 0 := by omega
  simp only [encryptStream, decryptObject, if_neg hl, if_pos hv1, if_neg hv2, if_pos hv, if_neg hk0]
  simp only [sliceTo, if_pos hhi, Res.bind]
  generalize hak : ((P.md5 (List.take e.keyLength (e.encryptKey ++ e.keyTail) ++ packObj n g ++ salt)).take
    (min (e.keyLength + 5) 16)) = ak
  have hok : aesKeyOk ak = true := by rw [← hak]; exact aesKey_ok h _ _ hlo
  simp only [hok, not_true, if_false]
  refine ⟨_, rfl, ?_⟩
  obtain ⟨bs, h16, hfl, hbl, hn⟩ := blocks_of_len (pkcs7 data) (length_pkcs7 data)
  have henc : ∀ b : Bytes, b.length = 16 → (P.aesEnc ak b).length = 16 := fun b hb => h.enc_len ak b hok hb
  have hs := cbcBlocks_spec (P.aesEnc ak) henc bs iv h16 hiv
  have hpos : 0 < bs.length := by
    rw [hn]; have := length_pkcs7_eq data; have := length_pkcs7 data; omega
  have hbody : (cbcBlocks (P.aesEnc ak) iv bs).flatten.length = 16 * bs.length := by
    rw [length_flatten16 _ hs.1, hs.2]
  rw [hbl, cbcEnc_eq]
  have t1 : (iv ++ (cbcBlocks (P.aesEnc ak) iv bs).flatten).take 16 = iv := List.take_left' hiv
  have t2 : (iv ++ (cbcBlocks (P.aesEnc ak) iv bs).flatten).drop 16 = (cbcBlocks (P.aesEnc ak) iv bs).flatten :=
    List.drop_left' hiv
  rw [t1, t2]
  have c1 : ¬ (iv ++ (cbcBlocks (P.aesEnc ak) iv bs).flatten).length < 16 := by simp [hiv]
  have c2 : ¬ (cbcBlocks (P.aesEnc ak) iv bs).flatten.length = 0 := by omega
  have c3 : ¬ (cbcBlocks (P.aesEnc ak) iv bs).flatten.length % 16 ≠ 0 := by omega
  simp only [if_neg c1, if_neg c2, if_neg c3]
  rw [blocks_flatten _ _ hs.1 (by rw [hbody, hs.2]; omega),
    cbcDec_cbcBlocks _ _ henc (fun b hb => h.dec_enc ak b hok hb) bs iv h16 hiv, hfl, getLast_pkcs7]
  have hle : ¬ 16 - data.length % 16 > (pkcs7 data).length := by rw [length_pkcs7_eq]; omega
  rw [if_neg hle, take_pkcs7]

/-! ### Keys -/

theorem length_shaRounds (h : P.Lawful) : ∀ k m, m.length = 32 → (shaRounds P k m).length = 32 := by
  intro k
  induction k with
  | zero => intro m hm; exact hm
  | succ k ih => intro m hm; exact ih _ (h.sha_len m)

theorem length_deriveKeyV5 (h : P.Lawful) (pw fileID : Bytes) : (deriveKeyV5 P pw fileID).length = 32 :=
  length_shaRounds h _ _ (h.sha_len _)

theorem key16_ok (h : P.Lawful) (pw fileID : Bytes) : aesKeyOk ((deriveKeyV5 P pw fileID).take 16) = true := by
  simp [aesKeyOk, length_deriveKeyV5 h]

theorem length_hashedV5 (h : P.Lawful) (pw fileID m : Bytes) : (hashedV5 P (deriveKeyV5 P pw fileID) m).length = 32 := by
  have hk := key16_ok h pw fileID
  have hs := h.sha_len m
  simp only [hashedV5, List.length_append]
  rw [h.enc_len _ _ hk (by simp [hs]), h.enc_len _ _ hk (by simp [hs])]

theorem unwrap_wrap (h : P.Lawful) (pw fileID key : Bytes) :
    ∃ tail, unwrapV5 P (deriveKeyV5 P pw fileID) (wrapKeyV5 P key (deriveKeyV5 P pw fileID)) = .ok (key, tail) := by
  have hk := key16_ok h pw fileID
  have henc : ∀ b : Bytes, b.length = 16 → (P.aesEnc ((deriveKeyV5 P pw fileID).take 16) b).length = 16 :=
    fun b hb => h.enc_len _ b hk hb
  have hw : (wrapKeyV5 P key (deriveKeyV5 P pw fileID)).length = (pkcs7 key).length := length_ecb _ henc _ (length_pkcs7 key)
  have hl := length_pkcs7_eq key
  have hm := length_pkcs7 key
  have hdec : ecb (P.aesDec ((deriveKeyV5 P pw fileID).take 16)) (wrapKeyV5 P key (deriveKeyV5 P pw fileID)) = pkcs7 key :=
    ecb_ecb _ _ henc (fun b hb => h.dec_enc _ b hk hb) _ hm
  refine ⟨(pkcs7 key).drop ((pkcs7 key).length - (16 - key.length % 16)), ?_⟩
  simp only [unwrapV5]
  rw [if_neg (by omega), if_neg (by rw [length_deriveKeyV5 h]; omega), if_neg (by omega), hdec, getLast_pkcs7,
    if_neg (by omega), take_pkcs7]

theorem setup_u_length (h : P.Lawful) (g : Random) (hg : g.Ok) (upw opw fid : Bytes) (perm : Int) (em : Bool) :
    (setupAES256 P g upw opw fid perm em).u.length = 48 := by
  simp [setupAES256, hg.userSalt, hg.userKeySalt, length_hashedV5 h]

theorem setup_verify (h : P.Lawful) (g : Random) (hg : g.Ok) (upw opw fid : Bytes) (perm : Int) (em : Bool) (pw : Bytes) :
    verifyUV5 P pw (deriveKeyV5 P pw fid) (setupAES256 P g upw opw fid perm em).u =
      .ok (hashedV5 P (deriveKeyV5 P upw fid) (upw ++ g.userSalt) == hashedV5 P (deriveKeyV5 P pw fid) (pw ++ g.userSalt)) := by
  have hu := setup_u_length h g hg upw opw fid perm em
  simp only [verifyUV5]
  rw [if_neg (by omega), if_neg (by rw [length_deriveKeyV5 h]; omega)]
  have t8 : (setupAES256 P g upw opw fid perm em).u.take 8 = g.userSalt := by
    simp only [setupAES256, List.append_assoc]
    exact List.take_left' hg.userSalt
  have t40 : ((setupAES256 P g upw opw fid perm em).u.take 40).drop 8 =
      hashedV5 P (deriveKeyV5 P upw fid) (upw ++ g.userSalt) := by
    simp only [setupAES256]
    rw [List.take_left' (by simp [hg.userSalt, length_hashedV5 h]), List.drop_left' hg.userSalt]
  rw [t8, t40]

theorem unlock_user (h : P.Lawful) (g : Random) (hg : g.Ok) (upw opw fid : Bytes) (perm : Int) (em : Bool) :
    ∃ e', unlock P (setupAES256 P g upw opw fid perm em) fid upw = .ok e' ∧ e'.encryptKey = g.key ∧
      { e' with keyTail := [] } = setupAES256 P g upw opw fid perm em := by
  have hr : (setupAES256 P g upw opw fid perm em).r ≥ 5 := by simp [setupAES256]
  simp only [unlock, if_pos hr, unlockV5]
  rw [setup_verify h g hg]
  obtain ⟨tail, ht⟩ := unwrap_wrap h upw fid g.key
  have hue : (setupAES256 P g upw opw fid perm em).ue = wrapKeyV5 P g.key (deriveKeyV5 P upw fid) := rfl
  simp only [Res.bind, beq_self_eq_true, if_true, hue, ht]
  exact ⟨_, rfl, rfl, rfl⟩

theorem unlock_owner (h : P.Lawful) (g : Random) (hg : g.Ok) (upw opw fid : Bytes) (perm : Int) (em : Bool)
    (hne : opw = upw ∨ hashedV5 P (deriveKeyV5 P upw fid) (upw ++ g.userSalt) ≠
      hashedV5 P (deriveKeyV5 P opw fid) (opw ++ g.userSalt)) :
    ∃ e', unlock P (setupAES256 P g upw opw fid perm em) fid opw = .ok e' ∧ e'.encryptKey = g.key := by
  rcases hne with rfl | hne
  · obtain ⟨e', h1, h2, _⟩ := unlock_user h g hg opw opw fid perm em
    exact ⟨e', h1, h2⟩
  have hr : (setupAES256 P g upw opw fid perm em).r ≥ 5 := by simp [setupAES256]
  simp only [unlock, if_pos hr, unlockV5]
  rw [setup_verify h g hg]
  obtain ⟨tail, ht⟩ := unwrap_wrap h opw fid g.key
  have hoe : (setupAES256 P g upw opw fid perm em).oe = wrapKeyV5 P g.key (deriveKeyV5 P opw fid) := rfl
  have hb : (hashedV5 P (deriveKeyV5 P upw fid) (upw ++ g.userSalt) == hashedV5 P (deriveKeyV5 P opw fid) (opw ++ g.userSalt))
      = false := by simpa using hne
  simp only [Res.bind, hb, hoe, ht]
  exact ⟨_, rfl, rfl⟩

end Pdfer.Crypto
