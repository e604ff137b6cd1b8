import Verif.Model.CryptoPrim

/-! The executable primitives are lawful: AES decryption inverts AES encryption, for every key and block. -/

namespace Pdfer.Crypto

/-! ### Lengths -/

theorem length_bytesBE (x : Nat) : (bytesBE x).length = 4 := rfl
theorem length_bytesLE (x : Nat) : (bytesLE x).length = 4 := rfl

theorem length_sha256 (m : Bytes) : (sha256 m).length = 32 := by
  simp [sha256, length_bytesBE]

theorem length_md5 (m : Bytes) : (md5 m).length = 16 := by
  simp [md5, length_bytesLE]

theorem length_xorB (a b : Bytes) : (xorB a b).length = min a.length b.length := by
  simp [xorB]

theorem xorB_xorB (a k : Bytes) (h : a.length ≤ k.length) : xorB (xorB a k) k = a := by
  induction a generalizing k with
  | nil => simp [xorB]
  | cons x a ih =>
    cases k with
    | nil => simp at h
    | cons y k =>
      simp only [xorB, List.zipWith_cons_cons]
      have := ih k (by simpa using h)
      simp only [xorB] at this
      rw [this, UInt8.xor_assoc, UInt8.xor_self, UInt8.xor_zero]

/-! ### Bytes in GF(2^8) -/

set_option maxRecDepth 100000 in
theorem sbox_inv : sbox.map invSub = (List.range 256).map UInt8.ofNat := by decide +kernel

theorem invSub_sub (x : UInt8) : invSub (sub x) = x := by
  have h : (sbox.map invSub)[x.toNat]? = ((List.range 256).map UInt8.ofNat)[x.toNat]? := by rw [sbox_inv]
  have hx : x.toNat < 256 := x.toNat_lt
  rw [List.getElem?_map, List.getElem?_map, List.getElem?_range hx] at h
  have hl : x.toNat < sbox.length := by
    have : sbox.length = 256 := by decide +kernel
    omega
  rw [List.getElem?_eq_getElem hl] at h
  simp only [sub, List.getD_eq_getElem?_getD, List.getElem?_eq_getElem hl]
  simpa using h

theorem and_top (a : UInt8) : a &&& 0x80 = 0 ∨ a &&& 0x80 = 0x80 :=
  forall_byte (p := fun a => a &&& 0x80 = 0 ∨ a &&& 0x80 = 0x80) (by decide +kernel) a

theorem xtime_xor (a b : UInt8) : xtime (a ^^^ b) = xtime a ^^^ xtime b := by
  have e : (a ^^^ b) &&& 0x80 = (a &&& 0x80) ^^^ (b &&& 0x80) := by
    
    apply UInt8.eq_of_toBitVec_eq
    apply BitVec.eq_of_getLsbD_eq
    intro i hi
    simp [Bool.and_xor_distrib_right]
  have s : (a ^^^ b) <<< (1 : UInt8) = (a <<< 1) ^^^ (b <<< 1) := UInt8.shiftLeft_xor
  rcases and_top a with ha | ha <;> rcases and_top b with hb | hb <;>
    simp only [xtime, e, ha, hb, s] <;> simp <;> try ac_rfl
  have : ∀ x y : UInt8, x ^^^ 27 ^^^ (y ^^^ 27) = x ^^^ y := by
    intro x y
    have : x ^^^ 27 ^^^ (y ^^^ 27) = x ^^^ y ^^^ (27 ^^^ 27) := by ac_rfl
    rw [this, UInt8.xor_self, UInt8.xor_zero]
  exact (this _ _).symm

theorem gmul_xor (k : Nat) (a b : UInt8) : gmul k (a ^^^ b) = gmul k a ^^^ gmul k b := by
  have ite_xor : ∀ (c : Bool) (x y : UInt8),
      (if c then x ^^^ y else 0) = (if c then x else 0) ^^^ (if c then y else 0) := by
    intro c x y; cases c <;> simp
  simp only [gmul, xtime_xor, ite_xor]
  ac_rfl

theorem inv0 (a : UInt8) : gmul 14 (gmul 2 a) ^^^ gmul 11 (gmul 1 a) ^^^ gmul 13 (gmul 1 a) ^^^ gmul 9 (gmul 3 a) = a :=
  forall_byte (p := fun a => gmul 14 (gmul 2 a) ^^^ gmul 11 (gmul 1 a) ^^^ gmul 13 (gmul 1 a) ^^^ gmul 9 (gmul 3 a) = a)
    (by decide +kernel) a
theorem inv1 (a : UInt8) : gmul 14 (gmul 3 a) ^^^ gmul 11 (gmul 2 a) ^^^ gmul 13 (gmul 1 a) ^^^ gmul 9 (gmul 1 a) = 0 :=
  forall_byte (p := fun a => gmul 14 (gmul 3 a) ^^^ gmul 11 (gmul 2 a) ^^^ gmul 13 (gmul 1 a) ^^^ gmul 9 (gmul 1 a) = 0)
    (by decide +kernel) a
theorem inv2 (a : UInt8) : gmul 14 (gmul 1 a) ^^^ gmul 11 (gmul 3 a) ^^^ gmul 13 (gmul 2 a) ^^^ gmul 9 (gmul 1 a) = 0 :=
  forall_byte (p := fun a => gmul 14 (gmul 1 a) ^^^ gmul 11 (gmul 3 a) ^^^ gmul 13 (gmul 2 a) ^^^ gmul 9 (gmul 1 a) = 0)
    (by decide +kernel) a
theorem inv3 (a : UInt8) : gmul 14 (gmul 1 a) ^^^ gmul 11 (gmul 1 a) ^^^ gmul 13 (gmul 3 a) ^^^ gmul 9 (gmul 2 a) = 0 :=
  forall_byte (p := fun a => gmul 14 (gmul 1 a) ^^^ gmul 11 (gmul 1 a) ^^^ gmul 13 (gmul 3 a) ^^^ gmul 9 (gmul 2 a) = 0)
    (by decide +kernel) a

/-- Sixteen products regrouped by variable. -/
theorem regroup (a0 a1 a2 a3 b0 b1 b2 b3 c0 c1 c2 c3 d0 d1 d2 d3 : UInt8) :
    (a0 ^^^ b0 ^^^ c0 ^^^ d0) ^^^ (a1 ^^^ b1 ^^^ c1 ^^^ d1) ^^^ (a2 ^^^ b2 ^^^ c2 ^^^ d2) ^^^ (a3 ^^^ b3 ^^^ c3 ^^^ d3) =
    (a0 ^^^ a1 ^^^ a2 ^^^ a3) ^^^ (b0 ^^^ b1 ^^^ b2 ^^^ b3) ^^^ (c0 ^^^ c1 ^^^ c2 ^^^ c3) ^^^ (d0 ^^^ d1 ^^^ d2 ^^^ d3) := by
  ac_rfl

theorem mixCol_inv (l : Bytes) (h : l.length = 4) : mixCol 14 11 13 9 (mixCol 2 3 1 1 l) = l := by
  match l, h with
  | [a, b, c, d], _ =>
    have r1 : ∀ w x y z : UInt8, w ^^^ x ^^^ y ^^^ z = z ^^^ w ^^^ x ^^^ y := by intros; ac_rfl
    have r2 : ∀ w x y z : UInt8, w ^^^ x ^^^ y ^^^ z = y ^^^ z ^^^ w ^^^ x := by intros; ac_rfl
    have r3 : ∀ w x y z : UInt8, w ^^^ x ^^^ y ^^^ z = x ^^^ y ^^^ z ^^^ w := by intros; ac_rfl
    have i0 := inv0; have i1 := inv1; have i2 := inv2; have i3 := inv3
    simp only [mixCol, gmul_xor]
    congr 1
    · rw [regroup, i0, i1, i2, i3]; simp
    congr 1
    · rw [regroup, r3 (gmul 9 _), r3 (gmul 9 _), r3 (gmul 9 _), r3 (gmul 9 _), i0, i1, i2, i3]; simp
    congr 1
    · rw [regroup, r2 (gmul 13 _), r2 (gmul 13 _), r2 (gmul 13 _), r2 (gmul 13 _), i0, i1, i2, i3]; simp
    congr 1
    · rw [regroup, r1 (gmul 11 _), r1 (gmul 11 _), r1 (gmul 11 _), r1 (gmul 11 _), i0, i1, i2, i3]; simp

theorem length_mixCol (p q r s : Nat) (l : Bytes) (h : l.length = 4) : (mixCol p q r s l).length = 4 := by
  match l, h with
  | [a, b, c, d], _ => rfl

/-- A 16-byte state is its sixteen bytes. -/
theorem state_cases (l : Bytes) (h : l.length = 16) : ∃ a0 a1 a2 a3 b0 b1 b2 b3 c0 c1 c2 c3 d0 d1 d2 d3,
    l = [a0, a1, a2, a3, b0, b1, b2, b3, c0, c1, c2, c3, d0, d1, d2, d3] := by
  match l, h with
  | [a0, a1, a2, a3, b0, b1, b2, b3, c0, c1, c2, c3, d0, d1, d2, d3], _ => exact ⟨_, _, _, _, _, _, _, _, _, _, _, _, _, _, _, _, rfl⟩

theorem invShiftRows_shiftRows (l : Bytes) (h : l.length = 16) : invShiftRows (shiftRows l) = l := by
  obtain ⟨_, _, _, _, _, _, _, _, _, _, _, _, _, _, _, _, rfl⟩ := state_cases l h
  rfl

theorem length_shiftRows (l : Bytes) (h : l.length = 16) : (shiftRows l).length = 16 := by
  obtain ⟨_, _, _, _, _, _, _, _, _, _, _, _, _, _, _, _, rfl⟩ := state_cases l h
  rfl

theorem length_invShiftRows (l : Bytes) (h : l.length = 16) : (invShiftRows l).length = 16 := by
  obtain ⟨_, _, _, _, _, _, _, _, _, _, _, _, _, _, _, _, rfl⟩ := state_cases l h
  rfl

theorem mixCols_eq (p q r s : Nat) (a b c d : Bytes) (ha : a.length = 4) (hb : b.length = 4) (hc : c.length = 4)
    (hd : d.length = 4) :
    mixCols p q r s (a ++ b ++ c ++ d) = mixCol p q r s a ++ mixCol p q r s b ++ mixCol p q r s c ++ mixCol p q r s d := by
  match a, b, c, d, ha, hb, hc, hd with
  | [a0, a1, a2, a3], [b0, b1, b2, b3], [c0, c1, c2, c3], [d0, d1, d2, d3], _, _, _, _ =>
    simp only [mixCols, List.cons_append, List.nil_append, chunks, List.isEmpty_cons,
      List.take_succ_cons, List.take_zero, List.drop_succ_cons, List.drop_zero, List.map_cons, List.map_nil,
      List.flatten_cons, List.flatten_nil, List.append_nil, List.append_assoc, Bool.false_eq_true, if_false]

theorem split4 (l : Bytes) (h : l.length = 16) : ∃ a b c d : Bytes, l = a ++ b ++ c ++ d ∧ a.length = 4 ∧ b.length = 4 ∧
    c.length = 4 ∧ d.length = 4 := by
  obtain ⟨a0, a1, a2, a3, b0, b1, b2, b3, c0, c1, c2, c3, d0, d1, d2, d3, rfl⟩ := state_cases l h
  exact ⟨[a0, a1, a2, a3], [b0, b1, b2, b3], [c0, c1, c2, c3], [d0, d1, d2, d3], rfl, rfl, rfl, rfl, rfl⟩

theorem length_mixCols (p q r s : Nat) (l : Bytes) (h : l.length = 16) : (mixCols p q r s l).length = 16 := by
  obtain ⟨a, b, c, d, rfl, ha, hb, hc, hd⟩ := split4 l h
  rw [mixCols_eq _ _ _ _ _ _ _ _ ha hb hc hd]
  simp [length_mixCol, ha, hb, hc, hd]

theorem mixCols_inv (l : Bytes) (h : l.length = 16) : mixCols 14 11 13 9 (mixCols 2 3 1 1 l) = l := by
  obtain ⟨a, b, c, d, rfl, ha, hb, hc, hd⟩ := split4 l h
  rw [mixCols_eq 2 3 1 1 _ _ _ _ ha hb hc hd,
    mixCols_eq _ _ _ _ _ _ _ _ (length_mixCol _ _ _ _ _ ha) (length_mixCol _ _ _ _ _ hb)
      (length_mixCol _ _ _ _ _ hc) (length_mixCol _ _ _ _ _ hd),
    mixCol_inv a ha, mixCol_inv b hb, mixCol_inv c hc, mixCol_inv d hd]

theorem map_invSub_sub (l : Bytes) : (l.map sub).map invSub = l := by
  induction l with
  | nil => rfl
  | cons a l ih => simp only [List.map_cons, ih, invSub_sub]

/-! ### The round keys -/

/-- Every element has length `n`. -/
def AllLen (n : Nat) (l : List Bytes) : Prop := ∀ b ∈ l, b.length = n

theorem length_expand (nk : Nat) : ∀ k i rc prev, (expand nk k i rc prev).length = k + prev.length := by
  intro k
  induction k with
  | zero => intro i rc prev; simp [expand]
  | succ k ih => intro i rc prev; simp only [expand]; rw [ih]; simp; omega

theorem getD_mem {l : List Bytes} {i : Nat} (h : i < l.length) : l.getD i [] ∈ l := by
  rw [List.getD_eq_getElem?_getD, List.getElem?_eq_getElem h]; simp

theorem allLen_expand (nk : Nat) (h0 : 0 < nk) : ∀ k i rc prev, nk ≤ prev.length → AllLen 4 prev →
    AllLen 4 (expand nk k i rc prev) := by
  intro k
  induction k with
  | zero => intro i rc prev _ h; simpa [expand] using h
  | succ k ih =>
    intro i rc prev hl h
    simp only [expand]
    apply ih
    · simp; omega
    · intro b hb
      simp only [List.mem_cons] at hb
      rcases hb with rfl | hb
      · have h1 : (prev.getD 0 []).length = 4 := h _ (getD_mem (by omega))
        have h2 : (prev.getD (nk - 1) []).length = 4 := h _ (getD_mem (by omega))
        generalize prev.getD 0 [] = t at h1 ⊢
        rw [length_xorB, h2]
        split
        · simp [length_xorB, h1]
        · split <;> simp [h1]
      · exact h _ hb

theorem chunks_spec {α : Type} (n : Nat) (hn : 0 < n) : ∀ k (l : List α), l.length = n * k →
    (chunks n k l).length = k ∧ (∀ c ∈ chunks n k l, c.length = n) ∧
      (∀ c ∈ chunks n k l, ∀ x ∈ c, x ∈ l) := by
  intro k
  induction k with
  | zero => intro l _; simp [chunks]
  | succ k ih =>
    intro l hl
    rw [Nat.mul_succ] at hl
    have : l ≠ [] := by intro e; subst e; rw [List.length_nil] at hl; omega
    have := ih (l.drop n) (by simp; omega)
    simp only [chunks]
    rw [if_neg (by simpa using ‹l ≠ []›)]
    refine ⟨by simp [this.1], ?_, ?_⟩
    · intro c hc
      simp only [List.mem_cons] at hc
      rcases hc with rfl | hc
      · simp; omega
      · exact this.2.1 c hc
    · intro c hc x hx
      simp only [List.mem_cons] at hc
      rcases hc with rfl | hc
      · exact List.mem_of_mem_take hx
      · exact List.mem_of_mem_drop (this.2.2 c hc x hx)

theorem flatten_len4 (l : List Bytes) (h : AllLen 4 l) : l.flatten.length = 4 * l.length := by
  induction l with
  | nil => rfl
  | cons a l ih =>
    have h1 := h a (by simp)
    have h2 := ih (fun b hb => h b (by simp [hb]))
    simp only [List.flatten_cons, List.length_append, List.length_cons, h1, h2]; omega

theorem roundKeys_spec (key : Bytes) (h : aesKeyOk key = true) :
    (roundKeys key).length = key.length / 4 + 7 ∧ AllLen 16 (roundKeys key) := by
  obtain ⟨nk, hk, hpos⟩ : ∃ nk, key.length = 4 * nk ∧ 0 < nk := by
    simp only [aesKeyOk, Bool.or_eq_true, beq_iff_eq] at h
    rcases h with (h | h) | h
    · exact ⟨4, by omega, by omega⟩
    · exact ⟨6, by omega, by omega⟩
    · exact ⟨8, by omega, by omega⟩
  have hd : key.length / 4 = nk := by omega
  have c0 := chunks_spec 4 (by omega) nk key hk
  simp only [roundKeys, hd]
  generalize hws : (expand nk (4 * (nk + 7) - nk) nk 1 (chunks 4 nk key).reverse).reverse = ws
  have wl : ws.length = 4 * (nk + 7) := by
    rw [← hws]; simp [length_expand, c0.1]; omega
  have wa : AllLen 4 ws := by
    rw [← hws]
    intro b hb
    rw [List.mem_reverse] at hb
    exact allLen_expand nk hpos _ _ _ _ (by simp [c0.1]) (by
      intro b hb; rw [List.mem_reverse] at hb; exact c0.2.1 b hb) b hb
  have c1 := chunks_spec 4 (by omega) (nk + 7) ws wl
  refine ⟨by simp [c1.1], ?_⟩
  intro b hb
  rw [List.mem_map] at hb
  obtain ⟨c, hc, rfl⟩ := hb
  rw [flatten_len4 c (fun x hx => wa x (c1.2.2 c hc x hx)), c1.2.1 c hc]

/-! ### AES -/

theorem length_encRound (st rk : Bytes) (hs : st.length = 16) (hr : rk.length = 16) : (encRound st rk).length = 16 := by
  simp only [encRound, length_xorB, hr]
  rw [length_mixCols _ _ _ _ _ (length_shiftRows _ (by simpa using hs))]
  rfl

theorem length_decRound (st rk : Bytes) (hs : st.length = 16) (hr : rk.length = 16) : (decRound st rk).length = 16 := by
  simp only [decRound, List.length_map]
  exact length_invShiftRows _ (length_mixCols _ _ _ _ _ (by simp [length_xorB, hs, hr]))

theorem decRound_encRound (st rk : Bytes) (hs : st.length = 16) (hr : rk.length = 16) :
    decRound (encRound st rk) rk = st := by
  have h1 : (st.map sub).length = 16 := by simpa using hs
  have h2 := length_shiftRows _ h1
  simp only [decRound, encRound]
  rw [xorB_xorB _ _ (by rw [length_mixCols _ _ _ _ _ h2, hr]; exact Nat.le_refl _), mixCols_inv _ h2,
    invShiftRows_shiftRows _ h1, map_invSub_sub]

theorem length_foldl_round (f : Bytes → Bytes → Bytes)
    (hf : ∀ st rk, st.length = 16 → rk.length = 16 → (f st rk).length = 16) :
    ∀ (rks : List Bytes) (st : Bytes), AllLen 16 rks → st.length = 16 → (rks.foldl f st).length = 16 := by
  intro rks
  induction rks with
  | nil => intro st _ h; exact h
  | cons r rks ih =>
    intro st ha h
    exact ih _ (fun b hb => ha b (by simp [hb])) (hf _ _ h (ha r (by simp)))

theorem fold_rounds : ∀ (rks : List Bytes) (st : Bytes), AllLen 16 rks → st.length = 16 →
    rks.reverse.foldl decRound (rks.foldl encRound st) = st := by
  intro rks
  induction rks with
  | nil => intro st _ _; rfl
  | cons r rks ih =>
    intro st ha h
    have hr := ha r (by simp)
    simp only [List.foldl_cons, List.reverse_cons, List.foldl_append, List.foldl_nil]
    rw [ih _ (fun b hb => ha b (by simp [hb])) (length_encRound _ _ h hr)]
    exact decRound_encRound _ _ h hr

theorem inner_allLen {rk : List Bytes} (h : AllLen 16 rk) (k : Nat) : AllLen 16 ((rk.drop 1).take k) :=
  fun b hb => h b (List.mem_of_mem_drop (List.mem_of_mem_take hb))

theorem length_aesEnc (key b : Bytes) (h : aesKeyOk key = true) (hb : b.length = 16) : (aesEnc key b).length = 16 := by
  obtain ⟨hl, ha⟩ := roundKeys_spec key h
  have k0 : ((roundKeys key).getD 0 []).length = 16 := ha _ (getD_mem (by omega))
  have kn : ((roundKeys key).getD (key.length / 4 + 6) []).length = 16 := ha _ (getD_mem (by omega))
  simp only [aesEnc, length_xorB, kn]
  rw [length_shiftRows]
  · rfl
  · rw [List.length_map]
    exact length_foldl_round _ length_encRound _ _ (inner_allLen ha _) (by simp only [length_xorB, hb, k0]; rfl)

theorem length_aesDec (key b : Bytes) (h : aesKeyOk key = true) (hb : b.length = 16) : (aesDec key b).length = 16 := by
  obtain ⟨hl, ha⟩ := roundKeys_spec key h
  have k0 : ((roundKeys key).getD 0 []).length = 16 := ha _ (getD_mem (by omega))
  have kn : ((roundKeys key).getD (key.length / 4 + 6) []).length = 16 := ha _ (getD_mem (by omega))
  simp only [aesDec, length_xorB, k0]
  rw [length_foldl_round _ length_decRound]
  · rfl
  · intro b hb
    rw [List.mem_reverse] at hb
    exact inner_allLen ha _ b hb
  · rw [List.length_map]
    exact length_invShiftRows _ (by simp only [length_xorB, hb, kn]; rfl)

theorem aesDec_aesEnc (key b : Bytes) (h : aesKeyOk key = true) (hb : b.length = 16) :
    aesDec key (aesEnc key b) = b := by
  obtain ⟨hl, ha⟩ := roundKeys_spec key h
  have k0 : ((roundKeys key).getD 0 []).length = 16 := ha _ (getD_mem (by omega))
  have kn : ((roundKeys key).getD (key.length / 4 + 6) []).length = 16 := ha _ (getD_mem (by omega))
  have h0 : (xorB b ((roundKeys key).getD 0 [])).length = 16 := by simp only [length_xorB, hb, k0]; rfl
  have hst := length_foldl_round _ length_encRound ((roundKeys key).drop 1 |>.take (key.length / 4 + 5)) _
    (inner_allLen ha _) h0
  simp only [aesDec, aesEnc]
  rw [xorB_xorB _ _ (by rw [length_shiftRows _ (by rw [List.length_map]; exact hst), kn]; exact Nat.le_refl _),
    invShiftRows_shiftRows _ (by rw [List.length_map]; exact hst), map_invSub_sub,
    fold_rounds _ _ (inner_allLen ha _) h0, xorB_xorB _ _ (by rw [hb, k0]; exact Nat.le_refl _)]

/-- MD5, SHA-256, AES and RC4 as defined in `Model/CryptoPrim.lean` satisfy what the theorems assume. -/
theorem goPrim_lawful : goPrim.Lawful where
  md5_len := length_md5
  sha_len := length_sha256
  enc_len := length_aesEnc
  dec_len := length_aesDec
  dec_enc := aesDec_aesEnc

end Pdfer.Crypto
