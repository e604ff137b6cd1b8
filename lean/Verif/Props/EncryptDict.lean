import Verif.Proofs.EncryptDict

/-! C160: what a conforming encryption dictionary states is what is read. -/

namespace Pdfer.Props

open Pdfer.Go
open Pdfer.Crypto (Prim Enc parseEncrypt unlock decryptPDF extractFileID Lines)
open Pdfer.Spec.EncryptDict

/-- The file: object `n` is the dictionary, and the trailer refers to it. -/
def fileWith (d : Stated) (n : Nat) (pre mid post : Bytes) : Bytes :=
  pre ++ (natDec n ++ b!" 0 obj\n" ++ isoDict d ++ b!"\nendobj\n") ++ mid ++ (b!"/Encrypt " ++ natDec n ++ b!" 0 R" ++ post)

/-- The rest of the file: nothing before the reference mentions /Encrypt, and object `n` is not mentioned earlier. -/
structure Around (n : Nat) (pre mid : Bytes) : Prop where
  num : n ≤ 9223372036854775807
  linesPre : Lines pre
  linesMid : Lines mid
  noPre : ¬ b!"/Encrypt" <:+: pre
  noMid : ¬ b!"/Encrypt" <:+: mid
  noObj : ¬ (natDec n ++ b!" 0 obj") <:+: pre

private theorem read_iso {d : Stated} (h : Fits d) {n : Nat} {pre mid : Bytes} (ha : Around n pre mid) (post : Bytes) :
    parseEncrypt (fileWith d n pre mid post) = some (Crypto.isoRead d) :=
  Crypto.parse_iso d h n ha.num pre mid post ha.linesPre ha.linesMid (Manipulate.noOcc_iff_infix.2 ha.noPre)
    (Manipulate.noOcc_iff_infix.2 ha.noMid) (Manipulate.noOcc_iff_infix.2 ha.noObj)

/-- C160: version, revision, key length and the 32-bit word of the permissions are read as stated, if /P is written as
a signed number; /O and /U are read as stated exactly if they contain no parenthesis and no backslash.  Missing for the
full claim: permissions written as an unsigned number, and strings with an escaped byte
(`C160_word_violated`, `C160_string_violated`); dictionaries of other layouts; the literals of /O and /U must not
contain the texts the reader looks for. -/
theorem C160_read_partial (d : Stated) (h : Fits d) (n : Nat) (pre mid post : Bytes) (ha : Around n pre mid) :
    ∃ e, parseEncrypt (fileWith d n pre mid post) = some e ∧
      e.v = d.v ∧ e.r = d.r ∧ e.keyLength = d.bits / 8 ∧ e.encryptMetadata = true ∧
      (-2147483648 ≤ d.p → d.p ≤ 2147483647 → e.p = d.p) ∧
      (e.o = d.o ↔ ∀ c ∈ d.o, ¬ Special c) ∧ (e.u = d.u ↔ ∀ c ∈ d.u, ¬ Special c) := by
  refine ⟨_, read_iso h ha post, rfl, rfl, rfl, rfl, ?_, Crypto.until_iff d.o, Crypto.until_iff d.u⟩
  intro h1 h2
  simp only [Crypto.isoRead, Crypto.clamp32]
  omega

/-- The full claim of C160 fails for every permission word with its highest bit set that is written as an unsigned
number: the word read is another one. -/
theorem C160_word_violated (d : Stated) (h : Fits d) (n : Nat) (pre mid post : Bytes) (ha : Around n pre mid)
    (h1 : 2147483648 ≤ d.p) (h2 : d.p < 4294967296) :
    ∃ e, parseEncrypt (fileWith d n pre mid post) = some e ∧ e.p = 2147483647 ∧ word e.p ≠ word d.p := by
  refine ⟨_, read_iso h ha post, ?_, ?_⟩
  · simp only [Crypto.isoRead, Crypto.clamp32]
    omega
  · simp only [Crypto.isoRead, Crypto.clamp32, word]
    omega

/-- The full claim of C160 fails for every /O or /U with a byte that must be escaped: another string is read. -/
theorem C160_string_violated (d : Stated) (h : Fits d) (n : Nat) (pre mid post : Bytes) (ha : Around n pre mid)
    (c : UInt8) (hc : Special c) :
    ∃ e, parseEncrypt (fileWith d n pre mid post) = some e ∧ (c ∈ d.o → e.o ≠ d.o) ∧ (c ∈ d.u → e.u ≠ d.u) := by
  refine ⟨_, read_iso h ha post, ?_, ?_⟩
  · intro hm e; exact (Crypto.until_iff d.o).1 e c hm hc
  · intro hm e; exact (Crypto.until_iff d.u).1 e c hm hc

private theorem until_append (a s : Bytes) : (Crypto.untilParen (a ++ 41 :: s)).length ≤ a.length := by
  induction a with
  | nil => simp [Crypto.untilParen]
  | cons c a ih =>
    by_cases hc : c = 41
    · subst hc; simp [Crypto.untilParen]
    · have hc' : (c != 41) = true := by simpa using hc
      simp only [Crypto.untilParen, List.cons_append, List.takeWhile, hc', List.length_cons] at ih ⊢
      omega

private theorem short_refused (P : Prim) (e : Enc) (hr : e.r ≤ 4) (hu : e.u.length < 16) (fid pw : Bytes) (e' : Enc) :
    unlock P e fid pw ≠ .ok e' := by
  have hm : ∀ x, Crypto.uMatches e.u x = false := by
    intro x
    simp only [Crypto.uMatches]
    have : ¬ e.u.length ≥ 16 := by omega
    simp [this]
  intro h
  rw [unlock, if_neg (by omega), Crypto.unlockV4] at h
  cases h0 : Crypto.deriveKeyV4 P pw e fid with
  | err => rw [h0] at h; cases h
  | panic => rw [h0] at h; cases h
  | ok q =>
    rw [h0] at h
    simp only [Res.bind] at h
    cases h1 : Crypto.computeU P q.1 e fid with
    | err => rw [h1] at h; cases h
    | panic => rw [h1] at h; cases h
    | ok uv =>
      rw [h1] at h
      simp only [hm, Bool.false_eq_true, if_false] at h
      cases h2 : Crypto.deriveOwnerV4 P pw e fid with
      | err => rw [h2] at h; cases h
      | panic => rw [h2] at h; cases h
      | ok q2 =>
        rw [h2] at h
        simp only at h
        cases h3 : Crypto.computeU P q2.1 e fid with
        | err => rw [h3] at h; cases h
        | panic => rw [h3] at h; cases h
        | ok uv2 => rw [h3] at h; simp only at h; cases h

/-- What follows from it: a file whose /U holds a closing parenthesis early (within the first 15 bytes of the literal)
cannot be opened with any password, whatever the password is and whatever the cryptographic primitives compute. -/
theorem C160_refused (d : Stated) (h : Fits d) (n : Nat) (pre mid post : Bytes) (ha : Around n pre mid)
    (a b : Bytes) (hu : d.u = a ++ 41 :: b) (hl : (litEsc a).length < 15) (P : Prim) (pw : Bytes) (e : Enc) :
    decryptPDF P (fileWith d n pre mid post) pw ≠ .ok e := by
  unfold decryptPDF
  rw [read_iso h ha post]
  refine short_refused P _ h.r.2 ?_ _ pw e
  have happ : ∀ x y : Bytes, litEsc (x ++ y) = litEsc x ++ litEsc y := by
    intro x y
    induction x with
    | nil => rfl
    | cons c x ih =>
      rw [List.cons_append, litEsc, litEsc, ih]
      split <;> rfl
  have : litEsc d.u = (litEsc a ++ [92]) ++ 41 :: litEsc b := by
    rw [hu, happ, litEsc, if_pos (by decide)]
    simp
  show (Crypto.untilParen (litEsc d.u)).length < 16
  rw [this]
  have := until_append (litEsc a ++ [92]) (litEsc b)
  simp only [List.length_append, List.length_cons, List.length_nil] at this
  omega

/-- C160, the identifier of the file, which enters the key: written as a literal string, it is read as stated exactly
if it contains no parenthesis and no backslash. -/
theorem C160_id (pre id post : Bytes) (h1 : Lines pre) (h2 : ¬ b!"/ID" <:+: pre)
    (h3 : ¬ b!"/ID" <:+: (b!"ID[(" ++ (litEsc id ++ b!")" ++ post))) :
    extractFileID (pre ++ (b!"/ID[(" ++ (litEsc id ++ b!")" ++ post))) = id ↔ ∀ c ∈ id, ¬ Special c := by
  have e : litEsc id ++ b!")" ++ post = litEsc id ++ 41 :: post := by simp
  rw [e] at h3 ⊢
  rw [Crypto.fileID_lit pre (litEsc id) post
    (Crypto.avoid_lines h1 (Manipulate.noOcc_iff_infix.2 h2) (by decide)) (Manipulate.noOcc_iff_infix.2 h3)]
  exact Crypto.until_iff id

/-- A dictionary of revision 3 with binary /O and /U. -/
def exStated (u : Bytes) (p : Int) : Stated :=
  { v := 2, r := 3, bits := 128, p := p, o := [1, 250, 60, 47, 10, 200], u := u }

theorem exStated_fits : Fits (exStated [3, 200, 41, 7] (-44)) :=
  ⟨by decide, by decide, by decide, by decide +kernel, by decide +kernel, by decide +kernel⟩

theorem exStated_fits2 : Fits (exStated [3, 200, 40, 7] 4294967252) :=
  ⟨by decide, by decide, by decide, by decide +kernel, by decide +kernel, by decide +kernel⟩

theorem exAround : Around 7 b!"%PDF-1.7\n" b!"trailer\n<<\n" :=
  ⟨by decide, .inr ⟨b!"%PDF-1.7", rfl⟩, .inr ⟨b!"trailer\n<<", rfl⟩, by decide +kernel, by decide +kernel, by decide +kernel⟩

example : ∃ e, parseEncrypt (fileWith (exStated [3, 200, 41, 7] (-44)) 7 b!"%PDF-1.7\n" b!"trailer\n<<\n" b!"\n>>") = some e ∧
    e.keyLength = 16 ∧ e.p = -44 ∧ e.o = [1, 250, 60, 47, 10, 200] ∧ e.u ≠ [3, 200, 41, 7] := by
  obtain ⟨e, h0, _, _, h3, _, h5, h6, h7⟩ := C160_read_partial _ exStated_fits 7 b!"%PDF-1.7\n" b!"trailer\n<<\n" b!"\n>>" exAround
  refine ⟨e, h0, h3, h5 (by decide) (by decide), h6.2 (by decide), ?_⟩
  intro he
  exact h7.1 he 41 (by simp [exStated]) (by decide)

example : ∃ e, parseEncrypt (fileWith (exStated [3, 200, 40, 7] 4294967252) 7 b!"%PDF-1.7\n" b!"trailer\n<<\n" b!"\n>>") = some e ∧
    e.p = 2147483647 := by
  obtain ⟨e, h0, h1, _⟩ := C160_word_violated _ exStated_fits2 7 b!"%PDF-1.7\n" b!"trailer\n<<\n" b!"\n>>" exAround
    (by decide) (by decide)
  exact ⟨e, h0, h1⟩

example (P : Prim) (pw : Bytes) (e : Enc) :
    decryptPDF P (fileWith (exStated [3, 200, 41, 7] (-44)) 7 b!"%PDF-1.7\n" b!"trailer\n<<\n" b!"\n>>") pw ≠ .ok e :=
  C160_refused _ exStated_fits 7 _ _ _ exAround [3, 200] [7] rfl (by decide) P pw e

example : extractFileID (b!"%PDF-1.7\n" ++ (b!"/ID[(" ++ (litEsc [1, 92, 3] ++ b!")" ++ b!"(b)]"))) ≠ [1, 92, 3] := by
  rw [ne_eq, C160_id b!"%PDF-1.7\n" [1, 92, 3] b!"(b)]" (.inr ⟨b!"%PDF-1.7", rfl⟩) (by decide +kernel) (by decide +kernel)]
  decide

end Pdfer.Props
