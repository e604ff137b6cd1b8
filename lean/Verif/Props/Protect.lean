import Verif.Proofs.Protect
import Verif.Props.Encrypted
import Verif.Proofs.CryptoWitness

/-! C161: a document protected by passwords opens with them.  C162: what it shows without them. -/

namespace Pdfer.Props

open Pdfer.Go Pdfer.Spec Pdfer.Spec.Protect Pdfer.Crypto Pdfer.Incremental
open Pdfer.Protect (setupPasswords withPassword)
open Pdfer.Writer (Writer)

variable {P : Prim}

/-- The history of the writer: the calls before, `SetupEncryptionWithPasswords`, the calls after. -/
def protectedWriter (P : Prim) (wenv : Writer.Env) (g : Random) (newID : Bytes) (userPw ownerPw : Bytes) (perm : Int) (em : Bool)
    (before after : List Writer.Op) : Writer :=
  after.foldl (fun w op => (Writer.step wenv w op).1) (setupPasswords P g newID (Writer.run wenv before) userPw ownerPw perm em).writer

/-- The same history as a list of elementary calls. -/
def protectCalls (P : Prim) (wenv : Writer.Env) (g : Random) (newID : Bytes) (userPw ownerPw : Bytes) (perm : Int) (em : Bool)
    (before after : List Writer.Op) : List Writer.Op :=
  before ++ [.addObject (some (encryptDict (setupPasswords P g newID (Writer.run wenv before) userPw ownerPw perm em).record)),
    .setEncryptRef (Writer.run wenv before).nextObjNum,
    .setEncryption (if (Writer.run wenv before).fileID.length = 0 then newID else (Writer.run wenv before).fileID)] ++ after

theorem protect_run (P : Prim) (wenv : Writer.Env) (g : Random) (newID : Bytes) (userPw ownerPw : Bytes) (perm : Int) (em : Bool)
    (before after : List Writer.Op) :
    Writer.run wenv (protectCalls P wenv g newID userPw ownerPw perm em before after) =
      protectedWriter P wenv g newID userPw ownerPw perm em before after := by
  simp only [protectCalls, protectedWriter, Writer.run, List.foldl_append, List.foldl_cons, List.foldl_nil]
  rfl

/-- C161: whatever was stored before and after `SetupEncryptionWithPasswords`, the written file opens with the user
password and with the owner password, and every stream comes back with its plain data and the dictionary stored with it, /Length being the plain length.
Partial: table mode and the reader's windows (`BaseFits`), calls that leave the encryption alone, dictionaries passed as
literals, a file in which nothing else looks like the encryption entries (`Marks`), streams that can be taken out of
their object; for the owner password the check value must not be that of the user password (cf. C32). -/
theorem C161_roundtrip_partial (h : P.Lawful) (g : Random) (hg : g.Ok) (newID : Bytes) (hid : newID.length = 16) (userPw ownerPw : Bytes)
    (perm : Int) (hp : -2147483648 ≤ perm ∧ perm ≤ 2147483647) (em : Bool) (wenv : Writer.Env) (before after : List Writer.Op)
    (s : Protect.Setup) (hs : s = setupPasswords P g newID (Writer.run wenv before) userPw ownerPw perm em)
    (ivs : Int → Bytes) (hiv : ∀ n, (ivs n).length = 16) (hcr : wenv.crypt = some (Protect.crypt P s.record ivs))
    (hwrite : .write ∉ before) (hfresh : ∀ op ∈ before ++ after, Writer.FreshDict op) (hafter : ∀ op ∈ after, LeavesEncryption s.num op)
    (w : Writer) (hw : w = after.foldl (fun w op => (Writer.step wenv w op).1) s.writer)
    (hbase : BaseFits wenv (protectCalls P wenv g newID userPw ownerPw perm em before after))
    (hmark : Marks (Writer.write wenv w).1 s.num em) (pw : Bytes)
    (hpw : pw = userPw ∨ (pw = ownerPw ∧ hashedV5 P (deriveKeyV5 P userPw s.writer.fileID) (userPw ++ g.userSalt) ≠
      hashedV5 P (deriveKeyV5 P ownerPw s.writer.fileID) (ownerPw ++ g.userSalt)))
    (env : Incremental.Env) (henv : env.handleEncryption = withPassword P pw) :
    ∃ pdf, openPdf env (Writer.write wenv w).1 = .ok pdf ∧
      ∀ n o data, 1 ≤ n → w.objects.get n = some o → o.stream = some data →
        ∃ c, encryptStream P s.record (ivs n) n 0 data = .ok c ∧
          (Separable (Writer.formatDictionary ((storedDict w o).set b!"Length" (.int c.length))) c →
            Incremental.getObject env pdf n = .ok (itoa n ++ b!" 0 obj\n" ++
              Writer.formatDictionary ((storedDict w o).set b!"Length" (.int data.length)) ++
              b!"\nstream\n" ++ data ++ b!"\nendstream" ++ b!"\nendobj")) := by
  have hrun := protect_run P wenv g newID userPw ownerPw perm em before after
  have hwr : Writer.run wenv (protectCalls P wenv g newID userPw ownerPw perm em before after) = w := by
    rw [hrun, hw, hs]; rfl
  have hpos := (Writer.inv_run wenv before).next_pos
  obtain ⟨N, hN⟩ : ∃ N : Nat, (Writer.run wenv before).nextObjNum = (N : Int) := ⟨_, (Int.toNat_of_nonneg (by omega)).symm⟩
  have hsn : s.num = (N : Int) := by rw [hs, ← hN]; rfl
  have hsfid : s.writer.fileID ≠ [] := by
    rw [hs]
    simp only [setupPasswords]
    split
    · intro e; rw [e] at hid; simp at hid
    · rename_i hne; intro e; exact hne (by rw [e]; rfl)
  have hrec : s.record = setupAES256 P g userPw ownerPw s.writer.fileID perm em := by rw [hs]; rfl
  have hplain : s.writer.useObjectStream = false := by
    rw [hs]
    show (Writer.run wenv before).useObjectStream = false
    have hb : ∀ op ∈ before, Writer.FreshDict op := fun op ho => hfresh op (by simp [ho])
    clear * - hb hwrite
    induction before using Pdfer.snoc_induction with
    | nil => rfl
    | snoc l op ih =>
      have h1 := ih (fun hm => hwrite (by simp [hm])) (fun o ho => hb o (by simp [ho]))
      have h2 := hb op (by simp)
      have h3 : op ≠ .write := fun e => hwrite (by simp [e])
      rw [Writer.run_append]
      cases op with
      | useObjectStream on => exact h2
      | write => exact absurd rfl h3
      | _ => exact h1
  have hnext : s.num < s.writer.nextObjNum := by
    rw [hs]
    simp only [setupPasswords, Writer.addObject]
    omega
  have hkeep := Protect.leaves_run wenv s.num after hafter s.writer hnext hplain
  rw [← hw] at hkeep
  have hobj : w.objects.get s.num = some ⟨some (encryptDict s.record), none, none⟩ := by
    rw [hkeep.1, hs]
    simp only [setupPasswords, Writer.addObject]
    rw [Map.get_set_eq]
  have href : w.encryptRef = Writer.ref s.num := by rw [hkeep.2.1, hs]; rfl
  have hwx : w.useXRefStream = false := by have := hbase.table; rwa [hwr] at this
  have hwo : w.useObjectStream = false := by have := hbase.plain; rwa [hwr] at this
  obtain ⟨pre, mid, p, hl, hm, hfile⟩ := Protect.file_shape wenv hbase.fair w hwx hwo s.num _ hobj href
  have hNle : N ≤ 9223372036854775807 := by
    have h1 := hbase.next
    have h2 := Writer.next_mono_foldl wenv s.writer after
    rw [hwr] at h1
    rw [← hw] at h2
    rw [hsn] at hnext
    omega
  rw [hkeep.2.2, hrec, hsn] at hfile
  rw [hsn] at hmark
  have hdec := Protect.marks_open P h g hg userPw ownerPw s.writer.fileID perm em hp N hNle pre mid pw p hl hm hsfid _ hfile hmark
  have hunlock : ∃ e', unlock P (setupAES256 P g userPw ownerPw s.writer.fileID perm em) s.writer.fileID pw = .ok e' ∧ e'.encryptKey = g.key := by
    rcases hpw with rfl | ⟨rfl, hne⟩
    · obtain ⟨e', a, b, _⟩ := unlock_user h g hg pw ownerPw s.writer.fileID perm em
      exact ⟨e', a, b⟩
    · exact unlock_owner h g hg userPw pw s.writer.fileID perm em (.inr hne)
  obtain ⟨e', hu, hk⟩ := hunlock
  have hfields := Protect.unlock_fields P _ e' _ pw (by simp [setupAES256]) hu
  rw [hu] at hdec
  have hkl : g.key.length = 32 := hg.key
  have hsame : decrypter P e' = decrypter P s.record := by
    rw [hrec]
    exact Protect.decrypter_same P _ e' hfields.1 hfields.2 hk (by show 5 ≤ g.key.length; omega) (by show 32 ≤ g.key.length; omega)
  have hopenEnc : env.handleEncryption (Writer.write wenv w).1 = some (some (decrypter P s.record)) := by
    rw [henv, ← hsame]
    unfold decryptPDF at hdec
    unfold withPassword Crypto.handleEncryption
    cases hpe : parseEncrypt (Writer.write wenv w).1 with
    | none => rw [hpe] at hdec; cases hdec
    | some e0 =>
      rw [hpe] at hdec
      simp only [Res.ofOption, Res.bind] at hdec
      simp only [hdec, Res.bind]
      rfl
  have hfresh' : ∀ op ∈ protectCalls P wenv g newID userPw ownerPw perm em before after, Writer.FreshDict op := by
    intro op ho
    simp only [protectCalls, List.mem_append, List.mem_cons, List.not_mem_nil, or_false] at ho
    rcases ho with (ho | rfl | rfl | rfl) | ho
    · exact hfresh op (by simp [ho])
    · trivial
    · trivial
    · trivial
    · exact hfresh op (by simp [ho])
  have hv : s.record.v = 4 ∨ s.record.v = 5 := by rw [hrec]; exact .inr rfl
  have hkey : s.record.encryptKey ≠ [] := by
    rw [hrec]; intro e; have : g.key = [] := e; rw [this] at hkl; simp at hkl
  have hlo : 11 ≤ s.record.keyLength := by rw [hrec]; show 11 ≤ 32; omega
  have hhi : s.record.keyLength ≤ (s.record.encryptKey ++ s.record.keyTail).length := by
    rw [hrec]; show 32 ≤ (g.key ++ []).length; simp [hkl]
  have := C34_encrypted_file_partial h s.record hv hkey hlo hhi ivs hiv wenv hcr _ hfresh' hbase env (by
    show env.handleEncryption (Writer.write wenv (Writer.run wenv _)).1 = _
    rw [hwr]; exact hopenEnc)
  rw [hwr] at this
  exact this

/-! A concrete case. -/

def proID : Bytes := b!"0123456789abcdef"
def proU : Bytes :=
  [1, 1, 1, 1, 1, 1, 1, 1, 204, 97, 64, 158, 194, 212, 138, 59, 220, 20, 24, 250, 134, 217, 171, 214, 91, 89, 245, 226, 129, 191,
   255, 211, 4, 92, 19, 233, 29, 91, 53, 93, 2, 2, 2, 2, 2, 2, 2, 2]
def proO : Bytes :=
  [3, 3, 3, 3, 3, 3, 3, 3, 202, 172, 184, 139, 174, 26, 47, 56, 7, 253, 20, 200, 190, 243, 61, 252, 131, 113, 64, 59, 31, 104, 188,
   138, 83, 215, 134, 107, 88, 12, 46, 234, 4, 4, 4, 4, 4, 4, 4, 4]
def proUE : Bytes :=
  [83, 212, 91, 227, 109, 246, 156, 193, 104, 216, 106, 144, 16, 14, 249, 82, 18, 19, 205, 154, 117, 77, 57, 53, 178, 27, 210, 223,
   6, 223, 68, 73, 190, 34, 1, 61, 86, 80, 247, 0, 72, 69, 93, 141, 185, 124, 156, 38]
def proOE : Bytes :=
  [84, 236, 28, 167, 238, 133, 87, 107, 28, 156, 205, 190, 102, 91, 182, 66, 219, 147, 102, 165, 120, 119, 142, 40, 118, 140, 233,
   116, 5, 223, 250, 143, 92, 176, 58, 99, 57, 11, 89, 89, 140, 86, 248, 174, 5, 36, 213, 119]

/-- The record of the encryption, written out. -/
def proRecord : Enc :=
  { v := 5, r := 5, keyLength := 32, p := -4, encryptMetadata := false, u := proU, o := proO, ue := proUE, oe := proOE,
    encryptKey := witRandom.key, keyTail := [] }

def proUK : Bytes := 
  [163, 168, 217, 131, 135, 148, 80, 200, 115, 105, 66, 167, 51, 244, 146, 41, 107, 61, 51, 21, 69, 69, 132, 37, 204, 218,
  24, 230, 212, 160, 151, 6]
def proOK : Bytes := 
  [214, 145, 97, 143, 88, 37, 38, 122, 79, 208, 201, 52, 11, 3, 196, 228, 56, 159, 35, 140, 100, 151, 46, 118, 241, 13,
  96, 179, 25, 14, 26, 19]
theorem proUK_eq : deriveKeyV5 goPrim b!"user" proID = proUK := by decide +kernel
theorem proOK_eq : deriveKeyV5 goPrim b!"owner" proID = proOK := by decide +kernel
theorem proU_eq : witRandom.userSalt ++ hashedV5 goPrim proUK (b!"user" ++ witRandom.userSalt) ++ witRandom.userKeySalt = proU := by decide +kernel
theorem proO_eq : witRandom.ownerSalt ++ hashedV5 goPrim proOK (b!"owner" ++ witRandom.ownerSalt ++ proU) ++ witRandom.ownerKeySalt = proO := by
  decide +kernel
theorem proUE_eq : wrapKeyV5 goPrim witRandom.key proUK = proUE := by decide +kernel
theorem proOE_eq : wrapKeyV5 goPrim witRandom.key proOK = proOE := by decide +kernel

theorem proRecord_eq : setupAES256 goPrim witRandom b!"user" b!"owner" proID (-4) false = proRecord := by
  simp only [setupAES256, proUK_eq, proOK_eq, proU_eq, proO_eq, proUE_eq, proOE_eq]
  rfl

/-- The cipher text of "q Q". -/
def proCipher : Bytes :=
  [3, 3, 3, 3, 3, 3, 3, 3, 3, 3, 3, 3, 3, 3, 3, 3, 67, 83, 221, 76, 55, 42, 199, 180, 122, 10, 81, 26, 101, 10, 124, 53]

def proIvs : Int → Bytes := fun _ => List.replicate 16 3
def proEnv : Writer.Env := { plainEnv with crypt := some (Protect.crypt goPrim proRecord proIvs) }
def proOps : List Writer.Op := [.addObject (some b!"<</Type/Catalog>>"), .addStream (.fresh []) (some b!"q Q") false, .setRoot 1]

/-- The file written. -/
def proFile : Bytes :=
  b!"%PDF-1.7\n" ++ [37, 226, 227, 207, 211, 10] ++ b!"1 0 obj\n<</Type/Catalog>>\nendobj\n2 0 obj\n<</Length 32 >>\nstream\n" ++
  [3, 3, 3, 3, 3, 3, 3, 3, 3, 3, 3, 3, 3, 3, 3, 3, 67, 83, 221, 76, 55, 42, 199, 180, 122, 10, 81, 26, 101, 10, 124, 53] ++
  b!"\nendstream\nendobj\n3 0 obj\n<<\n/Filter /Standard\n/V 5\n/R 5\n/Length 256\n/P -4\n" ++
  b!"/U <0101010101010101CC61409EC2D48A3BDC1418FA86D9ABD65B59F5E281BFFFD3045C13E91D5B355D0202020202020202>\n" ++
  b!"/O <0303030303030303CAACB88BAE1A2F3807FD14C8BEF33DFC8371403B1F68BC8A53D7866B580C2EEA0404040404040404>\n" ++
  b!"/UE <53D45BE36DF69CC168D86A90100EF9521213CD9A754D3935B21BD2DF06DF4449BE22013D5650F70048455D8DB97C9C26>\n" ++
  b!"/OE <54EC1CA7EE85576B1C9CCDBE665BB642DB9366A578778E28768CE97405DFFA8F5CB03A63390B59598C56F8AE0524D577>\n" ++
  b!"/EncryptMetadata false\n>>\nendobj\nxref\n0 4\n0000000000 65535 f \n0000000015 00000 n \n0000000048 00000 n \n" ++
  b!"0000000129 00000 n \ntrailer\n<<\n/Size 4\n/Root 1 0 R\n/Encrypt 3 0 R\n" ++
  b!"/ID [<30313233343536373839616263646566><30313233343536373839616263646566>]\n>>\nstartxref\n629\n%%EOF\n"

theorem proSetup : setupPasswords goPrim witRandom proID (Writer.run proEnv proOps) b!"user" b!"owner" (-4) false =
    ⟨{ (Writer.addObject (Writer.run proEnv proOps) (some (encryptDict proRecord))).1 with encryptRef := b!"3 0 R", fileID := proID }, 3, proRecord⟩ := by
  have h0 : (Writer.run proEnv proOps).fileID.length = 0 := by decide +kernel
  simp only [setupPasswords, if_pos h0, proRecord_eq]
  rfl

/-- The writer after `SetupEncryptionWithPasswords`. -/
def proWriter : Writer :=
  { (Writer.addObject (Writer.run proEnv proOps) (some (encryptDict proRecord))).1 with encryptRef := b!"3 0 R", fileID := proID }

theorem proWriter_eq : protectedWriter goPrim proEnv witRandom proID b!"user" b!"owner" (-4) false proOps [] = proWriter := by
  simp only [protectedWriter, proSetup, List.foldl_nil]
  rfl

theorem proFile_written : (Writer.write proEnv proWriter).1 = proFile := by decide +kernel

theorem proRun : Writer.run proEnv (protectCalls goPrim proEnv witRandom proID b!"user" b!"owner" (-4) false proOps []) = proWriter := by
  rw [protect_run, proWriter_eq]

theorem proWritten : (written proEnv (protectCalls goPrim proEnv witRandom proID b!"user" b!"owner" (-4) false proOps [])).bytes = proFile := by
  simp only [written, proRun]
  exact proFile_written

theorem occursOnly (file k : Bytes) (hk : k ≠ []) (p : Nat → Prop)
    (key : ∀ i, i < file.length → k.isPrefixOf (file.drop i) = true → p i) : ∀ i, OccursAt k file i → p i := by
  intro i hi
  rw [occursAt_iff hk] at hi
  refine key i ?_ (List.isPrefixOf_iff_prefix.2 hi)
  apply Classical.byContradiction; intro hn
  rw [List.drop_of_length_le (by omega)] at hi
  exact hk (List.prefix_nil.1 hi)

theorem proFits : BaseFits proEnv (protectCalls goPrim proEnv witRandom proID b!"user" b!"owner" (-4) false proOps []) where
  fair := plainEnv_fair
  table := by rw [proRun]; rfl
  plain := by rw [proRun]; rfl
  size := by rw [proWritten]; decide +kernel
  next := by rw [proRun]; decide +kernel
  once := by
    rw [proWritten]
    have all := occursOnly proFile b!"startxref" (by decide) (· = 842) (by decide +kernel)
    intro i j _ _ hi hj
    rw [all i hi, all j hj]
  window := by rw [proRun]; decide +kernel

theorem onceAt (file k : Bytes) (hk : k ≠ []) (p : Nat)
    (key : ∀ i, i < file.length → k.isPrefixOf (file.drop i) = true → i = p) : Once k file := fun i j hi hj =>
  (occursOnly file k hk (· = p) key i hi).trans (occursOnly file k hk (· = p) key j hj).symm

theorem occursThere (file k : Bytes) (hk : k ≠ []) (p : Nat) (h : k.isPrefixOf (file.drop p) = true) : OccursAt k file p := by
  rw [occursAt_iff hk]; exact List.isPrefixOf_iff_prefix.1 h

theorem proHead : Once b!"3 0 obj" proFile := onceAt proFile _ (by decide) 129 (by decide +kernel)
theorem proIDOnce : Once b!"/ID" proFile := onceAt proFile _ (by decide) 764 (by decide +kernel)
theorem proEntry : Once b!"/Encrypt 3 0 R" proFile := onceAt proFile _ (by decide) 749 (by decide +kernel)
theorem proMetadata : Once b!"/EncryptMetadata false" proFile := onceAt proFile _ (by decide) 596 (by decide +kernel)
theorem proOthers : ∀ i, OccursAt b!"/Encrypt" proFile i → i = 749 ∨ i = 596 :=
  occursOnly proFile b!"/Encrypt" (by decide) (fun i => i = 749 ∨ i = 596) (by decide +kernel)
theorem proEntryAt : OccursAt b!"/Encrypt 3 0 R" proFile 749 := occursThere proFile _ (by decide) 749 (by decide +kernel)
theorem proMetadataAt : OccursAt b!"/EncryptMetadata false" proFile 596 := occursThere proFile _ (by decide) 596 (by decide +kernel)

theorem proMarks : Marks proFile 3 false := by
  have h1 : itoa 3 ++ b!" 0 obj" = b!"3 0 obj" := by decide +kernel
  have h2 : b!"/Encrypt " ++ Writer.ref 3 = b!"/Encrypt 3 0 R" := by decide +kernel
  refine ⟨h1 ▸ proHead, proIDOnce, h2 ▸ proEntry, proMetadata, ?_⟩
  intro i hi
  rw [h2]
  rcases proOthers i hi with h | h
  · rw [h]; exact .inl proEntryAt
  · rw [h]; exact .inr ⟨rfl, proMetadataAt⟩

/-- All assumptions of C161 hold for this file, for both passwords. -/
example (pw : Bytes) (hpw : pw = b!"user" ∨ pw = b!"owner") (env : Incremental.Env) (henv : env.handleEncryption = withPassword goPrim pw) :
    ∃ pdf, openPdf env proFile = .ok pdf ∧
      Incremental.getObject env pdf 2 = .ok b!"2 0 obj\n<</Length 3 >>\nstream\nq Q\nendstream\nendobj" := by
  have hfid : (setupPasswords goPrim witRandom proID (Writer.run proEnv proOps) b!"user" b!"owner" (-4) false).writer.fileID = proID := by
    rw [proSetup]
  have hmark := proMarks
  rw [← proFile_written, ← proWriter_eq] at hmark
  obtain ⟨pdf, h1, h2⟩ := C161_roundtrip_partial C31_primitives witRandom witRandom_ok proID rfl b!"user" b!"owner" (-4) (by decide) false
    proEnv proOps [] _ rfl proIvs (fun _ => rfl) (by rw [proSetup]; rfl) (by simp [proOps])
    (by
      intro op h
      simp only [proOps, List.append_nil, List.mem_cons, List.not_mem_nil, or_false] at h
      rcases h with rfl | rfl | rfl
      · trivial
      · exact ⟨_, rfl, by decide, by decide⟩
      · trivial) (by simp) _ rfl proFits (by rw [proSetup]; rw [proWriter_eq] at hmark; exact hmark) pw
    (by
      rcases hpw with rfl | rfl
      · exact .inl rfl
      · refine .inr ⟨rfl, ?_⟩
        rw [hfid, proUK_eq, proOK_eq]
        decide +kernel) env henv
  simp only [List.foldl_nil, proSetup] at h1 h2
  refine ⟨pdf, ?_, ?_⟩
  · rw [← proFile_written]; exact h1
  · obtain ⟨c, h3, h5⟩ := h2 2 ⟨none, some b!"q Q", some 0⟩ b!"q Q" (by decide) rfl rfl
    have hc : encryptStream goPrim proRecord (proIvs 2) 2 0 b!"q Q" = .ok proCipher := by decide +kernel
    rw [hc] at h3
    simp only [Res.ok.injEq] at h3
    subst h3
    exact h5 ⟨by
      have all := occursOnly b!"<</Length 32 >>" b!"/Length" (by decide) (· = 2) (by decide +kernel)
      intro i j hi hj
      rw [all i hi, all j hj], (absent_iff (by decide)).2 (noOcc_iff_index.2 (by decide +kernel)), (absent_iff (by decide)).2 (noOcc_iff_index.2 (by decide +kernel)), (absent_iff (by decide)).2 (noOcc_iff_index.2 (by decide +kernel))⟩

end Pdfer.Props
