import Verif.Model.Protect
import Verif.Spec.Protect
import Verif.Proofs.CryptoFile
import Verif.Proofs.XFASalvage

/-! A document protected by passwords, written. -/

namespace Pdfer.Protect

open Pdfer.Go Pdfer.Crypto Pdfer.Spec Pdfer.Spec.Protect Pdfer.Incremental
open Pdfer.Writer (Writer)

/-! ### The calls that follow -/

theorem plain_step (env : Writer.Env) (w : Writer) (op : Writer.Op) (n : Int) (h : LeavesEncryption n op) (hp : w.useObjectStream = false) :
    (Writer.step env w op).1.useObjectStream = false := by
  cases op with
  | useObjectStream on => exact h
  | write =>
    show (Writer.write env w).2.useObjectStream = false
    unfold Writer.write
    rw [Writer.create_off env w hp]
    simp only
    split <;> exact hp
  | _ => exact hp

theorem leaves_step (env : Writer.Env) (w : Writer) (n : Int) (op : Writer.Op) (h : LeavesEncryption n op) (hn : n < w.nextObjNum)
    (hp : w.useObjectStream = false) :
    (Writer.step env w op).1.objects.get n = w.objects.get n ∧ (Writer.step env w op).1.encryptRef = w.encryptRef ∧
      (Writer.step env w op).1.fileID = w.fileID := by
  cases op with
  | addObject c =>
    simp only [Writer.step, Writer.addObject]
    exact ⟨by rw [Map.get_set, if_neg (by omega)], trivial, trivial⟩
  | addStream d data compress =>
    simp only [Writer.step, Writer.addStreamObject]
    exact ⟨by rw [Map.get_set, if_neg (by omega)], trivial, trivial⟩
  | setObject m c =>
    simp only [Writer.step, Writer.setObject]
    exact ⟨by rw [Map.get_set, if_neg (fun e => h e.symm)], trivial, trivial⟩
  | setStream m d data compress =>
    simp only [Writer.step, Writer.setStreamObject]
    exact ⟨by rw [Map.get_set, if_neg (fun e => h e.symm)], trivial, trivial⟩
  | setEncryptRef m => exact h.elim
  | setEncryption m => exact h.elim
  | write =>
    have : ((Writer.write env w).2.objects = w.objects ∧ (Writer.write env w).2.encryptRef = w.encryptRef ∧
        (Writer.write env w).2.fileID = w.fileID) := by
      unfold Writer.write
      rw [Writer.create_off env w hp]
      simp only
      split <;> exact ⟨rfl, rfl, rfl⟩
    exact ⟨congrArg (fun m => Map.get m n) this.1, this.2⟩
  | _ => exact ⟨rfl, rfl, rfl⟩

theorem leaves_run (env : Writer.Env) (n : Int) (ops : List Writer.Op) (h : ∀ op ∈ ops, LeavesEncryption n op) (w : Writer)
    (hn : n < w.nextObjNum) (hp : w.useObjectStream = false) :
    (ops.foldl (fun w op => (Writer.step env w op).1) w).objects.get n = w.objects.get n ∧
      (ops.foldl (fun w op => (Writer.step env w op).1) w).encryptRef = w.encryptRef ∧
      (ops.foldl (fun w op => (Writer.step env w op).1) w).fileID = w.fileID := by
  induction ops generalizing w with
  | nil => exact ⟨rfl, rfl, rfl⟩
  | cons op ops ih =>
    have h1 := leaves_step env w n op (h op (by simp)) hn hp
    have h2 := ih (fun o ho => h o (by simp [ho])) (Writer.step env w op).1 (by have := Writer.next_mono env w op; omega)
      (plain_step env w op n (h op (by simp)) hp)
    exact ⟨h2.1.trans h1.1, h2.2.1.trans h1.2.1, h2.2.2.trans h1.2.2⟩

/-! ### The shape of the file -/

theorem lines_append {a b : Bytes} (ha : Lines a) (hb : Lines b) : Lines (a ++ b) := by
  rcases hb with rfl | ⟨b, rfl⟩
  · simpa using ha
  · exact .inr ⟨a ++ b, by simp⟩

theorem body_at (env : Writer.Env) (n : Int) (o : Writer.Obj) (hs : o.stream = none) : ∀ (l : List (Int × Writer.Obj)) (pos : Nat)
    (heap : List Writer.Dict), (n, o) ∈ l → ∃ A B, Lines A ∧ Lines B ∧
      (Writer.writeObjs env (fun _ => false) pos heap l).1 = A ++ (itoa n ++ b!" 0 obj\n" ++ o.content.getD [] ++ b!"\nendobj\n") ++ B := by
  have hall : ∀ (l : List (Int × Writer.Obj)) (pos : Nat) (heap : List Writer.Dict), Lines (Writer.writeObjs env (fun _ => false) pos heap l).1 := by
    intro l
    induction l with
    | nil => intro pos heap; exact .inl rfl
    | cons e l ih =>
      intro pos heap
      simp only [Writer.writeObjs, Bool.false_eq_true, if_false]
      refine lines_append ?_ (ih _ _)
      obtain ⟨c, hc⟩ := XFA.objText_shape env heap e.1 e.2
      rw [hc]
      exact .inr ⟨itoa e.1 ++ b!" 0 obj\n" ++ c ++ b!"\nendobj", by simp⟩
  intro l
  induction l with
  | nil => intro pos heap h; simp at h
  | cons e l ih =>
    intro pos heap h
    rcases List.mem_cons.1 h with rfl | h
    · refine ⟨[], (Writer.writeObjs env (fun _ => false) (pos + (Writer.objText env heap n o).1.length) (Writer.objText env heap n o).2 l).1,
        .inl rfl, hall _ _ _, ?_⟩
      simp only [Writer.writeObjs, Bool.false_eq_true, if_false, List.nil_append]
      congr 1
      unfold Writer.objText
      rw [hs]
    · obtain ⟨A, B, h1, h2, h3⟩ := ih (pos + (Writer.objText env heap e.1 e.2).1.length) (Writer.objText env heap e.1 e.2).2 h
      refine ⟨(Writer.objText env heap e.1 e.2).1 ++ A, B, ?_, h2, ?_⟩
      · refine lines_append ?_ h1
        obtain ⟨c, hc⟩ := XFA.objText_shape env heap e.1 e.2
        rw [hc]
        exact .inr ⟨itoa e.1 ++ b!" 0 obj\n" ++ c ++ b!"\nendobj", by simp⟩
      · simp only [Writer.writeObjs, Bool.false_eq_true, if_false]
        rw [h3]
        simp only [List.append_assoc]

/-- The trailer up to the entry /Encrypt. -/
def trailerHead (w : Writer) : Bytes :=
  b!"trailer\n<<\n" ++ b!"/Size " ++ itoa w.nextObjNum ++ b!"\n" ++
  (if w.rootRef ≠ [] then b!"/Root " ++ w.rootRef ++ b!"\n" else []) ++
  (if w.infoRef ≠ [] then b!"/Info " ++ w.infoRef ++ b!"\n" else [])

theorem lines_trailerHead (w : Writer) : Lines (trailerHead w) := by
  unfold trailerHead
  refine lines_append (lines_append (.inr ⟨b!"trailer\n<<\n" ++ b!"/Size " ++ itoa w.nextObjNum, rfl⟩) ?_) ?_
  · split
    · exact .inr ⟨_, rfl⟩
    · exact .inl rfl
  · split
    · exact .inr ⟨_, rfl⟩
    · exact .inl rfl

theorem lines_table (next : Int) (ps : Map Int Nat) : Lines (Writer.xrefTable next ps) := by
  unfold Writer.xrefTable
  refine lines_append (.inr ⟨b!"xref\n" ++ b!"0 " ++ itoa next ++ b!"\n" ++ (padDec 10 0 ++ b!" " ++ padDec 5 65535 ++ b!" f "), by simp⟩) ?_
  induction List.range (next.toNat - 1) with
  | nil => exact .inl rfl
  | cons k l ih =>
    rw [List.map_cons, List.flatten_cons]
    refine lines_append ?_ ih
    unfold Writer.tableLine
    split
    · exact .inr ⟨padDec 10 _ ++ b!" " ++ padDec 5 0 ++ b!" n ", by simp; rfl⟩
    · exact .inr ⟨padDec 10 0 ++ b!" " ++ padDec 5 1 ++ b!" f ", by simp⟩

theorem file_shape (env : Writer.Env) (hfair : ∀ l, (env.order l).Perm l) (w : Writer) (hx : w.useXRefStream = false) (ho : w.useObjectStream = false)
    (n : Int) (dict : Bytes) (hobj : w.objects.get n = some ⟨some dict, none, none⟩) (href : w.encryptRef = Writer.ref n) :
    ∃ pre mid p, Lines pre ∧ Lines mid ∧ (Writer.write env w).1 =
      pre ++ (itoa n ++ b!" 0 obj\n" ++ dict ++ b!"\nendobj\n") ++ mid ++
        (b!"/Encrypt " ++ itoa n ++ b!" 0 R\n" ++ idText w.fileID ++ (b!">>\n" ++ Writer.startxref p)) := by
  have hm := (Writer.sortedObjs_mem env hfair w n _).2 hobj
  obtain ⟨A, B, h1, h2, h3⟩ := body_at env n _ rfl (Writer.sortedObjs env w) (Writer.header w.pdfVersion).length w.heap hm
  refine ⟨Writer.header w.pdfVersion ++ A, B ++ (Writer.xrefTable w.nextObjNum (Writer.tableBody env w).2.1 ++ trailerHead w),
    (Writer.header w.pdfVersion).length + (Writer.tableBody env w).1.length, ?_, ?_, ?_⟩
  · exact lines_append (.inr ⟨b!"%PDF-" ++ w.pdfVersion ++ b!"\n" ++ [0x25, 0xE2, 0xE3, 0xCF, 0xD3], by simp [Writer.header]⟩) h1
  · exact lines_append h2 (lines_append (lines_table _ _) (lines_trailerHead w))
  · rw [Writer.write_table env w hx ho]
    have hb : (Writer.tableBody env w).1 = A ++ (itoa n ++ b!" 0 obj\n" ++ dict ++ b!"\nendobj\n") ++ B := h3
    generalize (Writer.tableBody env w).2.1 = ps at *
    generalize (Writer.header w.pdfVersion).length + (Writer.tableBody env w).1.length = p at *
    rw [hb]
    have ht : Writer.trailer w = trailerHead w ++ (b!"/Encrypt " ++ itoa n ++ b!" 0 R\n" ++ idText w.fileID ++ b!">>\n") := by
      have hne : w.encryptRef ≠ [] := by
        rw [href]; unfold Writer.ref; intro h; have := congrArg List.length h; simp at this
      unfold Writer.trailer trailerHead idText
      rw [if_pos hne, href]
      simp [Writer.ref]
    rw [ht]
    simp only [List.append_assoc]

theorem occurs_left {k a b : Bytes} {i : Nat} (hk : k ≠ []) (h : k <+: a.drop i) : OccursAt k (a ++ b) i := by
  rw [occursAt_iff hk]
  have hi : i ≤ a.length := by
    apply Classical.byContradiction; intro hn
    rw [List.drop_of_length_le (by omega)] at h
    exact hk (List.prefix_nil.1 h)
  rw [List.drop_append_of_le_length hi]
  exact h.trans (List.prefix_append _ _)

theorem occurs_mid {k a b c : Bytes} {i : Nat} (hk : k ≠ []) (h : k <+: b.drop i) : OccursAt k (a ++ b ++ c) (a.length + i) := by
  rw [occursAt_iff hk]
  have hi : i ≤ b.length := by
    apply Classical.byContradiction; intro hn
    rw [List.drop_of_length_le (by omega)] at h
    exact hk (List.prefix_nil.1 h)
  rw [List.append_assoc, List.drop_append, List.drop_of_length_le (by omega), List.nil_append, Nat.add_sub_cancel_left,
    List.drop_append_of_le_length hi]
  exact h.trans (List.prefix_append _ _)

/-! ### Opening -/

theorem unlock_fields (P : Prim) (e e' : Enc) (fid pw : Bytes) (hr : 5 ≤ e.r) (h : unlock P e fid pw = .ok e') :
    e'.v = e.v ∧ e'.keyLength = e.keyLength := by
  rw [unlock, if_pos hr, unlockV5] at h
  cases h0 : verifyUV5 P pw (deriveKeyV5 P pw fid) e.u with
  | err => rw [h0] at h; cases h
  | panic => rw [h0] at h; cases h
  | ok b =>
    rw [h0] at h
    simp only [Res.bind] at h
    cases b with
    | true =>
      simp only [if_true] at h
      cases h1 : unwrapV5 P (deriveKeyV5 P pw fid) e.ue with
      | err => rw [h1] at h; cases h
      | panic => rw [h1] at h; cases h
      | ok q => rw [h1] at h; simp only at h; cases h; exact ⟨rfl, rfl⟩
    | false =>
      simp only [Bool.false_eq_true, if_false] at h
      cases h1 : unwrapV5 P (deriveKeyV5 P pw fid) e.oe with
      | err => rw [h1] at h; cases h
      | panic => rw [h1] at h; cases h
      | ok q => rw [h1] at h; simp only at h; cases h; exact ⟨rfl, rfl⟩

theorem decrypter_same (P : Prim) (e e' : Enc) (hv : e'.v = e.v) (hl : e'.keyLength = e.keyLength) (hk : e'.encryptKey = e.encryptKey)
    (h5 : 5 ≤ e.encryptKey.length) (hlen : e.keyLength ≤ e.encryptKey.length) : decrypter P e' = decrypter P e := by
  funext n g data
  have key : decryptObject P e' n g data = decryptObject P e n g data := by
    unfold decryptObject
    rw [hv, hl, hk]
    have hs : ∀ (t : Bytes) (k : Nat), k ≤ e.encryptKey.length → sliceTo (e.encryptKey ++ t) k = .ok (e.encryptKey.take k) := by
      intro t k hk
      unfold sliceTo
      rw [if_pos (by simp; omega), List.take_append_of_le_length hk]
    have : ∀ t : Bytes, sliceTo (e.encryptKey ++ t) (if e.v > 1 then e.keyLength else 5) = .ok (e.encryptKey.take (if e.v > 1 then e.keyLength else 5)) := by
      intro t
      apply hs
      split <;> assumption
    simp only [this]
  unfold decrypter
  rw [key]

theorem noID_end (p : Nat) : NoOcc b!"/ID" (b!">>\n" ++ Writer.startxref p) := by
  apply avoid_noOcc _ (by decide)
  unfold Writer.startxref
  avoid

/-- The encryption dictionary and the identifier of a file that has the marks are found. -/
theorem marks_open (P : Prim) (h : P.Lawful) (g : Random) (hg : g.Ok) (userPw ownerPw fid : Bytes) (perm : Int) (em : Bool)
    (hp : -2147483648 ≤ perm ∧ perm ≤ 2147483647) (n : Nat) (hn : n ≤ 9223372036854775807) (pre mid pw : Bytes) (p : Nat)
    (hl : Lines pre) (hm : Lines mid) (hfid : fid ≠ []) (file : Bytes)
    (hfile : file = pre ++ (natDec n ++ b!" 0 obj\n" ++ encryptDict (setupAES256 P g userPw ownerPw fid perm em) ++ b!"\nendobj\n") ++ mid ++
        (b!"/Encrypt " ++ natDec n ++ b!" 0 R\n" ++ idText fid ++ (b!">>\n" ++ Writer.startxref p)))
    (hmark : Marks file (n : Int) em) :
    decryptPDF P file pw = unlock P (setupAES256 P g userPw ownerPw fid perm em) fid pw := by
  generalize hD : encryptDict (setupAES256 P g userPw ownerPw fid perm em) = D at hfile
  generalize hO : natDec n ++ b!" 0 obj\n" ++ D ++ b!"\nendobj\n" = O at hfile
  generalize hT : b!"/Encrypt " ++ natDec n ++ b!" 0 R\n" ++ idText fid ++ (b!">>\n" ++ Writer.startxref p) = T at hfile
  have eref : b!"/Encrypt " ++ Writer.ref (n : Int) = b!"/Encrypt " ++ natDec n ++ b!" 0 R" := by
    have e : itoa (n : Int) = natDec n := rfl
    simp [Writer.ref, e]
  have hT0 : (b!"/Encrypt " ++ Writer.ref (n : Int)) <+: T := by
    rw [eref, ← hT]
    exact ⟨b!"\n" ++ idText fid ++ (b!">>\n" ++ Writer.startxref p), by simp⟩
  have hfile2 : file = (pre ++ O ++ mid) ++ T := by rw [hfile]
  -- the entry of the trailer
  have occT : OccursAt (b!"/Encrypt " ++ Writer.ref (n : Int)) file (pre ++ O ++ mid).length := by
    rw [occursAt_iff (by simp), hfile2, List.drop_left]
    exact hT0
  -- /EncryptMetadata
  have occM : em = false → ∃ j, pre.length ≤ j ∧ j < (pre ++ O).length ∧ OccursAt b!"/EncryptMetadata false" file j := by
    intro he
    have hd : ∃ a b, D = a ++ b!"/EncryptMetadata false" ++ b := by
      refine ⟨part2 (setupAES256 P g userPw ownerPw fid perm em) ++ ueText (setupAES256 P g userPw ownerPw fid perm em) ++
        oeText (setupAES256 P g userPw ownerPw fid perm em), b!"\n>>", ?_⟩
      rw [← hD, dict_parts]
      have : emText (setupAES256 P g userPw ownerPw fid perm em) = b!"/EncryptMetadata false\n" := by
        unfold emText; rw [if_neg (by simp [setupAES256, he])]
      rw [this]
      simp
    obtain ⟨a, b, hab⟩ := hd
    refine ⟨(pre ++ (natDec n ++ b!" 0 obj\n" ++ a)).length, by simp, ?_, ?_⟩
    · rw [← hO, hab]; simp
    · refine ⟨pre ++ (natDec n ++ b!" 0 obj\n" ++ a), b ++ b!"\nendobj\n" ++ mid ++ T, ?_, rfl⟩
      rw [hfile, ← hO, hab]
      simp
  have q1 : NoOcc b!"/Encrypt" pre := by
    intro i hi
    have hlt : i < pre.length := by
      apply Classical.byContradiction; intro hx
      rw [List.drop_of_length_le (by omega)] at hi
      exact absurd (List.prefix_nil.1 hi) (by decide)
    have ho : OccursAt b!"/Encrypt" file i := by
      rw [hfile]; simp only [List.append_assoc]; exact occurs_left (by decide) hi
    rcases hmark.others i ho with h1 | ⟨he, h1⟩
    · have := hmark.entry _ _ h1 occT
      simp at this; omega
    · obtain ⟨j, hj, _, hoj⟩ := occM he
      have := hmark.noMetadata _ _ h1 hoj
      omega
  have q2 : NoOcc b!"/Encrypt" mid := by
    intro i hi
    have hlt : i < mid.length := by
      apply Classical.byContradiction; intro hx
      rw [List.drop_of_length_le (by omega)] at hi
      exact absurd (List.prefix_nil.1 hi) (by decide)
    have ho : OccursAt b!"/Encrypt" file ((pre ++ O).length + i) := by
      rw [hfile]; exact occurs_mid (by decide) hi
    rcases hmark.others _ ho with h1 | ⟨he, h1⟩
    · have := hmark.entry _ _ h1 occT
      simp at this; omega
    · obtain ⟨j, _, hj, hoj⟩ := occM he
      have := hmark.noMetadata _ _ h1 hoj
      omega
  have q3 : NoOcc (natDec n ++ b!" 0 obj") pre := by
    intro i hi
    have hk : natDec n ++ b!" 0 obj" ≠ [] := by simp
    have hlt : i < pre.length := by
      apply Classical.byContradiction; intro hx
      rw [List.drop_of_length_le (by omega)] at hi
      exact hk (List.prefix_nil.1 hi)
    have ho : OccursAt (itoa (n : Int) ++ b!" 0 obj") file i := by
      rw [hfile]; simp only [List.append_assoc]; exact occurs_left hk hi
    have ho2 : OccursAt (itoa (n : Int) ++ b!" 0 obj") file pre.length := by
      refine ⟨pre, b!"\n" ++ D ++ b!"\nendobj\n" ++ mid ++ T, ?_, rfl⟩
      have e : itoa (n : Int) = natDec n := rfl
      rw [hfile, ← hO, e]
      simp
    have := hmark.head _ _ ho ho2
    omega
  have hidT : ∃ a b, T = a ++ b!"/ID" ++ b := by
    refine ⟨b!"/Encrypt " ++ natDec n ++ b!" 0 R\n", b!" [<" ++ hexUpper fid ++ b!"><" ++ hexUpper fid ++ b!">]\n" ++ (b!">>\n" ++ Writer.startxref p), ?_⟩
    rw [← hT]
    have : fid.length > 0 := by cases fid with | nil => exact absurd rfl hfid | cons c r => simp
    simp only [idText, if_pos this]
    simp
  have occID : ∃ j, (pre ++ O ++ mid).length ≤ j ∧ OccursAt b!"/ID" file j := by
    obtain ⟨a, b, hab⟩ := hidT
    refine ⟨(pre ++ O ++ mid ++ a).length, by simp, pre ++ O ++ mid ++ a, b, ?_, rfl⟩
    rw [hfile2, hab]; simp
  have q4 : NoOcc b!"/ID" pre := by
    intro i hi
    have hlt : i < pre.length := by
      apply Classical.byContradiction; intro hx
      rw [List.drop_of_length_le (by omega)] at hi
      exact absurd (List.prefix_nil.1 hi) (by decide)
    have ho : OccursAt b!"/ID" file i := by
      rw [hfile]; simp only [List.append_assoc]; exact occurs_left (by decide) hi
    obtain ⟨j, hj, hoj⟩ := occID
    have := hmark.id _ _ ho hoj
    simp at hj; omega
  have q5 : NoOcc b!"/ID" mid := by
    intro i hi
    have hlt : i < mid.length := by
      apply Classical.byContradiction; intro hx
      rw [List.drop_of_length_le (by omega)] at hi
      exact absurd (List.prefix_nil.1 hi) (by decide)
    have ho : OccursAt b!"/ID" file ((pre ++ O).length + i) := by
      rw [hfile]; exact occurs_mid (by decide) hi
    obtain ⟨j, hj, hoj⟩ := occID
    have := hmark.id _ _ ho hoj
    simp at hj this; omega
  rw [hfile, ← hO, ← hT, ← hD]
  exact decryptPDF_file _ (setup_dictOk h g hg _ _ _ _ _ hp) (by simp [setupAES256])
    (setup_dict_length h g hg _ _ _ _ _ hp) n hn fid pw pre mid _ hl hm q1 q2 q3 q4 q5 (noID_end p)

end Pdfer.Protect
