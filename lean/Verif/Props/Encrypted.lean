import Verif.Props.Crypto
import Verif.Props.Incremental
import Verif.Props.Writer

/-! C34 for whole files, and C83: objects encrypted by other conforming software. -/

namespace Pdfer.Props

open Pdfer.Go Pdfer.Spec Pdfer.Crypto Pdfer.Incremental

variable {P : Prim}

/-! ### C83 -/

theorem packObj_low (n g : Nat) : packObj n g = lowBytes 3 n ++ lowBytes 2 g := by
  have h1 : ((n : Int) % 256).toNat = n % 256 := by omega
  have h2 : ((n : Int) / 256 % 256).toNat = n / 256 % 256 := by omega
  have h3 : ((n : Int) / 65536 % 256).toNat = n / 256 / 256 % 256 := by omega
  simp only [packObj, lowBytes, List.cons_append, List.nil_append, h1, h2, h3]

theorem rc4Xor_twice (k data : Bytes) : rc4Xor P k (rc4Xor P k data) = data := by
  unfold rc4Xor
  apply List.ext_getElem
  · simp
  · intro i h1 h2
    simp [UInt8.xor_assoc]

theorem salt_eq : salt = b!"sAlT" := by decide

theorem isoCbc_eq (f : Bytes → Bytes) : ∀ (bs : List Bytes) (iv : Bytes), (isoCbc f iv bs).flatten = cbcEnc f iv bs := by
  intro bs
  induction bs with
  | nil => intro iv; rfl
  | cons b bs ih => intro iv; simp only [isoCbc, cbcEnc, List.flatten_cons, ih]; rfl

/-- The padded blocks of some data are unique. -/
theorem padded_eq {data : Bytes} {bs : List Bytes} (h : PaddedBlocks data bs) : blocks (pkcs7 data).length (pkcs7 data) = bs := by
  obtain ⟨h16, k, hk1, hk2, hf⟩ := h
  have hl : bs.flatten.length = 16 * bs.length := length_flatten16 _ h16
  have hk : k = 16 - data.length % 16 := by
    rw [hf] at hl
    simp at hl
    omega
  have : pkcs7 data = bs.flatten := by
    rw [hf, hk]; rfl
  rw [this, blocks_flatten _ _ h16 (by rw [hl]; omega)]

/-- C83 (AES-128, /V 4): what the standard says the cipher text of an object is, is what the writer stores and is decrypted to
the data, for every file key of 11 or more bytes, object number, generation, data and initialisation vector. -/
theorem C83_aes_conforming (h : P.Lawful) (e : Enc) (key : Bytes) (n g : Nat) (iv data : Bytes) (bs : List Bytes)
    (hv : e.v = 4) (hkey : e.encryptKey = key) (hl : e.keyLength = key.length) (hlo : 11 ≤ key.length) (hiv : iv.length = 16)
    (hbs : PaddedBlocks data bs) :
    encryptStream P e iv n g data = .ok (iv ++ (isoCbc (P.aesEnc (isoObjectKey P true key n g)) iv bs).flatten) ∧
    decryptObject P e n g (iv ++ (isoCbc (P.aesEnc (isoObjectKey P true key n g)) iv bs).flatten) = .ok data := by
  have hne : e.encryptKey ≠ [] := by rw [hkey]; intro h0; rw [h0] at hlo; simp at hlo
  obtain ⟨c, h1, h2⟩ := encryptStream_decryptObject h e iv n g data (.inl hv) hne (by omega) (by simp [hl, hkey]) hiv
  have hc : encryptStream P e iv n g data = .ok (iv ++ (isoCbc (P.aesEnc (isoObjectKey P true key n g)) iv bs).flatten) := by
    have h0 : e.encryptKey.length ≠ 0 := by simpa using hne
    have hk0 : e.keyLength ≠ 0 := by omega
    have hs : sliceTo (e.encryptKey ++ e.keyTail) e.keyLength = .ok key := by
      unfold sliceTo
      rw [if_pos (by simp [hl, hkey]), hkey, hl, List.take_left]
    simp only [encryptStream, if_neg h0, if_neg hk0, hs, Res.bind, hv, true_or, if_true]
    have hak : (P.md5 (key ++ packObj n g ++ salt)).take (min (e.keyLength + 5) 16) = isoObjectKey P true key n g := by
      unfold isoObjectKey
      rw [packObj_low, salt_eq, hl]
      simp only [if_true, List.append_assoc]
    rw [hak]
    have hok : aesKeyOk (isoObjectKey P true key n g) = true := by
      rw [← hak]; exact aesKey_ok h _ _ (by omega)
    simp only [hok, not_true, if_false]
    rw [isoCbc_eq, padded_eq hbs]
  refine ⟨hc, ?_⟩
  rw [hc] at h1
  injection h1 with h1
  rw [h1]; exact h2

/-- C83 (RC4, /V 1 and 2): cipher text made as the standard says is decrypted to the data. -/
theorem C83_rc4_conforming (e : Enc) (key : Bytes) (n g : Nat) (data : Bytes) (hkey : e.encryptKey = key) (hne : key ≠ [])
    (hv : e.v = 1 ∧ key.length = 5 ∨ e.v = 2 ∧ e.keyLength = key.length) :
    decryptObject P e n g (rc4Xor P (isoObjectKey P false key n g) data) = .ok data := by
  have h0 : e.encryptKey.length ≠ 0 := by rw [hkey]; simpa using hne
  have hkl : (if e.v > 1 then e.keyLength else 5) = key.length := by
    rcases hv with ⟨h1, h2⟩ | ⟨h1, h2⟩ <;> simp [h1, h2]
  have hs : sliceTo (e.encryptKey ++ e.keyTail) key.length = .ok key := by
    unfold sliceTo
    rw [if_pos (by simp [hkey]), hkey, List.take_left]
  have hv' : e.v = 1 ∨ e.v = 2 := by omega
  simp only [decryptObject, if_neg h0, hkl, hs, Res.bind, if_pos hv']
  have hak : (P.md5 (key ++ packObj n g)).take (min (key.length + 5) 16) = isoObjectKey P false key n g := by
    unfold isoObjectKey
    rw [packObj_low]
    simp
  rw [hak, rc4Xor_twice]

example : PaddedBlocks b!"q Q" [b!"q Q" ++ List.replicate 13 13] :=
  ⟨by decide, 13, by decide, by decide, by decide⟩

/-- The cipher text of the empty stream under AES-256 as the standard describes it (ISO 32000-2, Algorithm 1.A): the file key
itself is used, with a zero initialisation vector here. -/
def aes256Empty : Bytes :=
  List.replicate 16 0 ++ (isoCbc (goPrim.aesEnc (List.replicate 32 7)) (List.replicate 16 0) [List.replicate 16 16]).flatten

/-- C83 does not hold for AES-256 (/V 5): there the standard uses the file key itself, but the reader derives a key per object,
so the cipher text of the empty stream is not decrypted. -/
theorem C83_aes256_violated : PaddedBlocks [] [List.replicate 16 16] ∧
    decryptObject goPrim { (default : Enc) with v := 5, keyLength := 32, encryptKey := List.replicate 32 7 } 1 0 aes256Empty ≠ .ok [] := by
  refine ⟨⟨by decide, 16, by decide, by decide, by decide⟩, by decide +kernel⟩

/-! ### C34: whole files -/

theorem insertBy_split (k : Bytes) (l : List (Bytes × Bytes)) : ∃ p q, ∀ v : Bytes,
    Writer.insertBy (fun a b => Writer.bytesLe a.1 b.1) (k, v) l = p ++ (k, v) :: q := by
  induction l with
  | nil => exact ⟨[], [], fun v => rfl⟩
  | cons y ys ih =>
    obtain ⟨p, q, h⟩ := ih
    by_cases hc : Writer.bytesLe k y.1 = true
    · exact ⟨[], y :: ys, fun v => by simp [Writer.insertBy, hc]⟩
    · exact ⟨y :: p, q, fun v => by simp [Writer.insertBy, hc, h]⟩

/-- What a dictionary prints apart from the value of /Length. -/
theorem format_length (d : Writer.Dict) : ∃ a b : Bytes, (a = [] ∨ a.getLast? = some 32) ∧ ∀ m : Nat,
    Writer.formatDictionary (d.set b!"Length" (.int m)) =
      b!"<<" ++ a ++ (b!"/Length " ++ natDec m) ++ (b!" " ++ b ++ b!">>") := by
  obtain ⟨p, q, h⟩ := insertBy_split b!"Length"
    (Writer.sortBy (fun a b => Writer.bytesLe a.1 b.1) (Writer.formatEntries id (d.filter (fun e => e.1 ≠ b!"Length"))))
  let R : List (Bytes × Bytes) → Bytes := fun l => l.flatMap (fun e => Writer.slashKey e.1 ++ b!" " ++ e.2 ++ b!" ")
  refine ⟨R p, R q, ?_, ?_⟩
  · rcases List.eq_nil_or_concat p with rfl | ⟨p', x, rfl⟩
    · exact .inl rfl
    · right
      simp only [R, List.concat_eq_append, List.flatMap_append, List.flatMap_cons, List.flatMap_nil, List.append_nil]
      rw [List.getLast?_append, List.getLast?_append]
      rfl
  · intro m
    have hk : Writer.slashKey b!"Length" = b!"/Length" := by decide
    show b!"<<" ++ R (Writer.sortBy _ (Writer.formatEntries id ((b!"Length", .int m) :: d.filter (fun e => e.1 ≠ b!"Length")))) ++ b!">>" = _
    have e1 : Writer.sortBy (fun a b => Writer.bytesLe a.1 b.1) (Writer.formatEntries id ((b!"Length", .int m) :: d.filter (fun e => e.1 ≠ b!"Length"))) =
        p ++ (b!"Length", natDec m) :: q := by
      rw [← h]; rfl
    rw [e1]
    simp only [R, List.flatMap_append, List.flatMap_cons, hk]
    simp

theorem set_perm (d : Writer.Dict) (v : Writer.PVal) (hn : d.keys.Nodup) (hg : d.get b!"Length" = some v) :
    Writer.formatDictionary d = Writer.formatDictionary (d.set b!"Length" v) := by
  apply C13_dictionary_map_order _ _ _ hn
  have hmem := (Map.get_eq_some_iff d hn _ _).1 hg
  unfold Map.set
  clear hg
  induction d with
  | nil => simp at hmem
  | cons e d ih =>
    simp only [Map.keys, List.map_cons, List.nodup_cons] at hn
    rcases List.mem_cons.1 hmem with rfl | hm
    · rw [List.filter_cons, if_neg (by simp), List.filter_eq_self.2]
      intro x hx
      simp only [ne_eq, decide_eq_true_eq]
      intro hxe
      exact hn.1 (List.mem_map.2 ⟨x, hx, hxe⟩)
    · have hne : e.1 ≠ b!"Length" := by
        intro he
        exact hn.1 (List.mem_map.2 ⟨_, hm, he.symm⟩)
      rw [List.filter_cons, if_pos (by simpa using hne)]
      exact (List.Perm.cons e (ih hn.2 hm)).trans (List.Perm.swap _ _ _)

/-- The encryption of the writer's streams with the record `e` and an initialisation vector for every object. -/
def encrypter (P : Prim) (e : Enc) (ivs : Int → Bytes) : Int → Bytes → Option Bytes := fun n s =>
  match encryptStream P e (ivs n) n 0 s with
  | .ok c => some c
  | _ => none

/-- The dictionary stored with the stream object `o`. -/
def storedDict (w : Writer.Writer) (o : Writer.Obj) : Writer.Dict := w.heap.getD (o.dict.getD 0) []

theorem perm_of_get (d d' : Writer.Dict) (h : d.keys.Nodup) (h' : d'.keys.Nodup) (hg : ∀ k, d.get k = d'.get k) : d.Perm d' := by
  refine (List.perm_ext_iff_of_nodup (List.Nodup.of_map _ h) (List.Nodup.of_map _ h')).2 ?_
  rintro ⟨k, v⟩
  rw [← Map.get_eq_some_iff d h, ← Map.get_eq_some_iff d' h', hg]

/-- C34 for whole files (partial: table mode, AES, `BaseFits`, dictionaries passed as literals, objects that can be taken
apart): whatever streams were stored by whatever calls, the file written with an encryption record and opened with the same
record gives back every stream with its plain data and the dictionary stored with it, with the plain length in it. -/
theorem C34_encrypted_file_partial (h : P.Lawful) (e : Enc) (hv : e.v = 4 ∨ e.v = 5) (hkey : e.encryptKey ≠ []) (hlo : 11 ≤ e.keyLength)
    (hhi : e.keyLength ≤ (e.encryptKey ++ e.keyTail).length) (ivs : Int → Bytes) (hiv : ∀ n, (ivs n).length = 16)
    (wenv : Writer.Env) (hcr : wenv.crypt = some (encrypter P e ivs)) (ops : List Writer.Op) (hops : ∀ op ∈ ops, Writer.FreshDict op)
    (hbase : BaseFits wenv ops) (env : Incremental.Env)
    (henc : env.handleEncryption (written wenv ops).bytes = some (some (decrypter P e))) :
    ∃ pdf, openPdf env (Writer.write wenv (Writer.run wenv ops)).1 = .ok pdf ∧
      ∀ n o s, 1 ≤ n → (Writer.run wenv ops).objects.get n = some o → o.stream = some s →
        ∃ c, encryptStream P e (ivs n) n 0 s = .ok c ∧
          (Separable (Writer.formatDictionary ((storedDict (Writer.run wenv ops) o).set b!"Length" (.int c.length))) c →
            Incremental.getObject env pdf n = .ok (itoa n ++ b!" 0 obj\n" ++
              Writer.formatDictionary ((storedDict (Writer.run wenv ops) o).set b!"Length" (.int s.length)) ++
              b!"\nstream\n" ++ s ++ b!"\nendstream" ++ b!"\nendobj")) := by
  obtain ⟨pdf, base, hopen, hraw, hpc, hb1, hb2, hloc, _⟩ := history_open wenv ops hbase [] (by simp) env _ henc
  refine ⟨pdf, hopen, ?_⟩
  intro n o s hn ho hs
  obtain ⟨c0, hc0⟩ := Option.isSome_iff_exists.1 ((hb1 n).2 ⟨hn, by rw [ho]; rfl⟩)
  obtain ⟨_, o', ho', _, hbody, _⟩ := hb2 n c0 hc0
  rw [ho] at ho'
  simp only [Option.some.injEq] at ho'
  subst ho'
  have hheap := Writer.heapOK_run wenv hbase.fair ops hops
  obtain ⟨d, data, e1, e2, e3, e4, e5, e6⟩ := hbody hheap s hs
  have hsn : (storedDict (Writer.run wenv ops) o).keys.Nodup := by
    obtain ⟨a, ha, _, hl⟩ := hheap.len n o s ho hs
    simp only [storedDict, ha, Option.getD_some]
    exact hl.1
  have hset : ∀ m : Nat, Writer.formatDictionary ((storedDict (Writer.run wenv ops) o).set b!"Length" (.int m)) =
      Writer.formatDictionary (d.set b!"Length" (.int m)) := by
    intro m
    refine C13_dictionary_map_order _ _ (perm_of_get _ _ (Map.nodup_set _ _ _ hsn) (Map.nodup_set _ _ _ e3) ?_) (Map.nodup_set _ _ _ hsn)
    intro k
    rw [Map.get_set, Map.get_set]
    split
    · rfl
    · rename_i hk
      exact (e6 k (fun e => hk e)).symm
  obtain ⟨c, hc1, _⟩ := encryptStream_decryptObject h e (ivs n) n 0 s hv hkey hlo hhi (hiv n)
  have hdata : data = c := by
    rw [e2, hcr]
    simp [encrypter, hc1]
  subst hdata
  refine ⟨data, hc1, ?_⟩
  rw [hset, hset, ← set_perm d _ e3 e5]
  intro hsep
  rcases hloc n with ⟨_, h2⟩ | ⟨p, c', h1, h2, h3⟩
  · simp [latest, hc0] at h2
  · have hc' : c' = c0 := by simpa [latest, hc0] using h2.symm
    subst hc'
    obtain ⟨a, b, ha, hfmt⟩ := format_length d
    have hdict : Writer.formatDictionary d = b!"<<" ++ a ++ (b!"/Length " ++ natDec data.length) ++ (b!" " ++ b ++ b!">>") := by
      rw [set_perm d _ e3 e5, hfmt]
    have hnn : (itoa n).length ≤ 40 := by
      have := (Writer.inv_run wenv ops).lt_next n ((Map.get_isSome_iff _ _).1 (by rw [ho]; rfl))
      exact itoa_len n (by omega) (by have := hbase.next; omega)
    have hlen : data.length ≤ 9223372036854775807 := by
      have := h3.length_le
      rw [hraw, e1] at this
      have hsz := hbase.size
      simp only [List.foldl_nil] at this
      simp only [List.length_append, List.length_drop] at this
      omega
    have hocc : OccursAt b!"/Length" (Writer.formatDictionary d) (b!"<<" ++ a).length := by
      refine ⟨b!"<<" ++ a, b!" " ++ natDec data.length ++ (b!" " ++ b ++ b!">>"), ?_, rfl⟩
      rw [hdict]; simp
    have hA : NoOcc b!"/Length" (b!"<<" ++ a) := by
      intro j hj
      have h4 : OccursAt b!"/Length" (Writer.formatDictionary d) j := by
        rw [occursAt_iff (by decide), hdict]
        obtain ⟨t, ht⟩ := hj
        have hle : j ≤ (b!"<<" ++ a).length := by
          apply Classical.byContradiction; intro hx
          rw [List.drop_of_length_le (by omega)] at ht
          simp at ht
        refine ⟨t ++ ((b!"/Length " ++ natDec data.length) ++ (b!" " ++ b ++ b!">>")), ?_⟩
        rw [show b!"<<" ++ a ++ (b!"/Length " ++ natDec data.length) ++ (b!" " ++ b ++ b!">>") =
          (b!"<<" ++ a) ++ ((b!"/Length " ++ natDec data.length) ++ (b!" " ++ b ++ b!">>")) by simp,
          List.drop_append_of_le_length hle, ← ht]
        simp
      have h5 := hsep.lengthOnce _ _ h4 hocc
      obtain ⟨t, ht⟩ := hj
      rw [h5, List.drop_length] at ht
      simp at ht
    have hB : NoOcc b!"/Length" (b!" " ++ b ++ b!">>") := by
      intro j hj
      obtain ⟨t, ht⟩ := hj
      have h4 : OccursAt b!"/Length" (Writer.formatDictionary d) ((b!"<<" ++ a ++ (b!"/Length " ++ natDec data.length)).length + j) := by
        rw [occursAt_iff (by decide), hdict, List.drop_append]
        exact ⟨t, by
          rw [List.drop_of_length_le (by omega), List.nil_append, Nat.add_sub_cancel_left]
          exact ht⟩
      have h5 := hsep.lengthOnce _ _ h4 hocc
      simp at h5
      omega
    have hstream := hsep.stream
    have hend := hsep.endstream
    have heo := hsep.endobj
    rw [hdict] at hstream hend heo
    rw [absent_iff (by decide)] at hstream hend heo
    have hat := h3
    rw [e1, hdict] at hat
    have hmain := C34_stream_object_partial h e (ivs n) n hnn s a (b!" " ++ b) data hv hkey hlo hhi (hiv n) hc1 hlen hA hB
      (by intro x hx; simp at hx; subst hx; decide)
      (by
        intro x hx
        rcases ha with rfl | ha
        · simp at hx
        · rw [ha] at hx; simp at hx; subst hx; decide)
      hstream hend heo pdf.raw p hat
    unfold Incremental.getObject
    rw [h1]
    simp only [hpc]
    rw [hmain, hfmt]
    simp only [List.append_assoc, List.cons_append, List.nil_append]

/-! A concrete encrypted file that meets the hypotheses. -/

def encRecord : Enc := { (default : Enc) with v := 4, keyLength := 16, encryptKey := List.replicate 16 7 }
def encIvs : Int → Bytes := fun _ => List.replicate 16 3
def encWEnv : Writer.Env := { plainEnv with crypt := some (encrypter goPrim encRecord encIvs) }
def encOps : List Writer.Op := [.addObject (some b!"<</Type/Catalog>>"), .addStream (.fresh []) (some b!"q Q") false, .setRoot 1]
def encREnv : Incremental.Env :=
  { unz := some, handleEncryption := fun _ => some (some (decrypter goPrim encRecord)), fallback := fun _ => .err }

/-- The file written. -/
def encFile : Bytes :=
  b!"%PDF-1.7\n" ++ [37, 226, 227, 207, 211, 10] ++ b!"1 0 obj\n<</Type/Catalog>>\nendobj\n2 0 obj\n<</Length 32 >>\nstream\n" ++
  [3, 3, 3, 3, 3, 3, 3, 3, 3, 3, 3, 3, 3, 3, 3, 3, 217, 154, 117, 130, 153, 190, 172, 242, 36, 43, 188, 242, 204, 76, 130, 30] ++
  b!"\nendstream\nendobj\nxref\n0 3\n0000000000 65535 f \n0000000015 00000 n \n0000000048 00000 n \ntrailer\n<<\n/Size 3\n/Root 1 0 R\n>>\nstartxref\n129\n%%EOF\n"

theorem encFile_written : (Writer.write encWEnv (Writer.run encWEnv encOps)).1 = encFile := by decide +kernel

example : (openPdf encREnv (Writer.write encWEnv (Writer.run encWEnv encOps)).1).bind (fun p => Incremental.getObject encREnv p 2) =
    .ok b!"2 0 obj\n<</Length 3 >>\nstream\nq Q\nendstream\nendobj" := by
  rw [encFile_written]
  decide +kernel

example : BaseFits encWEnv encOps where
  fair := plainEnv_fair
  table := rfl
  plain := rfl
  size := by decide +kernel
  next := by decide +kernel
  once := by
    have key : ∀ i, i < encFile.length → (b!"startxref").isPrefixOf (encFile.drop i) = true → i = 232 := by decide +kernel
    have all : ∀ i, OccursAt b!"startxref" (written encWEnv encOps).bytes i → i = 232 := by
      intro i hi
      rw [occursAt_iff (by decide)] at hi
      change _ <+: List.drop i (Writer.write encWEnv (Writer.run encWEnv encOps)).1 at hi
      rw [encFile_written] at hi
      apply key i _ (List.isPrefixOf_iff_prefix.2 hi)
      apply Classical.byContradiction; intro hn
      rw [List.drop_of_length_le (by omega)] at hi
      exact absurd hi (by decide)
    intro i j _ _ hi hj
    rw [all i hi, all j hj]
  window := by decide +kernel
example : ∀ op ∈ encOps, Writer.FreshDict op := by
  intro op h
  simp only [encOps, List.mem_cons, List.not_mem_nil, or_false] at h
  rcases h with rfl | rfl | rfl
  · trivial
  · exact ⟨_, rfl, by decide, by decide⟩
  · trivial

end Pdfer.Props
