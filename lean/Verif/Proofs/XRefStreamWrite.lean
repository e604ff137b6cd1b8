import Verif.Proofs.XRefStreamText

/-! `Write` in cross-reference-stream mode and the reader, together. -/

namespace Pdfer.XRefStream

open Pdfer.Go Pdfer.Writer

/-! ### Nothing in the trailer looks like /Index or /DecodeParms -/

/-- The references in the trailer contain no '/'. -/
structure RefsSlash (w : Writer) : Prop where
  root : (47 : UInt8) ∉ w.rootRef
  info : (47 : UInt8) ∉ w.infoRef
  encrypt : (47 : UInt8) ∉ w.encryptRef

theorem itoa_no_slash (n : Int) : (47 : UInt8) ∉ itoa n := by
  cases n with
  | ofNat n => exact not_mem_natDec (by decide) n
  | negSucc n => simp [itoa, not_mem_natDec]; exact not_mem_natDec (by decide) _

theorem ref_no_slash (n : Int) : (47 : UInt8) ∉ ref n := by simp [ref, itoa_no_slash]

theorem hexUpper_no_slash (bs : Bytes) : (47 : UInt8) ∉ hexUpper bs := by
  unfold hexUpper
  intro h
  obtain ⟨b, _, hb⟩ := List.mem_flatMap.1 h
  have key : ∀ n, n < 16 → (47 : UInt8) ≠ hexUp n := by decide
  simp only [List.mem_cons, List.not_mem_nil, or_false] at hb
  have hlt := b.toNat_lt
  rcases hb with hb | hb
  · exact key _ (by omega) hb
  · exact key _ (by omega) hb

open XRefTable in
theorem slash_run (env : Env) (ops : List Op) : RefsSlash (run env ops) := by
  induction ops using snoc_induction with
  | nil => exact ⟨by simp [run, newWriter], by simp [run, newWriter], by simp [run, newWriter]⟩
  | snoc ops op ih =>
    rw [run_append]
    cases op with
    | setRoot n => exact ⟨ref_no_slash n, ih.info, ih.encrypt⟩
    | setInfo n => exact ⟨ih.root, ref_no_slash n, ih.encrypt⟩
    | setEncryptRef n => exact ⟨ih.root, ih.info, ref_no_slash n⟩
    | write =>
      obtain ⟨h1, h2, h3⟩ := write_refs env (run env ops)
      exact ⟨by rw [show (step env (run env ops) .write).1 = (write env (run env ops)).2 from rfl, h1]; exact ih.root,
        by rw [show (step env (run env ops) .write).1 = (write env (run env ops)).2 from rfl, h2]; exact ih.info,
        by rw [show (step env (run env ops) .write).1 = (write env (run env ops)).2 from rfl, h3]; exact ih.encrypt⟩
    | _ => exact ⟨ih.root, ih.info, ih.encrypt⟩

theorem noOcc_tail {key : Bytes} (hk : key = b!"/Index" ∨ key = b!"/DecodeParms") (w : Writer) (hw : RefsSlash w)
    (pos : Nat) : NoOcc key (trailer w ++ startxref pos) := by
  obtain ⟨k, hk'⟩ : ∃ k, key = 47 :: k := by rcases hk with rfl | rfl <;> exact ⟨_, rfl⟩
  have hsp : (32 : UInt8) ∉ key := by rcases hk with rfl | rfl <;> decide
  have hnl : (10 : UInt8) ∉ key := by rcases hk with rfl | rfl <;> decide
  have hne : key ≠ [] := by rcases hk with rfl | rfl <;> decide
  have hlit : ∀ l ∈ [b!"trailer", b!"<<", b!"/Size", b!"/Root", b!"/Info", b!"/Encrypt", b!"/ID", b!">>",
      b!"startxref", b!"%%EOF"], NoOcc key l := by
    intro l hl
    rw [noOcc_iff_index]
    revert l
    rcases hk with rfl | rfl <;> decide
  have hfree : ∀ s : Bytes, (47 : UInt8) ∉ s → NoOcc key s := fun s hs => by rw [hk']; exact noOcc_of_head hs
  have hopt : ∀ (c : Prop) [Decidable c] (lit s rest : Bytes), NoOcc key lit → (47 : UInt8) ∉ s → NoOcc key rest →
      NoOcc key ((if c then lit ++ b!" " ++ s ++ b!"\n" else []) ++ rest) := by
    intro c _ lit s rest h1 h2 h3
    split
    · have := noOcc_mid hsp h1 (noOcc_mid hnl (hfree s h2) h3)
      simpa using this
    · simpa using h3
  have h0 : NoOcc key (b!">>\n" ++ startxref pos) := by
    have := noOcc_mid (c := 10) hnl (hlit b!">>" (by simp)) <| noOcc_mid (c := 10) hnl (hlit b!"startxref" (by simp)) <|
      noOcc_mid (c := 10) hnl (hfree (natDec pos) (not_mem_natDec (by decide) _)) <|
      noOcc_mid (c := 10) hnl (hlit b!"%%EOF" (by simp)) (noOcc_nil hne)
    simpa [startxref] using this
  have h1 := hopt (w.fileID.length > 0) b!"/ID" (b!"[<" ++ hexUpper w.fileID ++ b!"><" ++ hexUpper w.fileID ++ b!">]") _
    (hlit _ (by simp)) (by simp [hexUpper_no_slash]) h0
  have h2 := hopt (w.encryptRef ≠ []) b!"/Encrypt" w.encryptRef _ (hlit _ (by simp)) hw.encrypt h1
  have h3 := hopt (w.infoRef ≠ []) b!"/Info" w.infoRef _ (hlit _ (by simp)) hw.info h2
  have h4 := hopt (w.rootRef ≠ []) b!"/Root" w.rootRef _ (hlit _ (by simp)) hw.root h3
  have h5 := noOcc_mid (c := 10) hnl (hlit b!"trailer" (by simp)) <| noOcc_mid (c := 10) hnl (hlit b!"<<" (by simp)) <|
    noOcc_mid (c := 32) hsp (hlit b!"/Size" (by simp)) <|
    noOcc_mid (c := 10) hnl (hfree (itoa w.nextObjNum) (itoa_no_slash _)) h4
  have e : trailer w ++ startxref pos = b!"trailer" ++ 10 :: (b!"<<" ++ 10 :: (b!"/Size" ++ 32 :: (itoa w.nextObjNum ++ 10 ::
      ((if w.rootRef ≠ [] then b!"/Root" ++ b!" " ++ w.rootRef ++ b!"\n" else []) ++
      ((if w.infoRef ≠ [] then b!"/Info" ++ b!" " ++ w.infoRef ++ b!"\n" else []) ++
      ((if w.encryptRef ≠ [] then b!"/Encrypt" ++ b!" " ++ w.encryptRef ++ b!"\n" else []) ++
      ((if w.fileID.length > 0 then b!"/ID" ++ b!" " ++ (b!"[<" ++ hexUpper w.fileID ++ b!"><" ++ hexUpper w.fileID ++ b!">]")
          ++ b!"\n" else []) ++ (b!">>\n" ++ startxref pos)))))))) := by
    unfold trailer
    by_cases c1 : w.rootRef = [] <;> by_cases c2 : w.infoRef = [] <;> by_cases c3 : w.encryptRef = [] <;>
      by_cases c4 : w.fileID = [] <;> simp [c1, c2, c3, c4]
  rw [e]
  exact h5

/-! ### Writing in cross-reference-stream mode -/

/-- Body, positions and heap of `Write` after object streams have been created. -/
def xBody (env : Env) (w0 : Writer) : Bytes × Map Int Nat × List Dict :=
  writeObjs env (fun n => ((createObjectStreams env w0).2.get n).isSome)
    (header (createObjectStreams env w0).1.pdfVersion).length (createObjectStreams env w0).1.heap
    (sortedObjs env (createObjectStreams env w0).1)

theorem create_flags (env : Env) (w : Writer) :
    (createObjectStreams env w).1.useXRefStream = w.useXRefStream ∧
    (createObjectStreams env w).1.pdfVersion = w.pdfVersion ∧
    (createObjectStreams env w).1.rootRef = w.rootRef ∧ (createObjectStreams env w).1.infoRef = w.infoRef ∧
    (createObjectStreams env w).1.encryptRef = w.encryptRef := by
  unfold createObjectStreams
  split
  · simp
  · simp only; split <;> simp

/-- The start offset of the cross-reference stream. -/
def xPos (env : Env) (w0 : Writer) : Nat :=
  (header (createObjectStreams env w0).1.pdfVersion).length + (xBody env w0).1.length

theorem write_xref (env : Env) (w0 : Writer) (hx : w0.useXRefStream = true) :
    (write env w0).1 = (header (createObjectStreams env w0).1.pdfVersion ++ (xBody env w0).1) ++
      (xrefStreamObj env (createObjectStreams env w0).1.nextObjNum (xPos env w0) (xBody env w0).2.1
        (createObjectStreams env w0).2 ++
      (trailer { (createObjectStreams env w0).1 with
          nextObjNum := (createObjectStreams env w0).1.nextObjNum + 1, heap := (xBody env w0).2.2 } ++
        startxref (xPos env w0))) := by
  unfold write
  simp only [(create_flags env w0).1, hx, if_true]
  simp only [xBody, xPos, List.append_assoc]

theorem header_length (v : Bytes) : 0 < (header v).length := by simp [header]

theorem xBody_pos (env : Env) (w0 : Writer) :
    ∀ e ∈ (xBody env w0).2.1, 0 < e.2 ∧ e.2 < xPos env w0 := by
  rintro ⟨n, p⟩ he
  obtain ⟨o, heap1, k, _, _, hp, _, hk⟩ := writeObjs_at env _ _ _ _ (fun _ => True) trivial
    (fun _ _ _ _ _ => trivial) n p he
  have := header_length (createObjectStreams env w0).1.pdfVersion
  subst hp
  simp only [xPos]
  exact ⟨by omega, by unfold xBody; omega⟩

theorem itoa_toNat {n : Int} (h : 0 ≤ n) : itoa n = natDec n.toNat := by
  obtain ⟨k, rfl⟩ := Int.eq_ofNat_of_zero_le h
  rfl

/-- Result of the reader on a written file. -/
theorem read_written (env : Env) (unz : Bytes → Option Bytes) (w0 : Writer) (hx : w0.useXRefStream = true)
    (hi : Inv w0) (hrefs : RefsSlash w0)
    (hz0 : ∀ d, env.z d ≠ []) (hzh : ∀ d c, (env.z d).head? = some c → streamWs c = false)
    (hz : ∀ d, unz (env.z d ++ b!"\n") = some d)
    (hfile : (write env w0).1.length < 2 ^ 63) (hnext : w0.nextObjNum + 2 < 2 ^ 63)
    (hidx : ∀ e ∈ (createObjectStreams env w0).2, e.2.index < 2 ^ 63 ∧ e.2.streamObjNum.toNat < 2 ^ 63)
    (data : Bytes) (hdata : data = env.z (xrefStreamData (createObjectStreams env w0).1.nextObjNum (xPos env w0)
      (xBody env w0).2.1 (createObjectStreams env w0).2))
    (he : NoOcc b!"endstream" data) (hio : NoOcc b!"/Index" data) (hd : NoOcc b!"/DecodeParms" data) :
    ∃ r, parseFull unz (write env w0).1 (xPos env w0) = .ok r ∧
      (∀ m, r.objects.get m =
        if m = (createObjectStreams env w0).1.nextObjNum then some (xPos env w0)
        else if 1 ≤ m ∧ m < (createObjectStreams env w0).1.nextObjNum then
          (if ((createObjectStreams env w0).2.get m).isSome then none else (xBody env w0).2.1.get m) else none) ∧
      (∀ m, r.objectStreams.get m =
        if 1 ≤ m ∧ m < (createObjectStreams env w0).1.nextObjNum then
          ((createObjectStreams env w0).2.get m).map (fun s => (s.streamObjNum.toNat, s.index)) else none) := by
  have hi' := inv_create (env := env) hi
  have hnx : (createObjectStreams env w0).1.nextObjNum ≤ w0.nextObjNum + 1 := by
    rcases create_cases env w0 with ⟨h1, _⟩ | ⟨_, o, _, h2⟩
    · rw [h1]; omega
    · omega
  obtain ⟨hf1, hf2, hf3, hf4, hf5⟩ := create_flags env w0
  have hxp := xBody_pos env w0
  have hhl := header_length (createObjectStreams env w0).1.pdfVersion
  have hnp := hi'.next_pos
  have hwr := write_xref env w0 hx
  generalize hc : createObjectStreams env w0 = c at *
  obtain ⟨w, stm⟩ := c
  simp only at *
  obtain ⟨x1, x2, x3, x4, x5⟩ := widths_ok (xPos env w0) (xBody env w0).2.1 stm
  have hpos : xPos env w0 < 2 ^ 63 := by
    have := congrArg List.length hwr
    simp only [List.length_append] at this
    have e : xPos env w0 = (header w.pdfVersion).length + (xBody env w0).1.length := by simp [xPos, hc]
    omega
  have hposp : 0 < xPos env w0 := by
    have e : xPos env w0 = (header w.pdfVersion).length + (xBody env w0).1.length := by simp [xPos, hc]
    omega
  have hw2 : (xrefWidths (xPos env w0) (xBody env w0).2.1 stm).1 ≤ 8 := by
    unfold xrefWidths
    simp only
    have m1 : maxOf ((xBody env w0).2.1.map (·.2)) < 2 ^ 63 := by
      apply maxOf_lt _ _ (by decide)
      intro x hx
      obtain ⟨e, he, rfl⟩ := List.mem_map.1 hx
      have := (hxp e he).2; omega
    have m2 : maxOf (stm.map (fun e => e.2.streamObjNum.toNat)) < 2 ^ 63 := by
      apply maxOf_lt _ _ (by decide)
      intro x hx
      obtain ⟨e, he, rfl⟩ := List.mem_map.1 hx
      exact (hidx e he).2
    split
    · exact bytesNeeded_le _ 8 (by decide) (by omega)
    · exact bytesNeeded_le _ 8 (by decide) (by omega)
  have hw3 : (xrefWidths (xPos env w0) (xBody env w0).2.1 stm).2 ≤ 8 := by
    unfold xrefWidths
    simp only
    have m1 : maxOf (stm.map (fun e => e.2.index)) < 2 ^ 63 := by
      apply maxOf_lt _ _ (by decide)
      intro x hx
      obtain ⟨e, he, rfl⟩ := List.mem_map.1 hx
      exact (hidx e he).1
    have := bytesNeeded_le (maxOf (stm.map (fun e => e.2.index))) 8 (by decide) (by omega)
    split <;> omega
  have hlen : data.length < 2 ^ 63 := by
    have := congrArg List.length hwr
    simp only [List.length_append, xrefStreamObj, ← hdata] at this
    omega
  refine ⟨parseEntries 1 (xrefWidths (xPos env w0) (xBody env w0).2.1 stm).1
    (xrefWidths (xPos env w0) (xBody env w0).2.1 stm).2 [(0, w.nextObjNum + 1)]
    (xrefStreamData w.nextObjNum (xPos env w0) (xBody env w0).2.1 stm ++ []) { objects := [], objectStreams := [] }, ?_, ?_⟩
  · have hpre : (header w.pdfVersion ++ (xBody env w0).1).length = xPos env w0 := by simp [xPos, hc]
    have key := parseFull_text unz (header w.pdfVersion ++ (xBody env w0).1)
      (trailer { w with nextObjNum := w.nextObjNum + 1, heap := (xBody env w0).2.2 } ++ startxref (xPos env w0))
      data (xrefStreamData w.nextObjNum (xPos env w0) (xBody env w0).2.1 stm)
      w.nextObjNum.toNat (w.nextObjNum + 1).toNat (xrefWidths (xPos env w0) (xBody env w0).2.1 stm).1
      (xrefWidths (xPos env w0) (xBody env w0).2.1 stm).2 (by omega) (by omega) hlen (by omega) (by omega)
      (by rw [hdata]; exact hz _) (by rw [hdata]; exact hz0 _) (by rw [hdata]; exact hzh _) he hio hd
      (noOcc_tail (Or.inl rfl) _ ⟨by rw [hf3]; exact hrefs.root, by rw [hf4]; exact hrefs.info,
        by rw [hf5]; exact hrefs.encrypt⟩ _)
      (noOcc_tail (Or.inr rfl) _ ⟨by rw [hf3]; exact hrefs.root, by rw [hf4]; exact hrefs.info,
        by rw [hf5]; exact hrefs.encrypt⟩ _)
    rw [hpre] at key
    rw [hwr]
    have htext : xrefStreamObj env w.nextObjNum (xPos env w0) (xBody env w0).2.1 stm ++
        (trailer { w with nextObjNum := w.nextObjNum + 1, heap := (xBody env w0).2.2 } ++ startxref (xPos env w0)) =
        natDec w.nextObjNum.toNat ++ (b!" 0 obj\n" ++ dictText data.length (w.nextObjNum + 1).toNat
          (xrefWidths (xPos env w0) (xBody env w0).2.1 stm).1 (xrefWidths (xPos env w0) (xBody env w0).2.1 stm).2
          (afterDict data (trailer { w with nextObjNum := w.nextObjNum + 1, heap := (xBody env w0).2.2 } ++
            startxref (xPos env w0)))) := by
      unfold xrefStreamObj
      simp only [← hdata]
      rw [xrefDict_text, itoa_toNat (by omega), itoa_toNat (by omega)]
      simp only [dictText, afterDict, List.append_assoc]
    rw [htext]
    rw [key, List.append_nil, show (((w.nextObjNum + 1).toNat : Nat) : Int) = w.nextObjNum + 1 by omega]
  · exact parse_written w.nextObjNum hnp (xPos env w0) hposp (xBody env w0).2.1 stm (fun e he => (hxp e he).1) []

end Pdfer.XRefStream
