import Verif.Proofs.XFABuilt

/-! Reading the objects of a file that has lost its cross-reference table. -/

namespace Pdfer.XFA

open Pdfer.Go Pdfer.Spec Pdfer.Spec.XFA Pdfer.Document Pdfer.Incremental Pdfer.Crypto
open Pdfer.Writer (Writer formatDictionary)

/-! ### Without `startxref` -/

theorem no_location (unz : Bytes → Option Bytes) (pdf : Bytes) (n : Int) (h : Absent b!"startxref" pdf) : Document.getObject unz none pdf n = .err := by
  have hs : searchWith (reKeyNum b!"startxref") pdf = none := searchWith_none (fun s => reKeyNum_prefix _ s) ((absent_iff (by decide)).1 h)
  unfold Document.getObject Document.findObjectLocation
  rw [hs]
  rfl

/-! ### The bytes of an object -/

theorem head_length (n : Nat) (h : n ≤ 9223372036854775807) : (itoa (n : Int) ++ b!" 0 obj").length ≤ 26 := by
  have := natDec_length_int64 n h
  have e : itoa (n : Int) = natDec n := rfl
  rw [e]
  simp
  omega

theorem lineStart_line (A r : Bytes) (h : A = [] ∨ A.getLast? = some 10) : lineStart (A ++ r) A.length = A.length := by
  unfold lineStart
  rw [List.take_left' rfl]
  rcases h with rfl | h
  · rfl
  · have : A.reverse.takeWhile (fun c => decide (c ≠ 10 ∧ c ≠ 13)) = [] := by
      rw [List.getLast?_eq_head?_reverse] at h
      cases hr : A.reverse with
      | nil => rfl
      | cons c t =>
        rw [hr] at h
        simp at h
        subst h
        rfl
    rw [this]
    rfl

theorem objectBytes_line (A B body : Bytes) (n : Nat) (hn : n ≤ 9223372036854775807) (hA : A = [] ∨ A.getLast? = some 10) (hb : Absent b!"endobj" body)
    (hfirst : index (itoa (n : Int) ++ b!" 0 obj") (A ++ (itoa (n : Int) ++ b!" 0 obj\n" ++ body ++ b!"\nendobj" ++ B)) = some A.length) :
    objectBytes (A ++ (itoa (n : Int) ++ b!" 0 obj\n" ++ body ++ b!"\nendobj" ++ B)) A.length n =
      .ok (itoa (n : Int) ++ b!" 0 obj\n" ++ body ++ b!"\nendobj") := by
  have hl := head_length n hn
  have ecut : ∀ P : Bytes, P = A ++ (itoa (n : Int) ++ b!" 0 obj\n" ++ body ++ b!"\nendobj" ++ B) → index b!"endobj" (P.drop A.length) =
      some ((itoa (n : Int) ++ b!" 0 obj\n" ++ body ++ b!"\n").length) := by
    intro P hP
    rw [hP, List.drop_left' rfl]
    have e : itoa (n : Int) ++ b!" 0 obj\n" ++ body ++ b!"\nendobj" ++ B = (itoa (n : Int) ++ b!" 0 obj\n" ++ (body ++ b!"\n")) ++ (b!"endobj" ++ B) := by simp
    rw [e, index_avoid (avoid_append (avoid_append (avoid_head (not_mem_itoa _ (by decide) (by decide))) (avoid_clash (by decide)))
      (data_avoid (by decide) (by decide) hb)), idx_here _ _ (by decide)]
    simp
  have hline : lineStart (A ++ (itoa (n : Int) ++ b!" 0 obj\n" ++ body ++ b!"\nendobj" ++ B)) A.length = A.length := lineStart_line _ _ hA
  have hdrop : (A ++ (itoa (n : Int) ++ b!" 0 obj\n" ++ body ++ b!"\nendobj" ++ B)).drop A.length = itoa (n : Int) ++ b!" 0 obj\n" ++ body ++ b!"\nendobj" ++ B :=
    List.drop_left' rfl
  have hlt : A.length < (A ++ (itoa (n : Int) ++ b!" 0 obj\n" ++ body ++ b!"\nendobj" ++ B)).length := by simp
  have htake : (itoa (n : Int) ++ b!" 0 obj\n" ++ body ++ b!"\nendobj" ++ B).take ((itoa (n : Int) ++ b!" 0 obj\n" ++ body ++ b!"\n").length + 6) =
      itoa (n : Int) ++ b!" 0 obj\n" ++ body ++ b!"\nendobj" := List.take_left' (by simp; omega)
  have hE := ecut _ rfl
  rw [hdrop] at hE
  generalize hP : A ++ (itoa (n : Int) ++ b!" 0 obj\n" ++ body ++ b!"\nendobj" ++ B) = P at *
  have hwin : window P A.length 2000 2000 = .ok (A.length - 2000, (P.take (min P.length (A.length + 2000))).drop (A.length - 2000)) := by
    unfold window
    have h1 : max 0 ((A.length : Int) - (2000 : Nat)) = ((A.length - 2000 : Nat) : Int) := by omega
    have h2 : min (P.length : Int) ((A.length : Int) + (2000 : Nat)) = ((min P.length (A.length + 2000) : Nat) : Int) := by omega
    simp only [h1, h2]
    rw [if_pos (by omega), Int.toNat_natCast, Int.toNat_natCast]
  rw [index_eq_some_iff] at hfirst
  obtain ⟨_, f1, f2⟩ := hfirst
  have hidx : index (itoa (n : Int) ++ b!" 0 obj") ((P.take (min P.length (A.length + 2000))).drop (A.length - 2000)) = some (A.length - (A.length - 2000)) := by
    rw [index_eq_some_iff]
    refine ⟨by simp; omega, ?_, ?_⟩
    · rw [List.drop_drop, show A.length - 2000 + (A.length - (A.length - 2000)) = A.length by omega, List.drop_take]
      rw [List.prefix_take_iff]
      refine ⟨f1, ?_⟩
      have := f1.length_le
      simp only [List.length_drop] at this
      omega
    · intro j hj hpre
      rw [List.drop_drop, List.drop_take] at hpre
      exact f2 _ (by omega) (hpre.trans (List.take_prefix _ _))
  unfold objectBytes
  simp only
  rw [if_pos (by omega), hwin]
  simp only [Res.bind, hidx, Option.map_some]
  rw [show A.length - (A.length - 2000) + (A.length - 2000) = A.length by omega, hline]
  rw [if_neg (by omega)]
  simp only [Int.toNat_natCast, hdrop, hE, Res.ofOption, Res.bind, htake]

/-! ### The data of a stream, read the old way -/

theorem oldStream_line (xref : Bytes → Nat → Option (Map Int Int)) (A B s : Bytes) (c : Bool) (n : Nat) (hn : n ≤ 9223372036854775807)
    (hA : A = [] ∨ A.getLast? = some 10) (h0 : s ≠ []) (h1 : Absent b!"endobj" s)
    (hl : (A ++ (itoa (n : Int) ++ b!" 0 obj\n" ++ streamText c s ++ b!"\nendobj" ++ B)).length ≤ 9223372036854775807)
    (hb : Absent b!"endobj" (streamText c s))
    (hfirst : index (itoa (n : Int) ++ b!" 0 obj") (A ++ (itoa (n : Int) ++ b!" 0 obj\n" ++ streamText c s ++ b!"\nendobj" ++ B)) = some A.length) :
    oldStream xref (A ++ (itoa (n : Int) ++ b!" 0 obj\n" ++ streamText c s ++ b!"\nendobj" ++ B)) n = .ok s := by
  unfold oldStream findObjectByNumber
  rw [hfirst]
  simp only [Res.ofOption, Res.bind]
  rw [objectBytes_line A B _ n hn hA hb hfirst]
  simp only
  generalize hD : formatDictionary (dictOf c s.length) = D
  have hD0 : D = dictHead c ++ natDec s.length ++ b!" /Type /EmbeddedFile >>" := by rw [← hD, dictOf_text]
  have eobj : itoa (n : Int) ++ b!" 0 obj\n" ++ streamText c s ++ b!"\nendobj" =
      (itoa (n : Int) ++ b!" 0 obj\n" ++ (D ++ b!"\n")) ++ (b!"stream" ++ (10 :: ((s ++ b!"\n") ++ b!"endstream\nendobj"))) := by
    unfold streamText; rw [hD]; simp
  have hlo : ((itoa (n : Int) ++ b!" 0 obj\n" ++ (D ++ b!"\n")) ++ (b!"stream" ++ (10 :: ((s ++ b!"\n") ++ b!"endstream\nendobj")))).length ≤ 9223372036854775807 := by
    rw [← eobj]
    simp only [List.length_append] at hl ⊢
    omega
  rw [eobj]
  have hav : ∀ {y : UInt8} {k : Bytes}, isDigit y = false → y ≠ 45 → clash (y :: k) b!"<</Filter /FlateDecode /Length " = true →
      clash (y :: k) b!"<</Length " = true → clash (y :: k) b!" /Type /EmbeddedFile >>" = true → clash (y :: k) b!"\n" = true → Avoid (y :: k) (D ++ b!"\n") := by
    intro y k a1 a2 a4 a5 a6 a7
    rw [← hD]
    exact avoid_append (head_avoid _ _ a1 a4 a5 a6) (avoid_clash a7)
  have hobj : index b!"obj" ((itoa (n : Int) ++ b!" 0 obj\n" ++ (D ++ b!"\n")) ++ (b!"stream" ++ (10 :: ((s ++ b!"\n") ++ b!"endstream\nendobj")))) =
      some ((itoa (n : Int)).length + 3) := by
    have e : (itoa (n : Int) ++ b!" 0 obj\n" ++ (D ++ b!"\n")) ++ (b!"stream" ++ (10 :: ((s ++ b!"\n") ++ b!"endstream\nendobj"))) =
        (itoa (n : Int) ++ b!" 0 ") ++ (b!"obj" ++ (10 :: (D ++ b!"\n" ++ (b!"stream" ++ (10 :: ((s ++ b!"\n") ++ b!"endstream\nendobj")))))) := by simp
    rw [e, index_avoid (avoid_append (avoid_head (not_mem_itoa _ (by decide) (by decide))) (avoid_clash (by decide))), idx_here _ _ (by decide)]
    simp
  have hdw : (((itoa (n : Int) ++ b!" 0 obj\n" ++ (D ++ b!"\n")) ++ (b!"stream" ++ (10 :: ((s ++ b!"\n") ++ b!"endstream\nendobj")))).drop
      ((itoa (n : Int)).length + 3 + 3)).takeWhile objWs = [10] := by
    have e : (itoa (n : Int) ++ b!" 0 obj\n" ++ (D ++ b!"\n")) ++ (b!"stream" ++ (10 :: ((s ++ b!"\n") ++ b!"endstream\nendobj"))) =
        (itoa (n : Int) ++ b!" 0 obj") ++ (10 :: (D ++ b!"\n" ++ (b!"stream" ++ (10 :: ((s ++ b!"\n") ++ b!"endstream\nendobj"))))) := by simp
    rw [e, List.drop_left' (by simp), hD0]
    cases c <;> rfl
  generalize hN : itoa (n : Int) ++ b!" 0 obj\n" = N at *
  have hNl : N.length = (itoa (n : Int)).length + 3 + 3 + 1 := by rw [← hN]; simp
  have hNa : Avoid b!"stream" N := by
    rw [← hN]; exact avoid_append (avoid_head (not_mem_itoa _ (by decide) (by decide))) (avoid_clash (by decide))
  have hstm : index b!"stream" ((N ++ (D ++ b!"\n")) ++ (b!"stream" ++ (10 :: ((s ++ b!"\n") ++ b!"endstream\nendobj")))) = some (N ++ (D ++ b!"\n")).length := by
    rw [index_avoid (avoid_append hNa (hav (by decide) (by decide) (by decide) (by decide) (by decide) (by decide))), idx_here _ _ (by decide)]
    simp
  have hslice : slice ((N ++ (D ++ b!"\n")) ++ (b!"stream" ++ (10 :: ((s ++ b!"\n") ++ b!"endstream\nendobj")))) N.length (N ++ (D ++ b!"\n")).length = .ok (D ++ b!"\n") := by
    unfold slice
    rw [if_pos (by simp), List.take_left' rfl, List.drop_left' rfl]
  have hd6 : ((N ++ (D ++ b!"\n")) ++ (b!"stream" ++ (10 :: ((s ++ b!"\n") ++ b!"endstream\nendobj")))).drop ((N ++ (D ++ b!"\n")).length + 6) =
      10 :: ((s ++ b!"\n") ++ b!"endstream\nendobj") := by
    rw [← List.drop_drop, List.drop_left' rfl]; rfl
  have haf : afterStream (10 :: ((s ++ b!"\n") ++ b!"endstream\nendobj")) = (s ++ b!"\n") ++ b!"endstream\nendobj" := rfl
  have hlen : searchWith (reKeyNum b!"/Length") (D ++ b!"\n") = some (natDec s.length) := by
    have e : D ++ b!"\n" = (if c then b!"<</Filter /FlateDecode " else b!"<<") ++
        (b!"/Length" ++ (32 :: (natDec s.length ++ (b!" /Type /EmbeddedFile >>" ++ b!"\n")))) := by
      rw [hD0]; unfold dictHead; cases c <;> simp
    rw [e, searchWith_avoid (fun s => Incremental.reKeyNum_prefix _ s)]
    · exact searchWith_here (reKeyNum_natDec (by intro c hc; simp at hc; subst hc; decide))
    · cases c <;> exact avoid_clash (by decide)
  rw [hobj]
  simp only
  rw [hdw, hstm]
  simp only [List.length_singleton]
  rw [← hNl, hslice]
  have hsl : s.length ≤ 9223372036854775807 := by
    simp only [List.length_append, List.length_cons, List.length_nil] at hlo; omega
  have hs0 : 0 < s.length := List.length_pos_iff.2 h0
  simp only [hd6, haf, hlen, Option.map_some, Option.getD_some, atoiClamp_natDec _ hsl]
  rw [if_neg (by simp only [List.length_append, List.length_cons, List.length_nil] at hlo ⊢; omega), if_pos ⟨by omega, by simp⟩, List.append_assoc,
    List.take_left' rfl]

/-! ### Where an object is written -/

theorem objText_shape (env : Writer.Env) (heap : List Writer.Dict) (n : Int) (o : Writer.Obj) :
    ∃ c, (Writer.objText env heap n o).1 = itoa n ++ b!" 0 obj\n" ++ c ++ b!"\nendobj\n" := by
  unfold Writer.objText
  cases o.stream with
  | none => exact ⟨_, rfl⟩
  | some s =>
    have key : ∀ q : Bytes × List Writer.Dict, ∃ c, itoa n ++ b!" 0 obj\n" ++ formatDictionary (q.2.getD (o.dict.getD 0) []) ++ b!"\nstream\n" ++ q.1 ++
        b!"\nendstream" ++ b!"\nendobj\n" = itoa n ++ b!" 0 obj\n" ++ c ++ b!"\nendobj\n" := fun q =>
      ⟨formatDictionary (q.2.getD (o.dict.getD 0) []) ++ b!"\nstream\n" ++ q.1 ++ b!"\nendstream", by simp only [List.append_assoc]⟩
    exact key _

theorem writeObjs_flat (env : Writer.Env) (hc : env.crypt = none) (heap : List Writer.Dict) : ∀ (l : List (Int × Writer.Obj)) (pos : Nat),
    (Writer.writeObjs env (fun _ => false) pos heap l).1 = l.flatMap fun e => (Writer.objText env heap e.1 e.2).1
  | [], _ => rfl
  | (n, o) :: l, pos => by
    have hh : (Writer.objText env heap n o).2 = heap := by unfold Writer.objText; cases o.stream <;> simp [hc]
    simp only [Writer.writeObjs, Bool.false_eq_true, if_false, hh, List.flatMap_cons, writeObjs_flat env hc heap l]

/-- Every object of a written file is at the start of a line. -/
theorem written_line (env : Writer.Env) (hc : env.crypt = none) (w : Writer) (hfit : FileFits env w) (n : Int) (o : Writer.Obj) (ho : w.objects.get n = some o) :
    ∃ A B, A.getLast? = some 10 ∧ (Writer.write env w).1 = A ++ ((Writer.objText env w.heap n o).1 ++ B) := by
  have hm := (Writer.sortedObjs_mem env hfit.fair w n o).2 ho
  obtain ⟨l1, l2, hl⟩ := List.append_of_mem hm
  refine ⟨Writer.header w.pdfVersion ++ l1.flatMap (fun e => (Writer.objText env w.heap e.1 e.2).1), l2.flatMap (fun e => (Writer.objText env w.heap e.1 e.2).1) ++
    (Writer.xrefTable w.nextObjNum (Writer.tableBody env w).2.1 ++ Writer.trailer w ++
      Writer.startxref ((Writer.header w.pdfVersion).length + (Writer.tableBody env w).1.length)), ?_, ?_⟩
  · rcases List.eq_nil_or_concat l1 with rfl | ⟨l, e, rfl⟩
    · have e : Writer.header w.pdfVersion ++ [].flatMap (fun e : Int × Writer.Obj => (Writer.objText env w.heap e.1 e.2).1) =
          (b!"%PDF-" ++ w.pdfVersion ++ b!"\n" ++ [0x25, 0xE2, 0xE3, 0xCF, 0xD3]) ++ [10] := by simp [Writer.header]
      rw [e, List.getLast?_append]
      rfl
    · obtain ⟨c, hc⟩ := objText_shape env w.heap e.1 e.2
      have e : Writer.header w.pdfVersion ++ (l.concat e).flatMap (fun e : Int × Writer.Obj => (Writer.objText env w.heap e.1 e.2).1) =
          (Writer.header w.pdfVersion ++ l.flatMap (fun e : Int × Writer.Obj => (Writer.objText env w.heap e.1 e.2).1) ++ (itoa e.1 ++ b!" 0 obj\n" ++ c ++ b!"\nendobj")) ++ [10] := by
        rw [List.concat_eq_append, List.flatMap_append, List.flatMap_singleton, hc]
        simp
      rw [e, List.getLast?_append]
      rfl
  · rw [Writer.write_table env w hfit.table hfit.plain]
    have : (Writer.tableBody env w).1 = l1.flatMap (fun e => (Writer.objText env w.heap e.1 e.2).1) ++ ((Writer.objText env w.heap n o).1 ++
        l2.flatMap (fun e => (Writer.objText env w.heap e.1 e.2).1)) := by
      unfold Writer.tableBody
      rw [writeObjs_flat env hc, hl]
      simp
    simp only [this, List.append_assoc]

/-! ### The extraction -/

/-- The extraction, from the form object and the streams. -/
theorem extract_any (src : Src) (file : Bytes) (ss : List XStream) (comp : XStream → Bool) (hne : ss ≠ []) (hn : (ss.map (·.name)).Nodup)
    (hk : ∀ x ∈ ss, x.name ∈ known) (hsearch : searchWith reAcroForm file = some (natDec (ss.length + 1)))
    (hloc : Document.getObject src.unz none file ((ss.length : Int) + 1) = .err)
    (hform : ((Res.ofOption (findObjectByNumber src.xref file ((ss.length : Int) + 1))).bind fun i => objectBytes file i ((ss.length : Int) + 1)) = .ok (itoa ((ss.length : Int) + 1) ++ b!" 0 obj\n" ++ formBody (refsOf ss) ++ b!"\nendobj"))
    (hdata : ∀ (i : Nat) (x : XStream), ss[i]? = some x → ∃ d, x.data = some d ∧
      streamInfo src file ((i : Int) + 1) = .ok (some { data := d, num := (i : Int) + 1, compressed := comp x })) :
    ∃ m, extractAll src file = .ok m ∧
      (∀ (i : Nat) (x : XStream), ss[i]? = some x → ∃ d, x.data = some d ∧ m.get x.name = some { data := d, num := (i : Int) + 1, compressed := comp x }) ∧
      ∀ k, k ∉ ss.map (·.name) → m.get k = none := by
  have hlen9 : ss.length ≤ 9 := by
    have := subset_length (ss.map (·.name)) known hn (by intro x hx; obtain ⟨y, hy, rfl⟩ := List.mem_map.1 hx; exact hk y hy)
    simpa [known] using this
  have hkn : ∀ e ∈ refsOf ss, e.1 ∈ known := by
    intro e he
    obtain ⟨i, x, hx, rfl⟩ := refsOf_mem he
    exact hk x (List.mem_of_getElem? hx)
  have hle : ∀ e ∈ refsOf ss, e.2 ≤ 9 := by
    intro e he
    obtain ⟨i, x, hx, rfl⟩ := refsOf_mem he
    have := (List.getElem?_eq_some_iff.1 hx).1
    simp only
    omega
  have hatoi : atoi (natDec (ss.length + 1)) = some ((ss.length : Int) + 1) := by
    have := Manipulate.atoi_itoa ((ss.length + 1 : Nat) : Int) (by omega) (by omega)
    rw [show itoa ((ss.length + 1 : Nat) : Int) = natDec (ss.length + 1) from rfl] at this
    rw [this]
    rfl
  have harr : xfaArray (itoa ((ss.length : Int) + 1) ++ b!" 0 obj\n" ++ formBody (refsOf ss) ++ b!"\nendobj") = some (refsText (refsOf ss) ++ b!"]") := by
    apply array_found _ _ hkn
    have h13 : ∀ k ∈ known, k.length ≤ 13 := by decide
    have hdig : ∀ k : Nat, k ≤ 9 → (natDec k).length ≤ 1 := by
      intro k hk9
      have : ∀ j, j < 10 → (natDec j).length ≤ 1 := by decide
      exact this k (by omega)
    have := refs_short (refsOf ss) 1 fun e he => ⟨h13 _ (hkn e he), hdig _ (hle e he)⟩
    have hl : (refsOf ss).length = ss.length := by simp [refsOf]
    rw [hl] at this
    omega
  have hrefs := refs_found (refsOf ss) (by
    have : ∀ k ∈ known, k ≠ [] ∧ (41 : UInt8) ∉ k := by decide
    exact fun e he => this _ (hkn e he))
  let info : Nat → Info := fun n => match ss[n - 1]? with
    | some x => { data := x.data.getD [], num := n, compressed := comp x }
    | none => { data := [], num := 0, compressed := false }
  have hloop := loop_found src file (refsOf ss) info [] (by
    intro e he
    refine ⟨hkn e he, by have := hle e he; omega, ?_⟩
    obtain ⟨i, x, hx, rfl⟩ := refsOf_mem he
    obtain ⟨d, hd1, hd2⟩ := hdata i x hx
    show streamInfo src file ((i + 1 : Nat) : Int) = .ok (some (info (i + 1)))
    have : info (i + 1) = { data := d, num := ((i : Int) + 1), compressed := comp x } := by
      simp only [info, Nat.add_sub_cancel, hx, hd1, Option.getD_some]
      rfl
    rw [this]
    exact hd2)
  obtain ⟨g1, g2⟩ := foldl_get info (refsOf ss) [] (by rw [refsOf_names]; exact hn)
  refine ⟨(refsOf ss).foldl (fun m e => m.set e.1 (info e.2)) [], ?_, ?_, ?_⟩
  · unfold extractAll
    rw [hsearch]
    simp only [hatoi, Res.ofOption, Res.bind]
    rw [if_pos (by omega), hloc]
    simp only [Res.ofOption, Res.bind] at hform
    simp only [hform, harr, hrefs]
    rw [if_neg]
    · exact hloop
    · intro hnil
      rw [List.map_eq_nil_iff] at hnil
      apply hne
      have hl : (refsOf ss).length = ss.length := by simp [refsOf]
      rw [hnil] at hl
      exact List.length_eq_zero_iff.1 hl.symm
  · intro i x hx
    obtain ⟨d, hd1, _⟩ := hdata i x hx
    refine ⟨d, hd1, ?_⟩
    have hmem : (x.name, i + 1) ∈ refsOf ss := by
      unfold refsOf
      exact List.mem_map.2 ⟨(x, i), List.mem_zipIdx_iff_getElem?.2 hx, rfl⟩
    have := g1 _ hmem
    rw [this]
    simp only [info, Nat.add_sub_cancel, hx, hd1, Option.getD_some]
    rfl
  · intro k hk'
    rw [g2 k (by rw [refsOf_names]; exact hk')]
    rfl

/-- An object of the file, in what is left of it. -/
theorem cut_object {file cut A B body : Bytes} {n : Nat} (hc : LostTable file cut)
    (hf : file = A ++ (itoa (n : Int) ++ b!" 0 obj\n" ++ body ++ b!"\nendobj\n" ++ B)) :
    ∃ B', cut = A ++ (itoa (n : Int) ++ b!" 0 obj\n" ++ body ++ b!"\nendobj" ++ B') := by
  have h1 := hc.objects (A ++ (itoa (n : Int) ++ b!" 0 obj\n" ++ body ++ b!"\n")).length
    ⟨A ++ (itoa (n : Int) ++ b!" 0 obj\n" ++ body ++ b!"\n"), b!"\n" ++ B, by rw [hf]; simp, rfl⟩
  have h2 : (A ++ (itoa (n : Int) ++ b!" 0 obj\n" ++ body ++ b!"\nendobj")) <+: file := ⟨b!"\n" ++ B, by rw [hf]; simp⟩
  obtain ⟨B', hB⟩ := List.prefix_of_prefix_length_le h2 hc.start (by simp only [List.length_append, List.length_cons, List.length_nil] at h1 ⊢; omega)
  exact ⟨B', by rw [← hB]; simp⟩

theorem cut_first {file cut A B body : Bytes} {n : Nat} (hc : cut <+: file) (hcut : cut = A ++ (itoa (n : Int) ++ b!" 0 obj\n" ++ body ++ b!"\nendobj" ++ B))
    (honce : ∀ i j, OccursAt (natDec n ++ b!" 0 obj") file i → OccursAt (natDec n ++ b!" 0 obj") file j → i = j) :
    index (itoa (n : Int) ++ b!" 0 obj") (A ++ (itoa (n : Int) ++ b!" 0 obj\n" ++ body ++ b!"\nendobj" ++ B)) = some A.length := by
  rw [← hcut]
  obtain ⟨r, hr⟩ := hc
  have e : itoa (n : Int) = natDec n := rfl
  have here : (natDec n ++ b!" 0 obj") <+: cut.drop A.length := by
    rw [hcut, List.drop_left' rfl]
    exact ⟨10 :: (body ++ b!"\nendobj" ++ B), by rw [e]; simp⟩
  have occ : ∀ j, (natDec n ++ b!" 0 obj") <+: cut.drop j → OccursAt (natDec n ++ b!" 0 obj") file j := by
    intro j hj
    rw [occursAt_iff (by simp), ← hr]
    exact prefix_drop_append _ hj
  rw [index_eq_some_iff]
  refine ⟨by rw [hcut]; simp, here, ?_⟩
  intro j hj hpre
  have := honce j A.length (occ j hpre) (occ _ here)
  omega

/-- The streams of a built file are found without its table. -/
theorem extract_cut (src : Src) (env : Writer.Env) (hcr : env.crypt = none) (ss : List XStream) (hne : ss ≠ []) (hn : (ss.map (·.name)).Nodup)
    (hk : ∀ x ∈ ss, x.name ∈ known) (hs : ∀ x ∈ ss, ∃ d, Storable env.z src.zip x d ∧ Recoverable (stored env.z x d))
    (hfit : FileFits env (Writer.run env (buildOps ss)))
    (honce : ∀ i j, OccursAt b!"/AcroForm" (buildFromXFA env ss) i → OccursAt b!"/AcroForm" (buildFromXFA env ss) j → i = j)
    (hheads : ∀ n, 1 ≤ n → n ≤ ss.length + 1 → ∀ i j, OccursAt (natDec n ++ b!" 0 obj") (buildFromXFA env ss) i →
      OccursAt (natDec n ++ b!" 0 obj") (buildFromXFA env ss) j → i = j)
    (cut : Bytes) (hc : LostTable (buildFromXFA env ss) cut) :
    ∃ m, extractAll src cut = .ok m ∧
      (∀ (i : Nat) (x : XStream), ss[i]? = some x → ∃ d, x.data = some d ∧ m.get x.name = some { data := d, num := (i : Int) + 1, compressed := x.compress }) ∧
      ∀ k, k ∉ ss.map (·.name) → m.get k = none := by
  obtain ⟨ho1, ho2, ho3⟩ := built_objects env src.zip ss fun x hx => (hs x hx).imp fun _ h => h.1
  have hline := fun n o ho => written_line env hcr _ hfit n o ho
  have hsize := hfit.size
  have hlen9 : ss.length ≤ 9 := by
    have := subset_length (ss.map (·.name)) known hn (by intro x hx; obtain ⟨y, hy, rfl⟩ := List.mem_map.1 hx; exact hk y hy)
    simpa [known] using this
  have hkn : ∀ e ∈ refsOf ss, e.1 ∈ known := by
    intro e he
    obtain ⟨i, x, hx, rfl⟩ := refsOf_mem he
    exact hk x (List.mem_of_getElem? hx)
  unfold buildFromXFA at honce hheads hc
  generalize hW : Writer.run env (buildOps ss) = W at *
  generalize hfile : (Writer.write env W).1 = file at *
  have hcl : cut.length ≤ 9223372036854775807 := by have := hc.start.length_le; omega
  refine extract_any src cut ss (·.compress) hne hn hk ?_ (no_location _ _ _ hc.table) ?_ ?_
  · -- the reference to the form
    obtain ⟨A, B, _, hf⟩ := hline _ _ ho3
    have hf' : file = A ++ (itoa ((ss.length + 2 : Nat) : Int) ++ b!" 0 obj\n" ++ (b!"<</Type/Catalog/AcroForm " ++ natDec (ss.length + 1) ++ b!" 0 R>>") ++ b!"\nendobj\n" ++ B) := by
      rw [hf]; simp [Writer.objText]
    obtain ⟨B', hcut⟩ := cut_object hc hf'
    have e : cut = (A ++ (itoa ((ss.length + 2 : Nat) : Int) ++ b!" 0 obj\n" ++ b!"<</Type/Catalog")) ++
        (b!"/AcroForm" ++ (32 :: (natDec (ss.length + 1) ++ (b!" 0 R" ++ (b!">>\nendobj" ++ B'))))) := by
      rw [hcut]; simp
    generalize A ++ (itoa ((ss.length + 2 : Nat) : Int) ++ b!" 0 obj\n" ++ b!"<</Type/Catalog") = P at e
    obtain ⟨r, hr⟩ := hc.start
    have hP : NoOcc b!"/AcroForm" P := by
      intro j hj
      have hj' : OccursAt b!"/AcroForm" file j := by
        rw [occursAt_iff (by decide), ← hr, e, List.append_assoc]
        exact prefix_drop_append _ hj
      have hi' : OccursAt b!"/AcroForm" file P.length := ⟨P, (32 :: (natDec (ss.length + 1) ++ (b!" 0 R" ++ (b!">>\nendobj" ++ B')))) ++ r, by rw [← hr, e]; simp only [List.append_assoc], rfl⟩
      have := honce j P.length hj' hi'
      subst this
      rw [List.drop_length] at hj
      simp at hj
    rw [e, Manipulate.searchWith_first (fun s => reAcroForm_prefix) (by intro d hd; simp at hd; subst hd; decide) hP]
    exact searchWith_here (reAcroForm_here _ _)
  · -- the form
    obtain ⟨A, B, hA, hf⟩ := hline _ _ ho2
    have hf' : file = A ++ (itoa ((ss.length + 1 : Nat) : Int) ++ b!" 0 obj\n" ++ formBody (refsOf ss) ++ b!"\nendobj\n" ++ B) := by
      rw [hf]; simp [Writer.objText]
    obtain ⟨B', hcut⟩ := cut_object hc hf'
    have hfirst := cut_first hc.start hcut (hheads (ss.length + 1) (by omega) (by omega))
    have hb : Absent b!"endobj" (formBody (refsOf ss)) := by
      rw [absent_iff (by decide)]
      have := refs_plain (refsOf ss) hkn 106 (by decide) (by decide) (by decide)
      refine noOcc_of_mem (c := 106) (by decide) ?_
      unfold formBody
      simp only [List.mem_append, not_or]
      exact ⟨⟨by decide, this⟩, by decide⟩
    have hO := objectBytes_line A B' (formBody (refsOf ss)) (ss.length + 1) (by omega) (.inr hA) hb hfirst
    rw [← hcut] at hfirst hO
    have hcast : ((ss.length + 1 : Nat) : Int) = (ss.length : Int) + 1 := rfl
    rw [hcast] at hfirst hO
    unfold findObjectByNumber
    rw [hfirst]
    simp only [Res.ofOption, Res.bind]
    exact hO
  · -- the streams
    intro i x hx
    obtain ⟨d, hd, hrec⟩ := hs x (List.mem_of_getElem? hx)
    refine ⟨d, hd.data, ?_⟩
    have hi : i < ss.length := (List.getElem?_eq_some_iff.1 hx).1
    obtain ⟨a, _, ha, ho⟩ := ho1 i x hx d hd
    obtain ⟨A, B, hA, hf⟩ := hline _ _ ho
    have hf' : file = A ++ (itoa ((i + 1 : Nat) : Int) ++ b!" 0 obj\n" ++ streamText x.compress (stored env.z x d) ++ b!"\nendobj\n" ++ B) := by
      rw [hf]
      simp only [Writer.objText, hcr, Option.getD_some, ha]
      simp [streamText]
    obtain ⟨B', hcut⟩ := cut_object hc hf'
    have hfirst := cut_first hc.start hcut (hheads (i + 1) (by omega) (by omega))
    have hold := oldStream_line src.xref A B' (stored env.z x d) x.compress (i + 1) (by omega) (.inr hA) hrec.nonempty hd.delimited.2 (by rw [← hcut]; exact hcl)
      (streamText_delimitable _ hd.delimited.1 hd.delimited.2).1 hfirst
    rw [← hcut] at hold
    have hcast : ((i + 1 : Nat) : Int) = (i : Int) + 1 := rfl
    rw [hcast] at hold
    have h1 : index b!"stream" (stored env.z x d) = none := noOcc_iff_index.1 ((absent_iff (by decide)).1 hrec.noStream)
    have h2 : index b!"<<" (stored env.z x d) = none := noOcc_iff_index.1 ((absent_iff (by decide)).1 hrec.noDict)
    unfold streamInfo
    rw [no_location _ _ _ hc.table]
    simp only [hold]
    unfold streamDataOf
    rw [h1]
    simp only [h2]
    cases hcm : x.compress with
    | true =>
      have : stored env.z x d = env.z d := by unfold XFA.stored; rw [hcm]; rfl
      rw [this]
      unfold decompress
      rw [hd.inverse hcm]
    | false =>
      have : stored env.z x d = d := by unfold XFA.stored; rw [hcm]; rfl
      rw [this]
      unfold decompress
      rw [hd.plain.1, hd.plain.2]

end Pdfer.XFA
