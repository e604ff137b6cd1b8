import Verif.Proofs.XFAReplace
import Verif.Proofs.Standalone
import Verif.Proofs.FieldText
import Verif.Spec.Standalone

/-! A PDF built around XFA streams is read back. -/

namespace Pdfer.XFA

open Pdfer.Go Pdfer.Spec Pdfer.Spec.XFA Pdfer.Document Pdfer.Incremental Pdfer.Crypto
open Pdfer.Writer (Writer formatDictionary)

/-! ### The stream objects -/

/-- The dictionary of a stored stream. -/
def dictOf (compress : Bool) (k : Nat) : Writer.Dict :=
  if compress then Map.set (Map.set ([(b!"Type", .str b!"/EmbeddedFile")] : Writer.Dict) b!"Filter" (.str b!"/FlateDecode")) b!"Length" (.int k)
  else Map.set ([(b!"Type", .str b!"/EmbeddedFile")] : Writer.Dict) b!"Length" (.int k)

/-- Its text before the length. -/
def dictHead (compress : Bool) : Bytes := if compress then b!"<</Filter /FlateDecode /Length " else b!"<</Length "

theorem dictOf_text (c : Bool) (k : Nat) : formatDictionary (dictOf c k) = dictHead c ++ natDec k ++ b!" /Type /EmbeddedFile >>" := by
  cases c <;>
    simp [dictHead, dictOf, formatDictionary, Writer.formatDictOrd, Map.set, Writer.formatValue, Writer.formatEntries, Writer.formatPair, Writer.renderEntries,
      Writer.sortBy, Writer.insertBy, Writer.bytesLe, Writer.slashKey, itoa]

/-- The body of a stream object. -/
def streamText (c : Bool) (s : Bytes) : Bytes := formatDictionary (dictOf c s.length) ++ b!"\nstream\n" ++ s ++ b!"\nendstream"

theorem data_avoid {pat s : Bytes} (h10 : (10 : UInt8) ∉ pat) (hp : pat ≠ []) (h : Absent pat s) : Avoid pat (s ++ b!"\n") :=
  Builder.avoid_sep h10 hp (by rw [← Manipulate.noOcc_iff_infix]; exact (absent_iff hp).1 h)

theorem head_avoid (c : Bool) (k : Nat) {x : UInt8} {key : Bytes} (hx : isDigit x = false) (h1 : clash (x :: key) b!"<</Filter /FlateDecode /Length " = true)
    (h2 : clash (x :: key) b!"<</Length " = true) (h3 : clash (x :: key) b!" /Type /EmbeddedFile >>" = true) :
    Avoid (x :: key) (formatDictionary (dictOf c k)) := by
  rw [dictOf_text]
  refine avoid_append (avoid_append ?_ (avoid_head (not_mem_natDec hx _))) (avoid_clash h3)
  cases c
  · exact avoid_clash h2
  · exact avoid_clash h1

theorem streamText_delimitable (c : Bool) {s : Bytes} (h1 : Absent b!"endstream" s) (h2 : Absent b!"endobj" s) : Delimitable (streamText c s) := by
  have key : ∀ {x : UInt8} {k : Bytes}, isDigit x = false → clash (x :: k) b!"<</Filter /FlateDecode /Length " = true → clash (x :: k) b!"<</Length " = true →
      clash (x :: k) b!" /Type /EmbeddedFile >>" = true → clash (x :: k) b!"\nstream\n" = true → (10 : UInt8) ∉ x :: k → Absent (x :: k) s →
      Avoid (x :: k) (formatDictionary (dictOf c s.length) ++ b!"\nstream\n" ++ (s ++ b!"\n")) :=
    fun a1 a2 a3 a4 a5 a6 a7 => avoid_append (avoid_append (head_avoid c _ a1 a2 a3 a4) (avoid_clash a5)) (data_avoid a6 (by simp) a7)
  refine ⟨?_, ?_, .inr ⟨formatDictionary (dictOf c s.length) ++ b!"\nstream\n" ++ s, rfl, ?_⟩⟩
  · rw [absent_iff (by decide)]
    apply avoid_noOcc _ (by decide)
    have e : streamText c s = (formatDictionary (dictOf c s.length) ++ b!"\nstream\n" ++ (s ++ b!"\n")) ++ b!"endstream" := by unfold streamText; simp
    rw [e]
    exact avoid_append (key (by decide) (by decide) (by decide) (by decide) (by decide) (by decide) h2) (avoid_clash (by decide))
  · intro b hb
    unfold streamText at hb
    rw [dictOf_text] at hb
    cases c <;> simp [dictHead] at hb <;> subst hb <;> decide
  · rw [absent_iff (by decide)]
    have := avoid_noOcc (key (x := 101) (k := b!"ndstream") (by decide) (by decide) (by decide) (by decide) (by decide) (by decide) h1) (by decide)
    exact noOcc_prefix (s := b!"\n") (by simpa using this) (by decide)

/-- Reading the data of a stream object. -/
theorem stream_data (zip : Zip) (z : Bytes → Bytes) (n : Int) (x : XStream) (d : Bytes) (h : Storable z zip x d)
    (hl : (itoa n ++ b!" 0 obj\n" ++ streamText x.compress (stored z x d) ++ b!"\nendobj").length ≤ 9223372036854775807) :
    streamDataOf zip (itoa n ++ b!" 0 obj\n" ++ streamText x.compress (stored z x d) ++ b!"\nendobj") = .ok d := by
  generalize hS : stored z x d = s at hl
  have h1 : Absent b!"endstream" s := by rw [← hS]; exact h.delimited.1
  generalize hH : itoa n ++ b!" 0 obj\n" ++ (formatDictionary (dictOf x.compress s.length) ++ b!"\n") = H
  have eobj : itoa n ++ b!" 0 obj\n" ++ streamText x.compress s ++ b!"\nendobj" = H ++ (b!"stream" ++ (10 :: ((s ++ b!"\n") ++ b!"endstream\nendobj"))) := by
    rw [← hH]; unfold streamText; simp
  rw [eobj] at hl ⊢
  have hav : ∀ {y : UInt8} {k : Bytes}, isDigit y = false → y ≠ 45 → clash (y :: k) b!" 0 obj\n" = true → clash (y :: k) b!"<</Filter /FlateDecode /Length " = true →
      clash (y :: k) b!"<</Length " = true → clash (y :: k) b!" /Type /EmbeddedFile >>" = true → clash (y :: k) b!"\n" = true → Avoid (y :: k) H := by
    intro y k a1 a2 a3 a4 a5 a6 a7
    rw [← hH]
    exact avoid_append (avoid_append (avoid_head (not_mem_itoa _ a1 a2)) (avoid_clash a3)) (avoid_append (head_avoid _ _ a1 a4 a5 a6) (avoid_clash a7))
  have hi : index b!"stream" (H ++ (b!"stream" ++ (10 :: ((s ++ b!"\n") ++ b!"endstream\nendobj")))) = some H.length := by
    rw [index_avoid (hav (by decide) (by decide) (by decide) (by decide) (by decide) (by decide) (by decide)), idx_here _ _ (by decide)]
    simp
  have hdrop : (H ++ (b!"stream" ++ (10 :: ((s ++ b!"\n") ++ b!"endstream\nendobj")))).drop H.length = b!"stream" ++ (10 :: ((s ++ b!"\n") ++ b!"endstream\nendobj")) :=
    List.drop_left' rfl
  have he : index b!"endstream" (b!"stream" ++ (10 :: ((s ++ b!"\n") ++ b!"endstream\nendobj"))) = some (7 + (s.length + 1)) := by
    have e : b!"stream" ++ (10 :: ((s ++ b!"\n") ++ b!"endstream\nendobj")) = (b!"stream\n" ++ (s ++ b!"\n")) ++ (b!"endstream" ++ b!"\nendobj") := by simp
    rw [e, index_avoid (avoid_append (avoid_clash (by decide)) (data_avoid (by decide) (by decide) h1)), idx_here _ _ (by decide)]
    simp
    omega
  have hd6 : (H ++ (b!"stream" ++ (10 :: ((s ++ b!"\n") ++ b!"endstream\nendobj")))).drop (H.length + 6) = 10 :: ((s ++ b!"\n") ++ b!"endstream\nendobj") := by
    rw [← List.drop_drop, hdrop]; rfl
  have haf : afterStream (10 :: ((s ++ b!"\n") ++ b!"endstream\nendobj")) = (s ++ b!"\n") ++ b!"endstream\nendobj" := rfl
  have htk : (H ++ (b!"stream" ++ (10 :: ((s ++ b!"\n") ++ b!"endstream\nendobj")))).take H.length = H := List.take_left' rfl
  have hlen : searchWith (reKeyNum b!"/Length") H = some (natDec s.length) := by
    have e : H = (itoa n ++ b!" 0 obj\n" ++ (if x.compress then b!"<</Filter /FlateDecode " else b!"<<")) ++
        (b!"/Length" ++ (32 :: (natDec s.length ++ (b!" /Type /EmbeddedFile >>" ++ b!"\n")))) := by
      rw [← hH, dictOf_text]; unfold dictHead; cases x.compress <;> simp
    rw [e, searchWith_avoid (fun s => Incremental.reKeyNum_prefix _ s)]
    · exact searchWith_here (reKeyNum_natDec (by intro c hc; simp at hc; subst hc; decide))
    · refine avoid_append (avoid_append (avoid_head (not_mem_itoa _ (by decide) (by decide))) (avoid_clash (by decide))) ?_
      cases x.compress <;> exact avoid_clash (by decide)
  have hsl : s.length ≤ 9223372036854775807 := by
    simp only [List.length_append, List.length_cons, List.length_nil] at hl; omega
  have hcont : contains H b!"/FlateDecode" = x.compress := by
    cases hc : x.compress with
    | true =>
      rw [Manipulate.contains_iff, ← hH, dictOf_text, hc]
      exact ⟨itoa n ++ b!" 0 obj\n" ++ b!"<</Filter ", b!" /Length " ++ natDec s.length ++ b!" /Type /EmbeddedFile >>" ++ b!"\n", by simp [dictHead]⟩
    | false =>
      rw [← Bool.not_eq_true, Manipulate.contains_iff, ← Manipulate.noOcc_iff_infix]
      apply avoid_noOcc _ (by decide)
      rw [← hH, dictOf_text, hc]
      exact avoid_append (avoid_append (avoid_head (not_mem_itoa _ (by decide) (by decide))) (avoid_clash (by decide)))
        (avoid_append (avoid_append (avoid_append (avoid_clash (by decide)) (avoid_head (not_mem_natDec (by decide) _))) (avoid_clash (by decide))) (avoid_clash (by decide)))
  unfold streamDataOf
  rw [hi]
  simp only
  rw [hdrop, he]
  simp only [hd6, haf, htk, hlen, atoiClamp_natDec _ hsl, hcont]
  have hst : (H ++ (b!"stream" ++ (10 :: ((s ++ b!"\n") ++ b!"endstream\nendobj")))).length - ((s ++ b!"\n") ++ b!"endstream\nendobj").length = H.length + 7 := by
    simp; omega
  rw [hst, if_neg (by simp at hl; omega), if_pos (by simp; omega)]
  have htake : ((s ++ b!"\n") ++ b!"endstream\nendobj").take s.length = s := by rw [List.append_assoc]; exact List.take_left' rfl
  rw [htake]
  simp only [Res.bind]
  cases hc : x.compress with
  | true =>
    have hs : s = z d := by rw [← hS]; unfold XFA.stored; rw [hc]; rfl
    rw [if_pos rfl, hs]
    unfold decompress
    rw [h.inverse hc]
  | false =>
    have hs : s = d := by rw [← hS]; unfold XFA.stored; rw [hc]; rfl
    rw [if_neg (by simp), hs]

/-! ### The array of the form -/

/-- The references of the form. -/
def refsText (l : List (Bytes × Nat)) : Bytes := l.flatMap fun e => b!"(" ++ e.1 ++ b!")" ++ natDec e.2 ++ b!" 0 R"

theorem ref_here (name : Bytes) (k : Nat) (rest : Bytes) (hn : name ≠ []) (h41 : (41 : UInt8) ∉ name) :
    reStreamRef ((b!"(" ++ name ++ b!")" ++ natDec k ++ b!" 0 R") ++ rest) = some ((name, natDec k), rest) := by
  have e : (b!"(" ++ name ++ b!")" ++ natDec k ++ b!" 0 R") ++ rest = b!"(" ++ (name ++ (41 :: (natDec k ++ (b!" 0 R" ++ rest)))) := by simp
  rw [e]
  unfold reStreamRef
  rw [reLit_append]
  have htw : (name ++ (41 :: (natDec k ++ (b!" 0 R" ++ rest)))).takeWhile (fun c => decide (c ≠ 41)) = name := by
    rw [List.takeWhile_append_of_pos (by intro c hc; simp; rintro rfl; exact h41 hc)]
    simp
  have hdw : (name ++ (41 :: (natDec k ++ (b!" 0 R" ++ rest)))).dropWhile (fun c => decide (c ≠ 41)) = 41 :: (natDec k ++ (b!" 0 R" ++ rest)) := by
    rw [List.dropWhile_append_of_pos (by intro c hc; simp; rintro rfl; exact h41 hc)]
    simp
  simp only [Option.bind_some, htw, hdw]
  rw [if_neg hn]
  have h1 : reLit b!")" (41 :: (natDec k ++ (b!" 0 R" ++ rest))) = some (natDec k ++ (b!" 0 R" ++ rest)) := reLit_append b!")" _
  have h2 : reSp0 (natDec k ++ (b!" 0 R" ++ rest)) = natDec k ++ (b!" 0 R" ++ rest) := by
    unfold reSp0
    cases hk : natDec k with
    | nil => exact absurd hk (natDec_ne_nil k)
    | cons c r =>
      have hc : isDigit c = true := natDec_head k [] c (by simp [hk])
      rw [List.cons_append, List.dropWhile_cons]
      rw [isDigit_not_reSpace hc]
      simp
  have h3 : reNum (natDec k ++ (b!" 0 R" ++ rest)) = some (natDec k, b!" 0 R" ++ rest) :=
    reNum_natDec (by intro c hc; simp at hc; subst hc; decide)
  have h4 : reSp1 (b!" 0 R" ++ rest) = some (b!"0 R" ++ rest) := rfl
  have h5 : reNum (b!"0 R" ++ rest) = some (b!"0", b!" R" ++ rest) := rfl
  have h6 : reSp1 (b!" R" ++ rest) = some (b!"R" ++ rest) := rfl
  simp only [h1, Option.bind_some, h2, h3, h4, h5, h6, reLit_append b!"R" rest, Option.map_some]

theorem refs_found : ∀ (l : List (Bytes × Nat)), (∀ e ∈ l, e.1 ≠ [] ∧ (41 : UInt8) ∉ e.1) →
    Forms.findAll reStreamRef 0 (refsText l ++ b!"]") = l.map fun e => (e.1, natDec e.2)
  | [], _ => by decide
  | e :: l, h => by
    have ih := refs_found l fun x hx => h x (List.mem_cons_of_mem _ hx)
    have h0 := h e (List.mem_cons_self ..)
    have : refsText (e :: l) ++ b!"]" = (b!"(" ++ e.1 ++ b!")" ++ natDec e.2 ++ b!" 0 R") ++ (refsText l ++ b!"]") := by
      unfold refsText; simp
    rw [this, Forms.findAll_here (by simp) (ref_here e.1 e.2 _ h0.1 h0.2), ih]
    rfl

/-- The text of the form object. -/
def formBody (l : List (Bytes × Nat)) : Bytes := b!"<</Fields[]/XFA[" ++ refsText l ++ b!"]>>"

theorem bracketEnd_flat {a r : Bytes} (h1 : (91 : UInt8) ∉ a) (h2 : (93 : UInt8) ∉ a) : bracketEnd 1 (a ++ 93 :: r) = some a.length := by
  induction a with
  | nil => simp [bracketEnd]
  | cons c a ih =>
    simp only [List.mem_cons, not_or] at h1 h2
    rw [List.cons_append, bracketEnd, if_neg (Ne.symm h1.1), if_neg (Ne.symm h2.1), ih h1.2 h2.2]
    simp

theorem dictClose_flat {a r : Bytes} (h1 : (60 : UInt8) ∉ a) (h2 : (62 : UInt8) ∉ a) : dictClose 1 (a ++ 62 :: 62 :: r) = some a.length := by
  induction a with
  | nil => simp [dictClose]
  | cons c a ih =>
    simp only [List.mem_cons, not_or] at h1 h2
    have : dictClose 1 (c :: (a ++ 62 :: 62 :: r)) = (dictClose 1 (a ++ 62 :: 62 :: r)).map (· + 1) := by
      rw [dictClose]
      · rintro _ rfl; exact absurd rfl h1.1
      · rintro _ rfl; exact absurd rfl h2.1
    rw [List.cons_append, this, ih h1.2 h2.2]
    simp

/-- No byte of a reference text is a bracket. -/
theorem refs_plain (l : List (Bytes × Nat)) (h : ∀ e ∈ l, e.1 ∈ known) (c : UInt8) (hd : isDigit c = false) (hk : ∀ k ∈ known, c ∉ k) (hc : c ∉ b!"() 0 R") :
    c ∉ refsText l := by
  unfold refsText
  rw [List.mem_flatMap]
  rintro ⟨e, he, hm⟩
  simp only [List.mem_append] at hm
  rcases hm with (((hm | hm) | hm) | hm) | hm
  · exact hc (by revert hm; simp; rintro rfl; simp)
  · exact hk _ (h e he) hm
  · exact hc (by revert hm; simp; rintro rfl; simp)
  · exact not_mem_natDec hd _ hm
  · exact hc (by revert hm; simp; rintro (h | h | h | h) <;> simp [h])

theorem array_found (n : Int) (l : List (Bytes × Nat)) (h : ∀ e ∈ l, e.1 ∈ known) (hlen : (refsText l).length < 10000) :
    xfaArray (itoa n ++ b!" 0 obj\n" ++ formBody l ++ b!"\nendobj") = some (refsText l ++ b!"]") := by
  have p91 := refs_plain l h 91 (by decide) (by decide) (by decide)
  have p93 := refs_plain l h 93 (by decide) (by decide) (by decide)
  have p60 := refs_plain l h 60 (by decide) (by decide) (by decide)
  have p62 := refs_plain l h 62 (by decide) (by decide) (by decide)
  generalize hR : refsText l = R at *
  generalize hH : itoa n ++ b!" 0 obj\n" = H
  have e : itoa n ++ b!" 0 obj\n" ++ formBody l ++ b!"\nendobj" = H ++ (60 :: 60 :: ((b!"/Fields[]/XFA[" ++ R ++ b!"]") ++ 62 :: 62 :: b!"\nendobj")) := by
    rw [← hH, formBody, hR]; simp
  have e := e
  rw [hH] at e
  rw [e]
  generalize hT : H ++ (60 :: 60 :: ((b!"/Fields[]/XFA[" ++ R ++ b!"]") ++ 62 :: 62 :: b!"\nendobj")) = T
  have hi : index b!"<<" T = some H.length := by
    rw [← hT, ← hH, index_avoid (avoid_append (avoid_head (not_mem_itoa _ (by decide) (by decide))) (avoid_clash (by decide)))]
    show (index b!"<<" (b!"<<" ++ _)).map _ = _
    rw [idx_here _ _ (by decide)]
    simp
  have hd : T.drop H.length = 60 :: 60 :: ((b!"/Fields[]/XFA[" ++ R ++ b!"]") ++ 62 :: 62 :: b!"\nendobj") := by rw [← hT]; exact List.drop_left' rfl
  have hc : dictClose 0 (T.drop H.length) = some ((b!"/Fields[]/XFA[" ++ R ++ b!"]").length + 2) := by
    rw [hd, dictClose, dictClose_flat (by simp [p60]) (by simp [p62])]
    simp
  have ht : (T.drop H.length).take ((b!"/Fields[]/XFA[" ++ R ++ b!"]").length + 2 + 2) = b!"<</Fields[]" ++ (b!"/XFA" ++ (b!"[" ++ R ++ b!"]>>")) := by
    rw [hd]
    have : 60 :: 60 :: ((b!"/Fields[]/XFA[" ++ R ++ b!"]") ++ 62 :: 62 :: b!"\nendobj") = (b!"<</Fields[]" ++ (b!"/XFA" ++ (b!"[" ++ R ++ b!"]>>"))) ++ b!"\nendobj" := by simp
    rw [this]
    exact List.take_left' (by simp)
  have hx : index b!"/XFA" (b!"<</Fields[]" ++ (b!"/XFA" ++ (b!"[" ++ R ++ b!"]>>"))) = some 11 := by
    rw [index_avoid (a := b!"<</Fields[]") (avoid_clash (by decide)), idx_here _ _ (by decide)]
    rfl
  have hk : xfaKey T = some (11 + H.length) := by
    unfold xfaKey
    rw [hi]
    simp only [Option.bind_some, hc, ht, hx, Option.map_some, Option.orElse_some]
  have hd2 : T.drop (11 + H.length) = b!"/XFA" ++ (b!"[" ++ (R ++ (93 :: b!">>\nendobj"))) := by
    rw [Nat.add_comm, ← List.drop_drop, hd]
    have : 60 :: 60 :: ((b!"/Fields[]/XFA[" ++ R ++ b!"]") ++ 62 :: 62 :: b!"\nendobj") = b!"<</Fields[]" ++ (b!"/XFA" ++ (b!"[" ++ (R ++ (93 :: b!">>\nendobj")))) := by simp
    rw [this]
    exact List.drop_left' rfl
  have hb : index b!"[" (T.drop (11 + H.length)) = some 4 := by
    rw [hd2, index_avoid (a := b!"/XFA") (avoid_clash (by decide)), idx_here _ _ (by decide)]
    rfl
  have hd3 : T.drop (11 + H.length + 4 + 1) = R ++ (93 :: b!">>\nendobj") := by
    rw [Nat.add_assoc (11 + H.length), ← List.drop_drop, hd2]; rfl
  unfold xfaArray
  rw [hk]
  simp only [Option.bind_some, hb, hd3]
  have ht2 : (R ++ (93 :: b!">>\nendobj")).take 10000 = R ++ 93 :: ((b!">>\nendobj").take (10000 - R.length - 1)) := by
    rw [List.take_append, List.take_of_length_le (by omega)]
    congr 1
    have : 10000 - R.length = (10000 - R.length - 1) + 1 := by omega
    rw [this, List.take_succ_cons]
    simp
  rw [ht2, bracketEnd_flat p91 p93]
  simp only [Option.map_some, Option.some.injEq]
  have : R ++ (93 :: b!">>\nendobj") = (R ++ b!"]") ++ b!">>\nendobj" := by simp
  rw [this]
  exact List.take_left' (by simp)

/-! ### The loop -/

theorem loop_found (src : Src) (pdf : Bytes) : ∀ (l : List (Bytes × Nat)) (info : Nat → Info) (m : Map Bytes Info),
    (∀ e ∈ l, e.1 ∈ known ∧ e.2 ≤ 9223372036854775807 ∧ streamInfo src pdf (e.2 : Int) = .ok (some (info e.2))) →
    streamLoop src pdf m (l.map fun e => (e.1, natDec e.2)) = .ok (l.foldl (fun m e => m.set e.1 (info e.2)) m)
  | [], _, _, _ => rfl
  | e :: l, info, m, h => by
    obtain ⟨h1, h2, h3⟩ := h e (List.mem_cons_self ..)
    have ha : atoi (natDec e.2) = some (e.2 : Int) := Manipulate.atoi_itoa e.2 (by omega) (by omega)
    rw [List.map_cons, List.foldl_cons, streamLoop, ha]
    simp only [h3, Res.bind]
    rw [if_pos h1]
    exact loop_found src pdf l info _ fun x hx => h x (List.mem_cons_of_mem _ hx)

theorem foldl_get (info : Nat → Info) : ∀ (l : List (Bytes × Nat)) (m : Map Bytes Info), (l.map (·.1)).Nodup →
    (∀ e ∈ l, (l.foldl (fun m e => m.set e.1 (info e.2)) m).get e.1 = some (info e.2)) ∧
    ∀ k, k ∉ l.map (·.1) → (l.foldl (fun m e => m.set e.1 (info e.2)) m).get k = m.get k
  | [], m, _ => ⟨by simp, by simp⟩
  | x :: l, m, h => by
    rw [List.map_cons, List.nodup_cons] at h
    obtain ⟨i1, i2⟩ := foldl_get info l (m.set x.1 (info x.2)) h.2
    constructor
    · intro e he
      rw [List.foldl_cons]
      rcases List.mem_cons.1 he with rfl | he'
      · rw [i2 _ h.1, Map.get_set, if_pos rfl]
      · exact i1 e he'
    · intro k hk
      rw [List.map_cons, List.mem_cons, not_or] at hk
      rw [List.foldl_cons, i2 k hk.2, Map.get_set, if_neg hk.1]

/-! ### The writer -/

/-- The data of a stream, with its position in the list. -/
def Holds (env : Writer.Env) (zip : Zip) (w : Writer) (i : Nat) (x : XStream) (d : Bytes) : Prop :=
  ∃ a, a < w.heap.length ∧ w.heap.getD a [] = dictOf x.compress (XFA.stored env.z x d).length ∧
    w.objects.get ((i : Int) + 1) = some { content := none, stream := some (XFA.stored env.z x d), dict := some a }

theorem holds_mono {env : Writer.Env} {zip : Zip} {w w' : Writer} {i : Nat} {x : XStream} {d : Bytes} (h : Holds env zip w i x d)
    (ho : w'.objects.get ((i : Int) + 1) = w.objects.get ((i : Int) + 1)) (hh : ∃ t, w'.heap = w.heap ++ t) : Holds env zip w' i x d := by
  obtain ⟨a, h1, h2, h3⟩ := h
  obtain ⟨t, ht⟩ := hh
  refine ⟨a, by rw [ht, List.length_append]; omega, ?_, by rw [ho]; exact h3⟩
  rw [ht, List.getD_eq_getElem?_getD, List.getElem?_append_left h1, ← List.getD_eq_getElem?_getD]
  exact h2

/-- The calls for the streams. -/
def streamOps (ss : List XStream) : List Writer.Op := ss.map fun s => .addStream (.fresh [(b!"Type", .str b!"/EmbeddedFile")]) s.data s.compress

theorem streams_run (env : Writer.Env) (zip : Zip) : ∀ ss : List XStream, (∀ x ∈ ss, ∃ d, Storable env.z zip x d) →
    (Writer.run env (streamOps ss)).nextObjNum = (ss.length : Int) + 1 ∧
    ∀ (i : Nat) (x : XStream), ss[i]? = some x → ∀ d, Storable env.z zip x d → Holds env zip (Writer.run env (streamOps ss)) i x d := by
  intro ss
  induction ss using snoc_induction with
  | nil => intro _; exact ⟨rfl, by simp⟩
  | snoc ss y ih =>
    intro h
    obtain ⟨i1, i2⟩ := ih fun x hx => h x (by simp [hx])
    have e : streamOps (ss ++ [y]) = streamOps ss ++ [.addStream (.fresh [(b!"Type", .str b!"/EmbeddedFile")]) y.data y.compress] := by simp [streamOps]
    rw [e, Writer.run_append]
    generalize Writer.run env (streamOps ss) = w at i1 i2
    obtain ⟨dy, hy⟩ := h y (by simp)
    show (Writer.addStreamObject env w (.fresh [(b!"Type", .str b!"/EmbeddedFile")]) y.data y.compress).1.nextObjNum = _ ∧
      ∀ (i : Nat) (x : XStream), (ss ++ [y])[i]? = some x → ∀ d, Storable env.z zip x d →
        Holds env zip (Writer.addStreamObject env w (.fresh [(b!"Type", .str b!"/EmbeddedFile")]) y.data y.compress).1 i x d
    unfold Writer.addStreamObject
    refine ⟨by simp [i1], ?_⟩
    intro i x hx d hd
    by_cases hi : i < ss.length
    · rw [List.getElem?_append_left hi] at hx
      refine holds_mono (i2 i x hx d hd) ?_ ⟨_, rfl⟩
      show (Map.set w.objects w.nextObjNum _).get _ = _
      rw [Map.get_set, if_neg (by rw [i1]; omega)]
    · rw [List.getElem?_append_right (by omega)] at hx
      have h0 : i - ss.length = 0 := by
        cases hk : i - ss.length with
        | zero => rfl
        | succ k => rw [hk] at hx; simp at hx
      rw [h0] at hx
      simp at hx
      subst hx
      have hii : i = ss.length := by omega
      subst hii
      have hpos : 0 < d.length := List.length_pos_of_ne_nil hd.nonempty
      refine ⟨w.heap.length, by simp [Writer.prepareStream], ?_, ?_⟩
      · simp only [Writer.prepareStream, hd.data, Option.getD_some]
        rw [List.getD_eq_getElem?_getD, List.getElem?_append_right (by omega)]
        simp only [Nat.sub_self, List.getElem?_cons_zero, Option.getD_some]
        unfold dictOf XFA.stored
        cases hc : y.compress <;> simp [hpos]
      · show (Map.set w.objects w.nextObjNum _).get _ = _
        rw [Map.get_set, if_pos i1.symm]
        simp only [Writer.prepareStream, hd.data, Option.getD_some]
        unfold XFA.stored
        cases hc : y.compress <;> simp [hpos]

/-- The names of the streams with the numbers of their objects. -/
def refsOf (ss : List XStream) : List (Bytes × Nat) := ss.zipIdx.map fun e => (e.1.name, e.2 + 1)

theorem ops_eq (ss : List XStream) : buildOps ss = streamOps ss ++
    [.addObject (some (formBody (refsOf ss))), .addObject (some (b!"<</Type/Catalog/AcroForm " ++ natDec (ss.length + 1) ++ b!" 0 R>>")), .setRoot (ss.length + 2)] := by
  unfold buildOps streamOps formBody refsText refsOf
  rw [List.flatMap_map]

theorem built_objects (env : Writer.Env) (zip : Zip) (ss : List XStream) (h : ∀ x ∈ ss, ∃ d, Storable env.z zip x d) :
    (∀ (i : Nat) (x : XStream), ss[i]? = some x → ∀ d, Storable env.z zip x d → Holds env zip (Writer.run env (buildOps ss)) i x d) ∧
    (Writer.run env (buildOps ss)).objects.get ((ss.length : Int) + 1) = some { content := some (formBody (refsOf ss)), stream := none, dict := none } ∧
    (Writer.run env (buildOps ss)).objects.get ((ss.length : Int) + 2) =
      some { content := some (b!"<</Type/Catalog/AcroForm " ++ natDec (ss.length + 1) ++ b!" 0 R>>"), stream := none, dict := none } := by
  obtain ⟨i1, i2⟩ := streams_run env zip ss h
  have hr : ∀ a b : List Writer.Op, Writer.run env (a ++ b) = b.foldl (fun w op => (Writer.step env w op).1) (Writer.run env a) := by
    intro a b; unfold Writer.run; rw [List.foldl_append]
  rw [ops_eq, hr]
  generalize Writer.run env (streamOps ss) = w at i1 i2
  generalize hF : formBody (refsOf ss) = F
  generalize hC : b!"<</Type/Catalog/AcroForm " ++ natDec (ss.length + 1) ++ b!" 0 R>>" = C
  have hobj : ([Writer.Op.addObject (some F), .addObject (some C), .setRoot (ss.length + 2)].foldl (fun w op => (Writer.step env w op).1) w).objects =
      (w.objects.set w.nextObjNum { content := some F, stream := none, dict := none }).set (w.nextObjNum + 1) { content := some C, stream := none, dict := none } := rfl
  have hheap : ([Writer.Op.addObject (some F), .addObject (some C), .setRoot (ss.length + 2)].foldl (fun w op => (Writer.step env w op).1) w).heap = w.heap := rfl
  refine ⟨?_, ?_, ?_⟩
  · intro i x hx d hd
    have hi : i < ss.length := (List.getElem?_eq_some_iff.1 hx).1
    refine holds_mono (i2 i x hx d hd) ?_ ⟨[], by rw [hheap]; simp⟩
    rw [hobj, Map.get_set, if_neg (by rw [i1]; omega), Map.get_set, if_neg (by rw [i1]; omega)]
  · rw [hobj, Map.get_set, if_neg (by rw [i1]; omega), Map.get_set, if_pos i1.symm]
  · rw [hobj, Map.get_set, if_pos (by rw [i1]; omega)]

/-- What a written object looks like in the file. -/
theorem written_infix (wenv : Writer.Env) (w : Writer) (hinv : Writer.Inv w) (hfit : FileFits wenv w) (n : Int) (o : Writer.Obj) (h1 : 1 ≤ n)
    (ho : w.objects.get n = some o) : ∃ c, BodyOf wenv n o c ∧
      (wenv.crypt = none → ∀ s, o.stream = some s →
        c = formatDictionary (w.heap.getD (o.dict.getD 0) []) ++ b!"\nstream\n" ++ s ++ b!"\nendstream") ∧
      (itoa n ++ b!" 0 obj\n" ++ c ++ b!"\nendobj\n") <:+: (Writer.write wenv w).1 := by
  obtain ⟨base, hl, hb1, hb2⟩ := loc_base_w wenv hfit.fair w hinv hfit.table hfit.plain hfit.size hfit.next
  have hsome : (base n).isSome := (hb1 n).2 ⟨h1, by rw [ho]; rfl⟩
  obtain ⟨c, hc⟩ := Option.isSome_iff_exists.1 hsome
  obtain ⟨_, o', ho', hbody, _, hd⟩ := hb2 n c hc
  rw [ho] at ho'
  simp at ho'
  subst ho'
  refine ⟨c, hbody, hd, ?_⟩
  rcases hl n with ⟨_, h2⟩ | ⟨p, c', _, h3, h4⟩
  · rw [hc] at h2; simp at h2
  · rw [hc] at h3
    simp at h3
    subst h3
    exact h4.isInfix.trans (List.drop_suffix _ _).isInfix

/-! ### Reading a built file -/

theorem subset_length {α : Type} [DecidableEq α] : ∀ (l m : List α), l.Nodup → (∀ x ∈ l, x ∈ m) → l.length ≤ m.length
  | [], _, _, _ => Nat.zero_le _
  | a :: l, m, hn, hs => by
    rw [List.nodup_cons] at hn
    have hm := hs a (List.mem_cons_self ..)
    have := subset_length l (m.erase a) hn.2 fun x hx =>
      (List.mem_erase_of_ne (fun h => hn.1 (by rw [← h]; exact hx))).2 (hs x (List.mem_cons_of_mem _ hx))
    rw [List.length_erase_of_mem hm] at this
    have hp := List.length_pos_of_mem hm
    simp only [List.length_cons]
    omega

theorem refsOf_mem {ss : List XStream} {e : Bytes × Nat} (h : e ∈ refsOf ss) : ∃ (i : Nat) (x : XStream), ss[i]? = some x ∧ e = (x.name, i + 1) := by
  unfold refsOf at h
  obtain ⟨⟨x, i⟩, hx, rfl⟩ := List.mem_map.1 h
  have := List.mem_zipIdx_iff_getElem?.1 hx
  exact ⟨i, x, this, rfl⟩

theorem refsOf_names (ss : List XStream) : (refsOf ss).map (·.1) = ss.map (·.name) := by
  unfold refsOf
  rw [List.map_map]
  conv => rhs; rw [← List.zipIdx_map_fst 0 ss]
  rw [List.map_map]
  rfl

theorem refs_short : ∀ (l : List (Bytes × Nat)) (b : Nat), (∀ e ∈ l, e.1.length ≤ 13 ∧ (natDec e.2).length ≤ b) → (refsText l).length ≤ l.length * (19 + b)
  | [], _, _ => by simp [refsText]
  | e :: l, b, h => by
    have ih := refs_short l b fun x hx => h x (List.mem_cons_of_mem _ hx)
    have h0 := h e (List.mem_cons_self ..)
    have : refsText (e :: l) = (b!"(" ++ e.1 ++ b!")" ++ natDec e.2 ++ b!" 0 R") ++ refsText l := by unfold refsText; simp
    rw [this, List.length_append, List.length_cons, Nat.add_mul]
    simp only [List.length_append, List.length_cons, List.length_nil]
    omega

theorem avoid_refs (l : List (Bytes × Nat)) (h : ∀ e ∈ l, e.1 ∈ known) : Avoid b!"stream" (formBody l) := by
  have hk : ∀ k ∈ known, clash b!"stream" (k ++ b!")") = true := by decide
  have : Avoid b!"stream" (refsText l) := by
    induction l with
    | nil => exact avoid_nil _
    | cons e l ih =>
      have e1 : refsText (e :: l) = b!"(" ++ (e.1 ++ b!")") ++ natDec e.2 ++ b!" 0 R" ++ refsText l := by unfold refsText; simp
      rw [e1]
      exact avoid_append (avoid_append (avoid_append (avoid_append (avoid_clash (by decide)) (avoid_clash (hk _ (h e (List.mem_cons_self ..)))))
        (avoid_head (not_mem_natDec (by decide) _))) (avoid_clash (by decide))) (ih fun x hx => h x (List.mem_cons_of_mem _ hx))
  unfold formBody
  exact avoid_append (avoid_append (avoid_clash (by decide)) this) (avoid_clash (by decide))

theorem reAcroForm_here (n : Nat) (s : Bytes) : reAcroForm (b!"/AcroForm" ++ (32 :: (natDec n ++ (b!" 0 R" ++ s)))) = some (natDec n) := by
  unfold reAcroForm
  rw [reLit_append]
  have h1 : reSp1 (32 :: (natDec n ++ (b!" 0 R" ++ s))) = some (natDec n ++ (b!" 0 R" ++ s)) :=
    reSp1_one fun c hc => isDigit_not_reSpace (natDec_head n _ c hc)
  have h3 : reNum (natDec n ++ (b!" 0 R" ++ s)) = some (natDec n, b!" 0 R" ++ s) :=
    reNum_natDec (by intro c hc; simp at hc; subst hc; decide)
  have h4 : reSp1 (b!" 0 R" ++ s) = some (b!"0 R" ++ s) := rfl
  have h5 : reNum (b!"0 R" ++ s) = some (b!"0", b!" R" ++ s) := rfl
  have h6 : reSp1 (b!" R" ++ s) = some (b!"R" ++ s) := rfl
  simp only [Option.bind_some, h1, h3, h4, h5, h6, reLit_append b!"R" s, Option.map_some]

theorem reAcroForm_prefix {s : Bytes} (h : reAcroForm s ≠ none) : b!"/AcroForm" <+: s := by
  apply reLit_prefix
  intro hn
  apply h
  simp [reAcroForm, hn]

/-- The form is found and read. -/
theorem extract_built (src : Src) (env : Writer.Env) (hcr : env.crypt = none) (ss : List XStream) (hne : ss ≠ []) (hn : (ss.map (·.name)).Nodup)
    (hk : ∀ x ∈ ss, x.name ∈ known) (hs : ∀ x ∈ ss, ∃ d, Storable env.z src.zip x d) (hfit : FitsAlone env (Writer.run env (buildOps ss)))
    (honce : ∀ i j, OccursAt b!"/AcroForm" (buildFromXFA env ss) i → OccursAt b!"/AcroForm" (buildFromXFA env ss) j → i = j) :
    ∃ m, extractAll src (buildFromXFA env ss) = .ok m ∧
      (∀ (i : Nat) (x : XStream), ss[i]? = some x → ∃ d, x.data = some d ∧ m.get x.name = some { data := d, num := (i : Int) + 1, compressed := false }) ∧
      ∀ k, k ∉ ss.map (·.name) → m.get k = none := by
  obtain ⟨ho1, ho2, ho3⟩ := built_objects env src.zip ss hs
  have hsize := hfit.size
  have hone := hfit.single
  have hw := fun n o h1 ho => standalone_writer src.unz env _ (Writer.inv_run env (buildOps ss)) (refOrNil_run env (buildOps ss))
    (XRefTable.refs_run env (buildOps ss)) hfit.toFileFits hfit.single hfit.ending n o h1 ho
  have hinf0 := fun n o h1 ho => written_infix env _ (Writer.inv_run env (buildOps ss)) hfit.toFileFits n o h1 ho
  have hlen9 : ss.length ≤ 9 := by
    have := subset_length (ss.map (·.name)) known hn (by intro x hx; obtain ⟨y, hy, rfl⟩ := List.mem_map.1 hx; exact hk y hy)
    simpa [known] using this
  unfold buildFromXFA at honce ⊢
  generalize hfile : (Writer.write env (Writer.run env (buildOps ss))).1 = file at *
  -- the form object
  have hform : getObject src.unz none file ((ss.length : Int) + 1) = .ok (itoa ((ss.length : Int) + 1) ++ b!" 0 obj\n" ++ formBody (refsOf ss) ++ b!"\nendobj") := by
    obtain ⟨c, hc, _, hg⟩ := hw _ _ (by omega) ho2
    unfold BodyOf at hc
    simp only [Option.getD_some] at hc
    subst hc
    apply hg
    have hp : ∀ c : UInt8, isDigit c = false → (∀ k ∈ known, c ∉ k) → c ∉ b!"() 0 R" → c ∉ b!"<</Fields[]/XFA[" → c ∉ b!"]>>" → c ∉ formBody (refsOf ss) := by
      intro c h1 h2 h3 h4 h5
      have := refs_plain (refsOf ss) (by
        intro e he
        obtain ⟨i, x, hx, rfl⟩ := refsOf_mem he
        exact hk x (List.mem_of_getElem? hx)) c h1 h2 h3
      unfold formBody
      simp only [List.mem_append, not_or]
      exact ⟨⟨h4, this⟩, h5⟩
    refine ⟨?_, ?_, .inl ?_⟩
    · rw [absent_iff (by decide)]
      exact noOcc_of_mem (c := 106) (by decide) (hp 106 (by decide) (by decide) (by decide) (by decide) (by decide))
    · intro b hb
      simp [formBody] at hb
      subst hb
      decide
    · rw [absent_iff (by decide)]
      exact avoid_noOcc (avoid_refs (refsOf ss) (by
        intro e he
        obtain ⟨i, x, hx, rfl⟩ := refsOf_mem he
        exact hk x (List.mem_of_getElem? hx))) (by decide)
  have hkn : ∀ e ∈ refsOf ss, e.1 ∈ known := by
    intro e he
    obtain ⟨i, x, hx, rfl⟩ := refsOf_mem he
    exact hk x (List.mem_of_getElem? hx)
  have hle : ∀ e ∈ refsOf ss, e.2 ≤ 9 := by
    intro e he
    obtain ⟨i, x, hx, rfl⟩ := refsOf_mem he
    have := (List.getElem?_eq_some_iff.1 hx).1
    simp only
    omega
  -- its reference
  have hsearch : searchWith reAcroForm file = some (natDec (ss.length + 1)) := by
    obtain ⟨c, hc, _, A, B, hAB⟩ := hinf0 _ _ (by omega) ho3
    unfold BodyOf at hc
    simp only [Option.getD_some] at hc
    subst hc
    have e : file = (A ++ (itoa ((ss.length : Int) + 2) ++ b!" 0 obj\n" ++ b!"<</Type/Catalog")) ++
        (b!"/AcroForm" ++ (32 :: (natDec (ss.length + 1) ++ (b!" 0 R" ++ (b!">>\nendobj\n" ++ B))))) := by
      rw [← hAB]; simp
    generalize A ++ (itoa ((ss.length : Int) + 2) ++ b!" 0 obj\n" ++ b!"<</Type/Catalog") = P at e
    have hP : NoOcc b!"/AcroForm" P := by
      intro j hj
      have hj' : OccursAt b!"/AcroForm" file j := by
        rw [occursAt_iff (by decide), e]
        exact prefix_drop_append _ hj
      have hi' : OccursAt b!"/AcroForm" file P.length := ⟨P, _, by rw [e, List.append_assoc], rfl⟩
      have := honce j P.length hj' hi'
      subst this
      rw [List.drop_length] at hj
      simp at hj
    rw [e, Manipulate.searchWith_first (fun s => reAcroForm_prefix) (by intro d hd; simp at hd; subst hd; decide) hP]
    exact searchWith_here (reAcroForm_here _ _)
  have hatoi : atoi (natDec (ss.length + 1)) = some ((ss.length : Int) + 1) := by
    have := Manipulate.atoi_itoa ((ss.length + 1 : Nat) : Int) (by omega) (by omega)
    rw [show itoa ((ss.length + 1 : Nat) : Int) = natDec (ss.length + 1) from rfl] at this
    rw [this]
    rfl
  have harr : xfaArray (itoa ((ss.length : Int) + 1) ++ b!" 0 obj\n" ++ formBody (refsOf ss) ++ b!"\nendobj") = some (refsText (refsOf ss) ++ b!"]") := by
    apply array_found _ _ hkn
    have h13 : ∀ k ∈ known, k.length ≤ 13 := by decide
    have hdig : ∀ k : Nat, k ≤ 9 → (natDec k).length ≤ 1 := by
      intro k hk9
      have : ∀ j, j < 10 → (natDec j).length ≤ 1 := by decide
      exact this k (by omega)
    have := refs_short (refsOf ss) 1 fun e he => ⟨h13 _ (hkn e he), hdig _ (hle e he)⟩
    have hl : (refsOf ss).length = ss.length := by simp [refsOf]
    rw [hl] at this
    omega
  have hrefs := refs_found (refsOf ss) (by
    have : ∀ k ∈ known, k ≠ [] ∧ (41 : UInt8) ∉ k := by decide
    exact fun e he => this _ (hkn e he))
  -- the streams
  have hdata : ∀ (i : Nat) (x : XStream), ss[i]? = some x → ∃ d, x.data = some d ∧
      streamInfo src file ((i : Int) + 1) = .ok (some { data := d, num := (i : Int) + 1, compressed := false }) := by
    intro i x hx
    obtain ⟨d, hd⟩ := hs x (List.mem_of_getElem? hx)
    refine ⟨d, hd.data, ?_⟩
    obtain ⟨a, _, ha, ho⟩ := ho1 i x hx d hd
    obtain ⟨c, _, hc, hg⟩ := hw _ _ (by omega) ho
    have hc := hc hcr _ rfl
    simp only [Option.getD_some, ha] at hc
    have hc' : c = streamText x.compress (XFA.stored env.z x d) := hc
    have hg := hg (by rw [hc']; exact streamText_delimitable _ hd.delimited.1 hd.delimited.2)
    rw [hc'] at hg
    have hlen : (itoa ((i : Int) + 1) ++ b!" 0 obj\n" ++ streamText x.compress (XFA.stored env.z x d) ++ b!"\nendobj").length ≤ 9223372036854775807 := by
      obtain ⟨c2, _, hc2, hinf⟩ := hinf0 _ _ (by omega) ho
      have hc2 := hc2 hcr _ rfl
      simp only [Option.getD_some, ha] at hc2
      have hc2' : c2 = streamText x.compress (XFA.stored env.z x d) := hc2
      have := hinf.length_le
      rw [hc2'] at this
      simp only [List.length_append, List.length_cons, List.length_nil] at this ⊢
      omega
    unfold streamInfo
    rw [hg]
    simp only
    rw [stream_data src.zip env.z _ x d hd hlen]
    simp only
    unfold decompress
    rw [hd.plain.1, hd.plain.2]
  let info : Nat → Info := fun n => match ss[n - 1]? with
    | some x => { data := x.data.getD [], num := n, compressed := false }
    | none => { data := [], num := 0, compressed := false }
  have hloop := loop_found src file (refsOf ss) info [] (by
    intro e he
    refine ⟨hkn e he, by have := hle e he; omega, ?_⟩
    obtain ⟨i, x, hx, rfl⟩ := refsOf_mem he
    obtain ⟨d, hd1, hd2⟩ := hdata i x hx
    show streamInfo src file ((i + 1 : Nat) : Int) = .ok (some (info (i + 1)))
    have : info (i + 1) = { data := d, num := ((i : Int) + 1), compressed := false } := by
      simp only [info, Nat.add_sub_cancel, hx, hd1, Option.getD_some]
      rfl
    rw [this]
    exact hd2)
  obtain ⟨g1, g2⟩ := foldl_get info (refsOf ss) [] (by rw [refsOf_names]; exact hn)
  refine ⟨(refsOf ss).foldl (fun m e => m.set e.1 (info e.2)) [], ?_, ?_, ?_⟩
  · unfold extractAll
    rw [hsearch]
    simp only [hatoi, Res.ofOption, Res.bind]
    rw [if_pos (by omega), hform]
    simp only [Res.bind, harr, Res.ofOption, hrefs]
    rw [if_neg]
    · exact hloop
    · intro hnil
      rw [List.map_eq_nil_iff] at hnil
      apply hne
      have hl : (refsOf ss).length = ss.length := by simp [refsOf]
      rw [hnil] at hl
      exact List.length_eq_zero_iff.1 hl.symm
  · intro i x hx
    obtain ⟨d, hd1, _⟩ := hdata i x hx
    refine ⟨d, hd1, ?_⟩
    have hmem : (x.name, i + 1) ∈ refsOf ss := by
      unfold refsOf
      exact List.mem_map.2 ⟨(x, i), List.mem_zipIdx_iff_getElem?.2 hx, rfl⟩
    have := g1 _ hmem
    rw [this]
    simp only [info, Nat.add_sub_cancel, hx, hd1, Option.getD_some]
    rfl
  · intro k hk'
    rw [g2 k (by rw [refsOf_names]; exact hk')]
    rfl

end Pdfer.XFA
