import Verif.Proofs.Update

/-! A file written by `PDFWriter` in table mode as the base of updates, and the contents found through the
merged sections. -/

namespace Pdfer.Incremental

open Pdfer.Go Pdfer.XRefTable Pdfer.XRefStream Pdfer.Writer

theorem hexUpper_mem {bs : Bytes} {c : UInt8} (h : c ∈ hexUpper bs) : ∃ n, n < 16 ∧ c = hexUp n := by
  unfold hexUpper at h
  obtain ⟨b, _, hb⟩ := List.mem_flatMap.1 h
  have hlt := b.toNat_lt
  simp only [List.mem_cons, List.not_mem_nil, or_false] at hb
  rcases hb with hb | hb
  · exact ⟨_, by omega, hb⟩
  · exact ⟨_, by omega, hb⟩

theorem not_mem_hexUpper {c : UInt8} (bs : Bytes) (h : ∀ n, n < 16 → c ≠ hexUp n) : c ∉ hexUpper bs := by
  intro hm
  obtain ⟨n, hn, rfl⟩ := hexUpper_mem hm
  exact h n hn rfl

/-- A reference text or nothing. -/
def RefOrNil (b : Bytes) : Prop := b = [] ∨ ∃ n, b = ref n

theorem refOrNil_run (env : Writer.Env) (ops : List Op) : RefOrNil (run env ops).rootRef ∧ RefOrNil (run env ops).infoRef ∧
    RefOrNil (run env ops).encryptRef := by
  induction ops using snoc_induction with
  | nil => exact ⟨.inl rfl, .inl rfl, .inl rfl⟩
  | snoc ops op ih =>
    rw [run_append]
    cases op with
    | setRoot n => exact ⟨.inr ⟨n, rfl⟩, ih.2.1, ih.2.2⟩
    | setInfo n => exact ⟨ih.1, .inr ⟨n, rfl⟩, ih.2.2⟩
    | setEncryptRef n => exact ⟨ih.1, ih.2.1, .inr ⟨n, rfl⟩⟩
    | write =>
      obtain ⟨h1, h2, h3⟩ := write_refs env (run env ops)
      rw [show (step env (run env ops) .write).1 = (write env (run env ops)).2 from rfl, h1, h2, h3]
      exact ih
    | _ => exact ih

theorem refOrNil_not_mem {b : Bytes} (h : RefOrNil b) {c : UInt8} (h1 : isDigit c = false) (h2 : c ≠ 45)
    (h3 : c ∉ b!" 0 R") : c ∉ b := by
  rcases h with rfl | ⟨n, rfl⟩
  · simp
  · unfold ref
    rw [List.mem_append, not_or]
    exact ⟨not_mem_itoa n h1 h2, h3⟩

/-- The trailer dictionary without its brackets, up to the file identifier. -/
def trailerHead (w : Writer) : Bytes :=
  b!"\n/Size " ++ itoa w.nextObjNum ++ b!"\n" ++
  (if w.rootRef ≠ [] then b!"/Root " ++ w.rootRef ++ b!"\n" else []) ++
  (if w.infoRef ≠ [] then b!"/Info " ++ w.infoRef ++ b!"\n" else []) ++
  (if w.encryptRef ≠ [] then b!"/Encrypt " ++ w.encryptRef ++ b!"\n" else [])

/-- The file identifier entry. -/
def trailerId (w : Writer) : Bytes :=
  if w.fileID.length > 0 then b!"/ID [<" ++ hexUpper w.fileID ++ b!"><" ++ hexUpper w.fileID ++ b!">]\n" else []

theorem trailer_eq (w : Writer) : trailer w = b!"trailer\n" ++ (b!"<<" ++ (trailerHead w ++ trailerId w) ++ b!">>\n") := by
  unfold trailer trailerHead trailerId
  simp [List.append_assoc]

theorem ite_not_mem {P : Prop} [Decidable P] {c : UInt8} {a : Bytes} (h : P → c ∉ a) : c ∉ (if P then a else []) := by
  split
  · rename_i hp; exact h hp
  · simp

theorem trailerHead_not_mem (w : Writer) (h : RefOrNil w.rootRef ∧ RefOrNil w.infoRef ∧ RefOrNil w.encryptRef) {c : UInt8}
    (h1 : isDigit c = false) (h2 : c ≠ 45) (h3 : c ∉ b!"\n/Size /Root /Info /Encrypt 0 R") : c ∉ trailerHead w := by
  have hR : c ∉ b!" 0 R" := fun hm => h3 (by simp at hm ⊢; rcases hm with h | h | h | h <;> simp [h])
  have e1 : c ∉ b!"\n/Size " := fun hm => h3 (by simp at hm ⊢; rcases hm with h | h | h | h | h | h | h <;> simp [h])
  have e2 : c ∉ b!"/Root " := fun hm => h3 (by simp at hm ⊢; rcases hm with h | h | h | h | h | h <;> simp [h])
  have e3 : c ∉ b!"/Info " := fun hm => h3 (by simp at hm ⊢; rcases hm with h | h | h | h | h | h <;> simp [h])
  have e4 : c ∉ b!"/Encrypt " := fun hm => h3 (by
    simp at hm ⊢; rcases hm with h | h | h | h | h | h | h | h | h <;> simp [h])
  have e5 : c ∉ b!"\n" := fun hm => h3 (by simp at hm ⊢; simp [hm])
  unfold trailerHead
  simp only [List.mem_append, not_or]
  refine ⟨⟨⟨⟨⟨e1, not_mem_itoa _ h1 h2⟩, e5⟩, ite_not_mem fun _ => ?_⟩, ite_not_mem fun _ => ?_⟩, ite_not_mem fun _ => ?_⟩ <;>
    simp only [List.mem_append, not_or]
  · exact ⟨⟨e2, refOrNil_not_mem h.1 h1 h2 hR⟩, e5⟩
  · exact ⟨⟨e3, refOrNil_not_mem h.2.1 h1 h2 hR⟩, e5⟩
  · exact ⟨⟨e4, refOrNil_not_mem h.2.2 h1 h2 hR⟩, e5⟩

theorem trailerHead_last (w : Writer) : (trailerHead w).getLast? = some 10 := by
  unfold trailerHead
  split <;> split <;> split <;> simp only [List.append_nil, List.getLast?_append] <;> rfl

theorem hexUpper_cons {bs : Bytes} (h : bs.length > 0) : ∃ c r, hexUpper bs = c :: r ∧ ∃ n, n < 16 ∧ c = hexUp n := by
  cases bs with
  | nil => simp at h
  | cons b bs =>
    have hlt := b.toNat_lt
    exact ⟨_, _, rfl, _, by omega, rfl⟩

theorem trailer_dict_ok (w : Writer) (h : RefOrNil w.rootRef ∧ RefOrNil w.infoRef ∧ RefOrNil w.encryptRef) :
    NoOcc b!"<<" ((trailerHead w ++ trailerId w) ++ [62]) ∧ NoOcc b!">>" ((trailerHead w ++ trailerId w) ++ [10]) ∧
    (trailerHead w ++ trailerId w).getLast? ≠ some 62 ∧ (80 : UInt8) ∉ trailerHead w ++ trailerId w := by
  have h60 := trailerHead_not_mem w h (c := 60) (by decide) (by decide) (by decide)
  have h62 := trailerHead_not_mem w h (c := 62) (by decide) (by decide) (by decide)
  have h80 := trailerHead_not_mem w h (c := 80) (by decide) (by decide) (by decide)
  unfold trailerId
  by_cases hid : w.fileID.length > 0
  · simp only [if_pos hid]
    obtain ⟨c, r, hc, n, hn, rfl⟩ := hexUpper_cons hid
    have k60 : ∀ n, n < 16 → (60 : UInt8) ≠ hexUp n := by decide
    have k62 : ∀ n, n < 16 → (62 : UInt8) ≠ hexUp n := by decide
    have k80 : ∀ n, n < 16 → (80 : UInt8) ≠ hexUp n := by decide
    have r60 : (60 : UInt8) ∉ r := fun hm => not_mem_hexUpper w.fileID k60 (by rw [hc]; simp [hm])
    have r62 : (62 : UInt8) ∉ r := fun hm => not_mem_hexUpper w.fileID k62 (by rw [hc]; simp [hm])
    refine ⟨?_, ?_, ?_, ?_⟩
    · rw [hc]
      rw [show trailerHead w ++ (b!"/ID [<" ++ hexUp n :: r ++ b!"><" ++ hexUp n :: r ++ b!">]\n") ++ [62] =
        ((trailerHead w ++ b!"/ID ") ++ 91 :: b!"<") ++ hexUp n :: ((r ++ 62 :: b!"<") ++ hexUp n :: (r ++ b!">]\n" ++ [62])) by
        simp [List.append_assoc]]
      have hnp : hexUp n ∉ b!"<<" := by
        simp only [List.mem_cons, List.not_mem_nil, or_false, or_self]
        exact fun e => k60 n hn e.symm
      apply noOcc_mid hnp
      · apply noOcc_mid (by decide)
        · apply noOcc_of_head
          rw [List.mem_append, not_or]; exact ⟨h60, by decide⟩
        · exact noOcc_iff_index.2 (by decide)
      · apply noOcc_mid hnp
        · apply noOcc_mid (by decide) (noOcc_of_head r60)
          exact noOcc_iff_index.2 (by decide)
        · apply noOcc_of_head
          simp only [List.mem_append, not_or]
          exact ⟨⟨r60, by decide⟩, by decide⟩
    · rw [hc]
      rw [show trailerHead w ++ (b!"/ID [<" ++ hexUp n :: r ++ b!"><" ++ hexUp n :: r ++ b!">]\n") ++ [10] =
        (trailerHead w ++ b!"/ID [<" ++ hexUp n :: r ++ b!">") ++ 60 :: ((hexUp n :: r ++ b!">") ++ 93 :: b!"\n\n") by
        simp [List.append_assoc]]
      have one : ∀ a : Bytes, (62 : UInt8) ∉ a → NoOcc b!">>" (a ++ b!">") := by
        intro a ha j hp
        by_cases hj : j ≤ a.length
        · rw [List.drop_append_of_le_length hj] at hp
          have ha' : (62 : UInt8) ∉ a.drop j := fun hm => ha (List.mem_of_mem_drop hm)
          cases hd : a.drop j with
          | nil => rw [hd] at hp; revert hp; decide
          | cons x y =>
            rw [hd] at hp ha'
            obtain ⟨t, ht⟩ := hp
            simp at ht
            exact ha' (by simp [← ht.1])
        · rw [List.drop_append, List.drop_of_length_le (by omega)] at hp
          have := hp.length_le
          simp at this
          omega
      apply noOcc_mid (by decide)
      · apply one
        simp only [List.mem_append, List.mem_cons, not_or]
        exact ⟨⟨h62, by decide⟩, k62 n hn, r62⟩
      · apply noOcc_mid (by decide)
        · apply one
          simp only [List.mem_cons, not_or]
          exact ⟨k62 n hn, r62⟩
        · exact noOcc_iff_index.2 (by decide)
    · rw [List.getLast?_append, List.getLast?_append]
      show some (10 : UInt8) ≠ some 62
      decide
    · simp only [List.mem_append, not_or]
      exact ⟨h80, ⟨⟨⟨by decide, not_mem_hexUpper _ k80⟩, by decide⟩, not_mem_hexUpper _ k80⟩, by decide⟩
  · simp only [if_neg hid, List.append_nil]
    refine ⟨?_, ?_, ?_, h80⟩
    · apply noOcc_of_head
      rw [List.mem_append, not_or]; exact ⟨h60, by decide⟩
    · apply noOcc_of_head
      rw [List.mem_append, not_or]; exact ⟨h62, by decide⟩
    · rw [trailerHead_last]; decide

/-- The lines between `xref` and `trailer` in a written file. -/
def baseLines (w : Writer) (ps : Map Int Nat) : List Bytes := (b!"0 " ++ itoa w.nextObjNum) :: tableLines w.nextObjNum ps

theorem baseLines_no_t (w : Writer) (ps : Map Int Nat) : ∀ l ∈ baseLines w ps, (116 : UInt8) ∉ l := by
  intro l hl
  have hp : ∀ k n, (116 : UInt8) ∉ padDec k n := by
    intro k n hm
    exact absurd (padDec_digits k n _ hm) (by decide)
  rcases List.mem_cons.1 hl with rfl | hl
  · rw [List.mem_append, not_or]
    exact ⟨by decide, not_mem_itoa _ (by decide) (by decide)⟩
  · unfold tableLines at hl
    rcases List.mem_cons.1 hl with rfl | hl
    · simp only [List.mem_append, not_or]
      exact ⟨⟨⟨hp _ _, by decide⟩, hp _ _⟩, by decide⟩
    · obtain ⟨i, _, rfl⟩ := List.mem_map.1 hl
      unfold lineBody
      split <;>
      · simp only [List.mem_append, not_or]
        exact ⟨⟨⟨hp _ _, by decide⟩, hp _ _⟩, by decide⟩

theorem xrefTable_lines (w : Writer) (ps : Map Int Nat) : xrefTable w.nextObjNum ps = b!"xref\n" ++ nl (baseLines w ps) := by
  rw [xrefTable_nl]
  simp [baseLines, tableLines, nl]

/-- The file written in table mode. -/
def baseFile (env : Writer.Env) (w : Writer) : Spec.File :=
  { bytes := (write env w).1, xref := (header w.pdfVersion ++ (tableBody env w).1).length }

/-- Its only section. -/
def baseSection (env : Writer.Env) (w : Writer) : Section :=
  withTrailer ((baseLines w (tableBody env w).2.1).foldl (fun st l => tableStep st (fields l)) st0).objs []
    (b!"<<" ++ (trailerHead w ++ trailerId w) ++ b!">>")

theorem good_base_w (unz : Bytes → Option Bytes) (env : Writer.Env) (w : Writer)
    (hrefs : RefOrNil w.rootRef ∧ RefOrNil w.infoRef ∧ RefOrNil w.encryptRef)
    (hx : w.useXRefStream = false) (ho : w.useObjectStream = false)
    (hsize : (write env w).1.length ≤ 9223372036854775807)
    (honce : ∀ i j, (write env w).1.length ≤ i + 106 → (write env w).1.length ≤ j + 106 →
      Spec.OccursAt b!"startxref" (write env w).1 i →
      Spec.OccursAt b!"startxref" (write env w).1 j → i = j)
    (hwin : (xrefTable w.nextObjNum (tableBody env w).2.1).length + 8 ≤ window) :
    Good unz (baseFile env w) [] [baseSection env w] := by
  obtain ⟨hd1, hd2, hd3, hd4⟩ := trailer_dict_ok w hrefs
  generalize hpre : header w.pdfVersion ++ (tableBody env w).1 = pre
  have hlen : (header w.pdfVersion).length + (tableBody env w).1.length = pre.length := by rw [← hpre]; simp
  have hfile : (write env w).1 = pre ++ (b!"xref\n" ++ nl (baseLines w (tableBody env w).2.1) ++ b!"trailer\n" ++
      (b!"<<" ++ (trailerHead w ++ trailerId w) ++ b!">>" ++ (b!"\nstartxref\n" ++ natDec pre.length ++ b!"\n%%EOF\n"))) := by
    rw [write_table env w hx ho, hlen, ← hpre, xrefTable_lines, trailer_eq]
    simp [startxref, List.append_assoc]
  have hL : ∀ l ∈ baseLines w (tableBody env w).2.1, (10 : UInt8) ∉ l ∧ XRefTable.Plain l ∧ (116 : UInt8) ∉ l := by
    intro l hl
    refine ⟨?_, tableLines_plain _ _ l hl, baseLines_no_t w _ l hl⟩
    rcases List.mem_cons.1 hl with rfl | hl
    · rw [List.mem_append, not_or]; exact ⟨by decide, itoa_no_nl _⟩
    · exact tableLines_no_nl _ _ l hl
  have hwin' : (b!"xref\n" ++ nl (baseLines w (tableBody env w).2.1) ++ b!"trailer\n").length ≤ window := by
    rw [xrefTable_lines] at hwin
    simp only [List.length_append] at hwin ⊢
    exact hwin
  have hsec : ∀ post, findPrevOffset ((write env w).1 ++ post) pre.length = none ∧
      parseXRefSection unz ((write env w).1 ++ post) pre.length = .ok (baseSection env w) := by
    intro post
    have hr := section_read unz pre _ _ (b!"\nstartxref\n" ++ natDec pre.length ++ b!"\n%%EOF\n" ++ post) hL hd1 hd2 hd3 hwin'
    have he : (write env w).1 ++ post = pre ++ (b!"xref\n" ++ nl (baseLines w (tableBody env w).2.1) ++ b!"trailer\n" ++
        (b!"<<" ++ (trailerHead w ++ trailerId w) ++ b!">>" ++
          (b!"\nstartxref\n" ++ natDec pre.length ++ b!"\n%%EOF\n" ++ post))) := by
      rw [hfile]; simp [List.append_assoc]
    simp only [] at hr
    rw [← he] at hr
    refine ⟨?_, hr.2⟩
    rw [hr.1, searchWith_none (reKeyNum_prefix _)]
    · rfl
    · apply noOcc_of_mem (c := 80) (by decide)
      rw [List.mem_append, List.mem_append, not_or, not_or]
      exact ⟨⟨by decide, hd4⟩, by decide⟩
  have hpl : pre.length < (write env w).1.length := by
    rw [hfile, List.length_append]; simp
  have hxref : (baseFile env w).xref = pre.length := by unfold baseFile; rw [hpre]
  have hpos : 0 < pre.length := by rw [← hpre]; simp [header]
  refine ⟨?_, ?_, ?_, by simp⟩
  · rw [hxref]
    show findLastStartXRef (write env w).1 = some pre.length
    have hX : (write env w).1 = (pre ++ (b!"xref\n" ++ nl (baseLines w (tableBody env w).2.1) ++ b!"trailer\n" ++
      (b!"<<" ++ (trailerHead w ++ trailerId w) ++ b!">>"))) ++ (10 :: (b!"startxref\n" ++ natDec pre.length ++ b!"\n%%EOF\n")) := by
      rw [hfile]; simp [List.append_assoc]
    generalize hXd : pre ++ (b!"xref\n" ++ nl (baseLines w (tableBody env w).2.1) ++ b!"trailer\n" ++
      (b!"<<" ++ (trailerHead w ++ trailerId w) ++ b!">>")) = X at hX
    rw [hX]
    apply findLast_eq X _ (by omega)
    intro j0 hj
    rw [List.drop_drop] at hj
    generalize hjd : X.length + 12 + (natDec pre.length).length - 100 + j0 = j at hj
    have hXl : (write env w).1.length = X.length + 18 + (natDec pre.length).length := by
      rw [hX]; simp; omega
    have h1 : Spec.OccursAt b!"startxref" (write env w).1 j := by
      rw [occursAt_iff (by decide), hX]
      have hjl : j ≤ X.length := by
        apply Classical.byContradiction
        intro hn
        rw [List.drop_of_length_le (by omega)] at hj
        simp at hj
      rw [List.drop_append_of_le_length hjl]
      exact hj.trans (List.prefix_append _ _)
    have h2 : Spec.OccursAt b!"startxref" (write env w).1 (X.length + 1) := by
      rw [occursAt_iff (by decide), hX, List.drop_append, List.drop_of_length_le (by omega),
        show X.length + 1 - X.length = 1 by omega]
      simp
    have hdl := natDec_length_int64 pre.length (by omega)
    have := honce j (X.length + 1) (by omega) (by omega) h1 h2
    have hjl := hj.length_le
    simp at hjl
    omega
  · rw [hxref]
    exact ⟨hpos, hpl, fun post => (hsec post).1⟩
  · intro post
    rw [hxref]
    have := (hsec post).2
    show parseSections unz ((write env w).1 ++ post) [pre.length] = _
    simp [parseSections, this, Res.bind]

/-! ### Contents -/

/-- Every object number is found exactly when it has a content, and at the recorded offset stands the object
with that content. -/
def Loc (b : Bytes) (ss : List Section) (lat : Int → Option Bytes) : Prop :=
  ∀ n : Int, (ss.reverse.findSome? (fun s => s.objects.get n) = none ∧ lat n = none) ∨
    ∃ (p : Nat) (c : Bytes), ss.reverse.findSome? (fun s => s.objects.get n) = some (p : Int) ∧ lat n = some c ∧
      (itoa n ++ b!" 0 obj\n" ++ c ++ b!"\nendobj\n") <+: b.drop p

theorem prefix_drop_append {x b : Bytes} {p : Nat} (y : Bytes) (h : x <+: b.drop p) : x <+: (b ++ y).drop p := by
  rw [List.drop_append]
  exact h.trans (List.prefix_append _ _)

theorem places_find (pos : Nat) (objs : List (Nat × Bytes)) (n : Int) :
    (objs.reverse.find? (fun e => (e.1 : Int) = n) = none ∧
      (Spec.places pos objs).reverse.find? (fun e => (e.1 : Int) = n) = none) ∨
    ∃ (m : Nat) (c : Bytes) (p : Nat), ((m : Nat) : Int) = n ∧ objs.reverse.find? (fun e => (e.1 : Int) = n) = some (m, c) ∧
      (Spec.places pos objs).reverse.find? (fun e => (e.1 : Int) = n) = some (m, p) ∧ pos ≤ p ∧
      Spec.objectText m c <+: (Spec.objectsText objs).drop (p - pos) := by
  induction objs generalizing pos with
  | nil => exact .inl ⟨rfl, rfl⟩
  | cons o objs ih =>
    obtain ⟨m0, c0⟩ := o
    have ho : Spec.objectsText ((m0, c0) :: objs) = Spec.objectText m0 c0 ++ Spec.objectsText objs := by
      simp [Spec.objectsText]
    simp only [Spec.places, List.reverse_cons, List.find?_append]
    rcases ih (pos + (Spec.objectText m0 c0).length) with ⟨h1, h2⟩ | ⟨m, c, p, hm, h1, h2, h3, h4⟩
    · simp only [h1, h2, Option.none_or]
      by_cases he : (m0 : Int) = n
      · right
        exact ⟨m0, c0, pos, he, by simp [he], by simp [he], Nat.le_refl _, by rw [ho]; simp⟩
      · left
        simp [he]
    · right
      refine ⟨m, c, p, hm, by simp only [h1, Option.some_or], by simp only [h2, Option.some_or], by omega, ?_⟩
      rw [ho, List.drop_append, List.drop_of_length_le (by omega), List.nil_append]
      rw [show p - pos - (Spec.objectText m0 c0).length = p - (pos + (Spec.objectText m0 c0).length) by omega]
      exact h4

theorem find_map_cast (ps : List (Nat × Nat)) (n : Int) :
    (ps.map fun e => ((e.1 : Int), (e.2 : Int))).reverse.find? (fun e => e.1 = n) =
      (ps.reverse.find? (fun e => (e.1 : Int) = n)).map (fun e => ((e.1 : Int), (e.2 : Int))) := by
  rw [← List.map_reverse, List.find?_map]
  rfl

theorem loc_append {f : Spec.File} {ss : List Section} {lat : Int → Option Bytes} (h : Loc f.bytes ss lat)
    (u : Spec.Update) : Loc (Spec.append f u).bytes (ss ++ [updSection f u]) (fun n => Spec.latest (lat n) [u] n) := by
  intro n
  have hget : (updSection f u).objects.get n =
      ((Spec.places f.bytes.length u.objs).reverse.find? (fun e => (e.1 : Int) = n)).map (fun e => (e.2 : Int)) := by
    show (mergeInto [] _).get n = _
    rw [mergeInto_get, find_map_cast]
    cases (Spec.places f.bytes.length u.objs).reverse.find? (fun e => decide ((e.1 : Int) = n)) <;> rfl
  have hb := append_bytes f u
  rw [List.append_assoc] at hb
  rw [List.reverse_append, List.reverse_singleton, List.singleton_append, List.findSome?_cons, hget]
  have hlat : Spec.latest (lat n) [u] n =
      (u.objs.reverse.find? (fun e => (e.1 : Int) = n)).elim (lat n) (fun e => some e.2) := by
    simp [Spec.latest]
  simp only [hlat]
  rcases places_find f.bytes.length u.objs n with ⟨h1, h2⟩ | ⟨m, c, p, hm, h1, h2, h3, h4⟩
  · rw [h1, h2]
    simp only [Option.map_none, Option.elim_none]
    rcases h n with ⟨g1, g2⟩ | ⟨p, c, g1, g2, g3⟩
    · exact .inl ⟨g1, g2⟩
    · exact .inr ⟨p, c, g1, g2, by rw [hb]; exact prefix_drop_append _ g3⟩
  · rw [h1, h2]
    simp only [Option.map_some, Option.elim_some]
    refine .inr ⟨p, c, rfl, rfl, ?_⟩
    rw [hb]
    subst hm
    have hp : p = f.bytes.length + (p - f.bytes.length) := by omega
    rw [hp]
    apply Writer.drop_append_prefix
    exact prefix_drop_append _ h4

/-- All sections come from tables. -/
def Tables (ss : List Section) : Prop := ∀ s ∈ ss, s.streams = [] ∧ s.objects.keys.Nodup

theorem mergeInto_keys_nodup {ν : Type} (src : Map Int ν) : (mergeInto [] src).keys.Nodup :=
  mergeInto_nodup _ _ (by simp [Map.keys])

theorem tables_append {f : Spec.File} {ss : List Section} (h : Tables ss) (u : Spec.Update) :
    Tables (ss ++ [updSection f u]) := by
  intro s hs
  rcases List.mem_append.1 hs with hs | hs
  · exact h s hs
  · simp at hs
    subst hs
    exact ⟨rfl, mergeInto_keys_nodup _⟩

theorem step_nodup (st : St) (fs : List Bytes) (h : st.objs.keys.Nodup) : (tableStep st fs).objs.keys.Nodup := by
  unfold tableStep
  simp only
  repeat' split
  all_goals first | exact h | exact Map.nodup_set _ _ _ h

theorem fold_nodup (L : List Bytes) : ∀ st : St, st.objs.keys.Nodup →
    (L.foldl (fun st l => tableStep st (fields l)) st).objs.keys.Nodup := by
  induction L with
  | nil => intro st h; exact h
  | cons l L ih => intro st h; rw [List.foldl_cons]; exact ih _ (step_nodup _ _ h)

theorem tables_base (env : Writer.Env) (w : Writer) : Tables [baseSection env w] := by
  intro s hs
  simp at hs
  subst hs
  exact ⟨rfl, fold_nodup _ _ (by simp [st0, Map.keys])⟩

theorem refs_tables {ss : List Section} (h : Tables ss) (n : Int) :
    (refsOf ss).get n = (ss.reverse.findSome? (fun s => s.objects.get n)).map Ref.direct := by
  rw [refs_get ss (fun s hs => (h s hs).2) (fun s hs => by rw [(h s hs).1]; simp [Map.keys])]
  have : ss.reverse.findSome? (fun s => s.streams.get n) = none := by
    rw [List.findSome?_eq_none_iff]
    intro s hs
    rw [(h s (List.mem_reverse.1 hs)).1]
    rfl
  rw [this]
  simp

/-- The whole history of updates. -/
theorem good_history {unz : Bytes → Option Bytes} (us : List Spec.Update) : ∀ {f : Spec.File} {offs : List Nat}
    {ss : List Section} {lat : Int → Option Bytes}, Good unz f offs ss → Loc f.bytes ss lat → Tables ss →
    (∀ k u, us[k]? = some u → UpdOK ((us.take k).foldl Spec.append f) u) →
    ∃ offs' ss', Good unz (us.foldl Spec.append f) offs' ss' ∧
      Loc (us.foldl Spec.append f).bytes ss' (fun n => Spec.latest (lat n) us n) ∧ Tables ss' ∧
      (us = [] → ss' = ss) ∧
      (∀ us0 u, us = us0 ++ [u] → ss'.getLast? = some (updSection (us0.foldl Spec.append f) u)) := by
  induction us with
  | nil =>
    intro f offs ss lat h1 h2 h3 _
    exact ⟨offs, ss, h1, by simpa [Spec.latest] using h2, h3, fun _ => rfl, by simp⟩
  | cons u us ih =>
    intro f offs ss lat h1 h2 h3 hu
    have hu0 : UpdOK f u := hu 0 u rfl
    obtain ⟨offs', ss', g1, g2, g3, g4, g5⟩ := ih (good_append h1 u hu0) (loc_append h2 u) (tables_append (f := f) h3 u) (by
      intro k v hv
      have := hu (k + 1) v hv
      simpa using this)
    refine ⟨offs', ss', g1, ?_, g3, by simp, ?_⟩
    rotate_left
    · intro us0 v hv
      cases us0 with
      | nil =>
        simp only [List.nil_append, List.cons.injEq] at hv
        obtain ⟨rfl, rfl⟩ := hv
        rw [g4 rfl]; simp
      | cons x us0 =>
        simp only [List.cons_append, List.cons.injEq] at hv
        obtain ⟨rfl, rfl⟩ := hv
        exact g5 us0 v rfl
    have : (fun n => Spec.latest (Spec.latest (lat n) [u] n) us n) = fun n => Spec.latest (lat n) (u :: us) n := by
      funext n
      simp only [Spec.latest, List.flatMap_cons, List.flatMap_nil, List.append_nil, List.reverse_append, List.find?_append]
      cases (us.flatMap (·.objs)).reverse.find? (fun e => decide ((e.1 : Int) = n)) <;> simp
    rw [this] at g2
    exact g2

/-- The body of a stored object in the file. -/
def IsBody (env : Writer.Env) (w : Writer) (n : Int) (c : Bytes) : Prop :=
  1 ≤ n ∧ ∃ o, w.objects.get n = some o ∧ Spec.BodyOf env n o c ∧
    (HeapOK env w.objects w.heap → ∀ s, o.stream = some s → ∃ d data,
      c = formatDictionary d ++ b!"\nstream\n" ++ data ++ b!"\nendstream" ∧
      data = (match env.crypt with | none => s | some enc => (enc n s).getD s) ∧
      d.keys.Nodup ∧ b!"/Length" ∉ d.keys ∧ d.get b!"Length" = some (.int data.length) ∧
      ∀ k, k ≠ b!"Length" → d.get k = (w.heap.getD (o.dict.getD 0) []).get k) ∧
    (env.crypt = none → ∀ s, o.stream = some s →
      c = formatDictionary (w.heap.getD (o.dict.getD 0) []) ++ b!"\nstream\n" ++ s ++ b!"\nendstream")

theorem objText_body (env : Writer.Env) (heap : List Dict) (w : Writer) (n : Int) (o : Obj) (h1 : 1 ≤ n)
    (h : w.objects.get n = some o) (hheap : HeapOK env w.objects w.heap → HeapOK env w.objects heap)
    (hsame : env.crypt = none → heap = w.heap) (hbut : SameButLength w.heap heap) :
    ∃ c, IsBody env w n c ∧ (objText env heap n o).1 = itoa n ++ b!" 0 obj\n" ++ c ++ b!"\nendobj\n" := by
  cases hs : o.stream with
  | none => exact ⟨o.content.getD [], ⟨h1, o, h, by unfold Spec.BodyOf; rw [hs], by rw [hs]; simp, by rw [hs]; simp⟩, by unfold objText; rw [hs]⟩
  | some s =>
    have key : ∃ dict, (objText env heap n o).1 = itoa n ++ b!" 0 obj\n" ++ (formatDictionary dict ++ b!"\nstream\n" ++
        (match env.crypt with | none => s | some enc => (enc n s).getD s) ++ b!"\nendstream") ++ b!"\nendobj\n" := by
      unfold objText
      rw [hs]
      cases hc : env.crypt with
      | none => simp only; exact ⟨heap.getD (o.dict.getD 0) [], by simp [List.append_assoc]⟩
      | some enc =>
        cases he : enc n s with
        | none =>
          simp only [he, Option.getD_none]
          exact ⟨heap.getD (o.dict.getD 0) [], by simp [List.append_assoc]⟩
        | some e =>
          simp only [he, Option.getD_some]
          exact ⟨(heap.set (o.dict.getD 0) ((heap.getD (o.dict.getD 0) []).set b!"Length"
            (.int e.length))).getD (o.dict.getD 0) [], by simp [List.append_assoc]⟩
    obtain ⟨dict, hd⟩ := key
    refine ⟨_, ⟨h1, o, h, by unfold Spec.BodyOf; rw [hs]; exact ⟨dict, rfl⟩, ?_, ?_⟩, hd⟩
    rotate_left
    · intro hc s' hs'
      rw [hs] at hs'
      simp only [Option.some.injEq] at hs'
      subst hs'
      have e : (objText env heap n o).1 = itoa n ++ b!" 0 obj\n" ++ (formatDictionary (w.heap.getD (o.dict.getD 0) []) ++ b!"\nstream\n" ++ s ++
          b!"\nendstream") ++ b!"\nendobj\n" := by
        unfold objText
        rw [hs, hc, hsame hc]
        simp only [List.append_assoc]
      rw [e] at hd
      exact (List.append_cancel_left (List.append_cancel_right hd)).symm
    intro hH s' hs'
    obtain ⟨d, data, k1, k2, k3, k4, k5, k6⟩ := objText_stream env w.objects heap n o s' h hs' (hheap hH)
    refine ⟨d, data, ?_, k2, k3, k4, k5, fun k hk => (k6 k hk).trans (hbut _ k hk)⟩
    rw [k1] at hd
    simp only [List.append_assoc, List.append_cancel_left_eq] at hd
    have hd' := hd
    have := List.append_cancel_right (as := formatDictionary d ++ b!"\nstream\n" ++ data ++ b!"\nendstream") (bs := b!"\nendobj\n")
      (cs := formatDictionary dict ++ b!"\nstream\n" ++ (match env.crypt with | none => s | some enc => (enc n s).getD s) ++ b!"\nendstream")
      (by simpa [List.append_assoc] using hd')
    exact this.symm

theorem loc_base_w (env : Writer.Env) (henv : ∀ l, (env.order l).Perm l) (w : Writer) (hinv : Inv w)
    (hx : w.useXRefStream = false) (ho : w.useObjectStream = false)
    (hsize : (write env w).1.length ≤ 9223372036854775807)
    (hnext : w.nextObjNum ≤ 9223372036854775807) :
    ∃ base : Int → Option Bytes, Loc (write env w).1 [baseSection env w] base ∧
      (∀ n, (base n).isSome ↔ 1 ≤ n ∧ (w.objects.get n).isSome) ∧
      (∀ n c, base n = some c → IsBody env w n c) := by
  have hp := tableBody_keys env henv w
  have hnd : (tableBody env w).2.1.keys.Nodup := hp.nodup_iff.2 hinv.nodup
  have hout : (write env w).1 = header w.pdfVersion ++ ((tableBody env w).1 ++
      (xrefTable w.nextObjNum (tableBody env w).2.1 ++ trailer w ++
      startxref ((header w.pdfVersion).length + (tableBody env w).1.length))) := by
    rw [write_table env w hx ho]; simp [List.append_assoc]
  have hat : ∀ n p, (tableBody env w).2.1.get n = some p → 1 ≤ n → ∃ c, IsBody env w n c ∧
      (itoa n ++ b!" 0 obj\n" ++ c ++ b!"\nendobj\n") <+: (write env w).1.drop p := by
    intro n p hg hn
    obtain ⟨o, heap1, k, hmo, hheap, hpk, hpre, _⟩ := writeObjs_at env (fun _ => false) _ w.heap
      (sortedObjs env w) (fun heap => (HeapOK env w.objects w.heap → HeapOK env w.objects heap) ∧ (env.crypt = none → heap = w.heap) ∧ SameButLength w.heap heap)
      ⟨id, fun _ => rfl, fun _ _ _ => rfl⟩
      (fun m o heap hm hH => ⟨fun hw0 => objText_heap env w.objects heap m o ((sortedObjs_mem env henv w m o).1 hm) (hH.1 hw0),
        fun hc => by rw [← hH.2.1 hc]; unfold objText; cases o.stream <;> simp [hc],
        fun a k hk => (objText_same env heap m o a k hk).trans (hH.2.2 a k hk)⟩) n p
      ((Map.get_eq_some_iff _ hnd n p).1 hg)
    have hobj := (sortedObjs_mem env henv w n o).1 hmo
    obtain ⟨c, hc, htext⟩ := objText_body env heap1 w n o hn hobj hheap.1 hheap.2.1 hheap.2.2
    refine ⟨c, hc, ?_⟩
    rw [← htext, hout, hpk]
    apply Writer.drop_append_prefix
    exact prefix_drop_append _ hpre
  have hmax : ∀ e ∈ (tableBody env w).2.1, e.2 ≤ 9223372036854775807 := by
    rintro ⟨n, p⟩ he
    obtain ⟨_, _, k, _, _, hk, _, hkl⟩ := writeObjs_at env (fun _ => false) _ w.heap (sortedObjs env w)
      (fun _ => True) trivial (fun _ _ _ _ _ => trivial) n p he
    rw [hout] at hsize
    simp only [List.length_append] at hsize
    unfold tableBody at hsize
    simp only
    omega
  have hread : ∀ n : Int, (baseSection env w).objects.get n =
      if 1 ≤ n ∧ n < w.nextObjNum then ((tableBody env w).2.1.get n).map Int.ofNat else none :=
    fun n => tableLines_read w.nextObjNum hinv.next_pos hnext _ hmax st0 rfl n
  have hkeys : ∀ n, ((tableBody env w).2.1.get n).isSome ↔ (w.objects.get n).isSome := by
    intro n
    rw [Map.get_isSome_iff, Map.get_isSome_iff, hp.mem_iff]
  have hlt : ∀ n p, (tableBody env w).2.1.get n = some p → n < w.nextObjNum := fun n p hg =>
    hinv.lt_next n ((Map.get_isSome_iff _ _).1 ((hkeys n).1 (by rw [hg]; rfl)))
  have hex : ∀ n, ∃ r : Option Bytes, ((((tableBody env w).2.1.get n = none ∨ ¬ 1 ≤ n) ∧ r = none) ∨
      ∃ p c, (tableBody env w).2.1.get n = some p ∧ 1 ≤ n ∧ r = some c ∧ IsBody env w n c ∧
        (itoa n ++ b!" 0 obj\n" ++ c ++ b!"\nendobj\n") <+: (write env w).1.drop p) := by
    intro n
    by_cases hn : 1 ≤ n
    · cases hg : (tableBody env w).2.1.get n with
      | none => exact ⟨none, .inl ⟨.inl rfl, rfl⟩⟩
      | some p =>
        obtain ⟨c, h1, h2⟩ := hat n p hg hn
        exact ⟨some c, .inr ⟨p, c, rfl, hn, rfl, h1, h2⟩⟩
    · exact ⟨none, .inl ⟨.inr hn, rfl⟩⟩
  obtain ⟨base, hbase⟩ := Classical.axiomOfChoice hex
  refine ⟨base, ?_, ?_, ?_⟩
  · intro n
    simp only [List.reverse_singleton, List.findSome?_cons, List.findSome?_nil, hread]
    rcases hbase n with ⟨h1 | h1, h2⟩ | ⟨p, c, h1, h2, h3, h4, h5⟩
    · left; rw [h1, h2]; simp
    · left; rw [if_neg (fun h => h1 h.1), h2]; simp
    · right; refine ⟨p, c, ?_, h3, h5⟩
      rw [if_pos ⟨h2, hlt n p h1⟩, h1]; rfl
  · intro n
    rcases hbase n with ⟨h1 | h1, h2⟩ | ⟨p, c, h1, h2, h3, h4, h5⟩
    · simp only [h2, ← hkeys, h1]; simp
    · simp only [h2]; simp [h1]
    · simp only [h3, ← hkeys, h1]; simp [h2]
  · intro n c hc
    rcases hbase n with ⟨h1 | h1, h2⟩ | ⟨p, c', h1, h2, h3, h4, h5⟩
    · simp only [h2] at hc; simp at hc
    · simp only [h2] at hc; simp at hc
    · simp only [h3] at hc; simp at hc; subst hc; exact h4

theorem good_base (unz : Bytes → Option Bytes) (env : Writer.Env) (ops : List Op)
    (hx : (run env ops).useXRefStream = false) (ho : (run env ops).useObjectStream = false)
    (hsize : (write env (run env ops)).1.length ≤ 9223372036854775807)
    (honce : ∀ i j, (write env (run env ops)).1.length ≤ i + 106 → (write env (run env ops)).1.length ≤ j + 106 →
      Spec.OccursAt b!"startxref" (write env (run env ops)).1 i →
      Spec.OccursAt b!"startxref" (write env (run env ops)).1 j → i = j)
    (hwin : (xrefTable (run env ops).nextObjNum (tableBody env (run env ops)).2.1).length + 8 ≤ window) :
    Good unz (baseFile env (run env ops)) [] [baseSection env (run env ops)] :=
  good_base_w unz env _ (refOrNil_run env ops) hx ho hsize honce hwin

theorem loc_base (env : Writer.Env) (henv : ∀ l, (env.order l).Perm l) (ops : List Op)
    (hx : (run env ops).useXRefStream = false) (ho : (run env ops).useObjectStream = false)
    (hsize : (write env (run env ops)).1.length ≤ 9223372036854775807)
    (hnext : (run env ops).nextObjNum ≤ 9223372036854775807) :
    ∃ base : Int → Option Bytes, Loc (write env (run env ops)).1 [baseSection env (run env ops)] base ∧
      (∀ n, (base n).isSome ↔ 1 ≤ n ∧ ((run env ops).objects.get n).isSome) ∧
      (∀ n c, base n = some c → IsBody env (run env ops) n c) :=
  loc_base_w env henv _ (inv_run env ops) hx ho hsize hnext

end Pdfer.Incremental
