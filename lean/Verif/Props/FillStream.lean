import Verif.Props.Fill

/-! C126: filling fields that are kept in an object stream. -/

namespace Pdfer.Props

open Pdfer.Go Pdfer.Forms Pdfer.Fill Pdfer.FormsApi Pdfer.Spec Pdfer.Spec.Forms Pdfer.Spec.Fill

variable {F S : Type}

/-- The texts to be stored in the stream, one for each known name. -/
def newTexts (obj : Int → Res Bytes) (fs : List Field) (data : List (Bytes × Val)) : List (Int × Bytes) :=
  data.filterMap fun d => match findField fs d.1 with
    | none => none
    | some (f, _) => match obj f.attrs.num with
      | .ok o => (setValue o d.2 f.attrs.ft).map fun x => (f.attrs.num, x)
      | _ => none

theorem stream_found {unz : Bytes → Option Bytes} {pdf : Bytes} {n : Int} {stm : Nat} (h : InObjectStream unz pdf n stm) : findStream unz pdf n = .ok stm := by
  obtain ⟨before, rest, start, idx, r, h1, h2, h3, h4, h5⟩ := h
  have : findStartXRef pdf = some start := by
    unfold findStartXRef
    rw [h1]
    have := Manipulate.searchWith_first (c := 115) (k := b!"tartxref") (pre := before) (t := b!"startxref" ++ (10 :: (natDec start ++ (10 :: rest))))
      (Incremental.reKeyNum_prefix b!"startxref") (by intro d hd; simp at hd; subst hd; decide) (Manipulate.noOcc_iff_infix.2 h2)
    rw [this, searchWith_here (Incremental.reKeyNum_nl _ _ _ (by intro c hc; simp at hc; subst hc; decide))]
    exact Incremental.atoiMag_natDec start (by omega)
  unfold findStream
  rw [this]
  simp only [h4, h5]
  rfl

theorem last_texts (obj : Int → Res Bytes) (fs : List Field) (data : List (Bytes × Val))
    (hd : ∀ d ∈ data, ∀ f full, findField fs d.1 = some (f, full) → ∃ o x, obj f.attrs.num = .ok o ∧ setValue o d.2 f.attrs.ft = some x) (n : Int) (x : Bytes) :
    Map.get ((newTexts obj fs data).foldl (fun (m : Map Int Bytes) e => m.set e.1 e.2) []) n = some x ↔ LastText obj fs data n x := by
  induction data using snoc_induction with
  | nil =>
    constructor
    · intro h; simp [newTexts, Map.get] at h
    · rintro ⟨before, d, after, _, _, _, h, _⟩
      simp at h
  | snoc data d ih =>
    have ih := ih (fun d' h' => hd d' (by simp [h']))
    have hsplit : newTexts obj fs (data ++ [d]) = newTexts obj fs data ++ newTexts obj fs [d] := by simp [newTexts]
    rw [hsplit, List.foldl_append]
    cases hf : findField fs d.1 with
    | none =>
      have e : newTexts obj fs [d] = [] := by simp [newTexts, hf]
      rw [e]
      refine ih.trans ?_
      constructor
      · rintro ⟨b, d0, a, f, full, o, rfl, h1, h2, h3, h4, h5⟩
        refine ⟨b, d0, a ++ [d], f, full, o, by simp, h1, h2, h3, h4, ?_⟩
        intro d' hd' f' full' hf'
        rcases List.mem_append.1 hd' with h | h
        · exact h5 d' h f' full' hf'
        · simp at h; subst h; rw [hf] at hf'; cases hf'
      · rintro ⟨b, d0, a, f, full, o, e, h1, h2, h3, h4, h5⟩
        rcases List.eq_nil_or_concat a with rfl | ⟨a', z, rfl⟩
        · have := List.append_inj' e rfl
          simp only [List.cons.injEq, and_true] at this
          rw [← this.2, hf] at h1
          cases h1
        · simp only [List.concat_eq_append] at e h5
          have e' : data ++ [d] = (b ++ d0 :: a') ++ [z] := by rw [e]; simp
          obtain ⟨e1, e2⟩ := List.append_inj' e' rfl
          exact ⟨b, d0, a', f, full, o, e1, h1, h2, h3, h4, fun d' hd' => h5 d' (by simp [hd'])⟩
    | some p =>
      obtain ⟨f, full⟩ := p
      obtain ⟨o, y, ho, hy⟩ := hd d (by simp) f full hf
      have e : newTexts obj fs [d] = [(f.attrs.num, y)] := by simp [newTexts, hf, ho, hy]
      rw [e]
      simp only [List.foldl_cons, List.foldl_nil]
      by_cases hn : f.attrs.num = n
      · subst hn
        rw [Map.get_set_eq]
        constructor
        · intro h
          cases h
          exact ⟨data, d, [], f, full, o, rfl, hf, rfl, ho, hy, by simp⟩
        · rintro ⟨b, d0, a, f0, full0, o0, e, h1, h2, h3, h4, h5⟩
          rcases List.eq_nil_or_concat a with rfl | ⟨a', z, rfl⟩
          · have := List.append_inj' e rfl
            simp only [List.cons.injEq, and_true] at this
            rw [← this.2, hf] at h1
            cases h1
            rw [ho] at h3
            cases h3
            rw [← this.2, hy] at h4
            exact h4
          · simp only [List.concat_eq_append] at e h5
            have e' : data ++ [d] = (b ++ d0 :: a') ++ [z] := by rw [e]; simp
            obtain ⟨e1, e2⟩ := List.append_inj' e' rfl
            simp only [List.cons.injEq, and_true] at e2
            exact absurd rfl (h5 d (by simp [e2]) f full hf)
      · rw [Map.get_set_ne _ _ (Ne.symm hn)]
        refine ih.trans ?_
        constructor
        · rintro ⟨b, d0, a, f0, full0, o0, rfl, h1, h2, h3, h4, h5⟩
          refine ⟨b, d0, a ++ [d], f0, full0, o0, by simp, h1, h2, h3, h4, ?_⟩
          intro d' hd' f' full' hf'
          rcases List.mem_append.1 hd' with h | h
          · exact h5 d' h f' full' hf'
          · simp at h; subst h; rw [hf] at hf'; cases hf'; exact hn
        · rintro ⟨b, d0, a, f0, full0, o0, e, h1, h2, h3, h4, h5⟩
          rcases List.eq_nil_or_concat a with rfl | ⟨a', z, rfl⟩
          · have := List.append_inj' e rfl
            simp only [List.cons.injEq, and_true] at this
            rw [← this.2, hf] at h1
            cases h1
            exact absurd h2 hn
          · simp only [List.concat_eq_append] at e h5
            have e' : data ++ [d] = (b ++ d0 :: a') ++ [z] := by rw [e]; simp
            obtain ⟨e1, e2⟩ := List.append_inj' e' rfl
            exact ⟨b, d0, a', f0, full0, o0, e1, h1, h2, h3, h4, fun d' hd' => h5 d' (by simp [hd'])⟩

/-- The loop, when all fields are in one object stream. -/
theorem fillAll_stream (src : XFA.Src) (pdf : Bytes) (obj : Int → Res Bytes) (fs : List Field) (stm : Nat) (hstm : 0 < stm) (data : List (Bytes × Val))
    (hd : ∀ d ∈ data, ∀ f full, findField fs d.1 = some (f, full) → ∃ o x, obj f.attrs.num = .ok o ∧ inStream o f.attrs.num = true ∧
      setValue o d.2 f.attrs.ft = some x ∧ InObjectStream src.unz pdf f.attrs.num stm) :
    ∀ (st : St) (l : List (Int × Bytes)), st.updates = (if l = [] then [] else [(stm, l)]) →
      fillAll src pdf obj fs data st = .ok { st with updates := if l ++ newTexts obj fs data = [] then [] else [(stm, l ++ newTexts obj fs data)] } := by
  induction data with
  | nil =>
    intro st l hl
    simp only [fillAll, newTexts, List.filterMap_nil, List.append_nil, ← hl]
  | cons d ds ih =>
    intro st l hl
    have ih := ih (fun d' h' => hd d' (List.mem_cons_of_mem _ h'))
    rw [fillAll]
    cases hf : findField fs d.1 with
    | none =>
      have e : newTexts obj fs (d :: ds) = newTexts obj fs ds := by simp [newTexts, hf]
      have : fillOne src pdf obj fs st d = .ok st := by unfold fillOne; rw [hf]
      rw [this, e]
      exact ih st l hl
    | some p =>
      obtain ⟨f, full⟩ := p
      obtain ⟨o, x, ho, hi, hx, hs⟩ := hd d (by simp) f full hf
      have e : newTexts obj fs (d :: ds) = (f.attrs.num, x) :: newTexts obj fs ds := by simp [newTexts, hf, ho, hx]
      have h1 : fillOne src pdf obj fs st d = .ok { st with updates := [(stm, l ++ [(f.attrs.num, x)])] } := by
        unfold fillOne
        rw [hf]
        simp only [ho, hi, if_true, hx, stream_found hs, Res.bind, if_pos (show stm > 0 from hstm), hl]
        by_cases hn : l = []
        · subst hn; simp [Map.set, Map.get]
        · rw [if_neg hn]; simp [Map.set, Map.get]
      rw [h1, e]
      have := ih { st with updates := [(stm, l ++ [(f.attrs.num, x)])] } (l ++ [(f.attrs.num, x)]) (by simp)
      simp only [Res.bind, this]
      simp

/-- C126: when the named fields are kept in one object stream, filling is one rebuilding of that stream with, for every field, the text of the
last value given for it – and so, of several fields in the stream, all get their values.
Partial: fields in different streams; C50 tells what rebuilding does to the stream. -/
theorem C126_stream_partial (c : Ctx F S) (zip : Bytes → Bytes) (pdf : Bytes) (data : List (Bytes × Val)) (p : Incremental.Pdf) (fs : List Field)
    (stm : Nat) (hstm : 0 < stm)
    (hopen : Incremental.openPdf c.env pdf = .ok p) (hform : extractAcroForm c pdf = .ok fs)
    (hd : ∀ d ∈ data, ∀ f full, findField fs d.1 = some (f, full) → ∃ o x, Incremental.getObject c.env p f.attrs.num = .ok o ∧
      ¬ (itoa f.attrs.num ++ b!" 0 obj") <:+: o.take 50 ∧ setValue o d.2 f.attrs.ft = some x ∧ InObjectStream c.src.unz pdf f.attrs.num stm)
    (hsome : ∃ d ∈ data, ∃ full f, FieldAt2 fs full f ∧ (full = d.1 ∨ f.attrs.t = d.1)) :
    ∃ updates : Map Int Bytes, (∀ n x, updates.get n = some x ↔ LastText (Incremental.getObject c.env p) fs data n x) ∧
      fillForm c zip pdf data = rebuildObjectStream (Document.getObject c.src.unz none) c.src.unz zip pdf stm updates := by
  have hne : pdf ≠ [] := by
    rintro rfl
    simp [Incremental.openPdf] at hopen
  have hd' : ∀ d ∈ data, ∀ f full, findField fs d.1 = some (f, full) → ∃ o x, Incremental.getObject c.env p f.attrs.num = .ok o ∧
      inStream o f.attrs.num = true ∧ setValue o d.2 f.attrs.ft = some x ∧ InObjectStream c.src.unz pdf f.attrs.num stm := by
    intro d hdm f full hf
    obtain ⟨o, x, h1, h2, h3, h4⟩ := hd d hdm f full hf
    refine ⟨o, x, h1, ?_, h3, h4⟩
    unfold inStream
    cases hc : contains (o.take 50) (itoa f.attrs.num ++ b!" 0 obj") with
    | true => exact absurd ((Manipulate.contains_iff _ _).1 hc) h2
    | false => rfl
  refine ⟨(newTexts (Incremental.getObject c.env p) fs data).foldl (fun (m : Map Int Bytes) e => m.set e.1 e.2) [],
    last_texts (Incremental.getObject c.env p) fs data ?_, ?_⟩
  · intro d hdm f full hf
    obtain ⟨o, x, h1, _, h3, _⟩ := hd d hdm f full hf
    exact ⟨o, x, h1, h3⟩
  · have hnew : newTexts (Incremental.getObject c.env p) fs data ≠ [] := by
      obtain ⟨d, hdm, full, f, h1, h2⟩ := hsome
      cases hf : findField fs d.1 with
      | none =>
        have := (findField_none fs d.1).1 hf full f h1
        rcases h2 with h | h
        · exact absurd h this.1
        · exact absurd h this.2
      | some q =>
        obtain ⟨g, fl⟩ := q
        obtain ⟨o, x, h1, _, h3, _⟩ := hd d hdm g fl hf
        intro he
        have : (g.attrs.num, x) ∈ newTexts (Incremental.getObject c.env p) fs data := by
          unfold newTexts
          rw [List.mem_filterMap]
          exact ⟨d, hdm, by simp [hf, h1, h3]⟩
        rw [he] at this
        cases this
    have h1 := fillAll_stream c.src pdf (Incremental.getObject c.env p) fs stm hstm data hd' { file := pdf } [] rfl
    rw [List.nil_append, if_neg hnew] at h1
    unfold fillForm
    rw [if_neg hne, hopen, hform]
    simp only [Res.bind]
    rw [h1]
    simp only [rebuildAll]
    have hb : ∀ u b, rebuildObjectStream (Document.getObject c.src.unz none) c.src.unz zip pdf stm u = .ok b → b ≠ [] := by
      intro u b h
      unfold rebuildObjectStream at h
      simp only [Res.bind] at h
      repeat' split at h
      all_goals first | cases h | skip
      simp
    cases hr : rebuildObjectStream (Document.getObject c.src.unz none) c.src.unz zip pdf stm
        ((newTexts (Incremental.getObject c.env p) fs data).foldl (fun m e => m.set e.1 e.2) []) with
    | panic => rfl
    | err => simp
    | ok b => simp [hb _ b hr]

/-- C126: the ways to fill a form are the same: filling against a schema and extracting before filling give the outcome of `FillForm`, whatever the
schema is and whatever the validation reports – it blocks nothing. -/
theorem C126_entries (c : Ctx F S) (zip : Bytes → Bytes) (ck : Checks F) (pdf : Bytes) (qs : List (Question F)) (data : List (Bytes × Val)) :
    (fillFromSchema c zip ck pdf qs data).2 = fillForm c zip pdf data ∧ (extractAndFill c zip pdf data).2 = fillForm c zip pdf data := by
  refine ⟨rfl, ?_⟩
  unfold extractAndFill
  cases he : extractAcroForm c pdf with
  | ok fs => rfl
  | err =>
    simp only
    unfold fillForm
    split
    · rfl
    · cases ho : Incremental.openPdf c.env pdf with
      | ok p => simp [Res.bind, he]
      | err => rfl
      | panic => simp [extractAcroForm, ho, Res.bind] at he
  | panic =>
    simp only
    unfold fillForm
    rw [if_neg (by rintro rfl; simp [extractAcroForm, Incremental.openPdf, Res.bind] at he)]
    cases ho : Incremental.openPdf c.env pdf with
    | ok p => simp [Res.bind, he]
    | err => simp [extractAcroForm, ho, Res.bind] at he
    | panic => rfl

/-! The hypotheses can be met: two fields (objects 1 and 2) in the object stream 3, the form (4), the catalog (5) and the cross-reference stream (6). -/

/-- The object stream. -/
def exStm : Bytes :=
  b!"3 0 obj\n<</Type/ObjStm /N 2 /First 9 /Length 64>>\nstream\n1 0 2 28 << /FT /Tx /T (a) /V (x) >> << /FT /Tx /T (b) /V (y) >>\nendstream\nendobj\n"

/-- The file. -/
def exStmFile : Bytes :=
  b!"%PDF-1.5\n" ++ exStm ++
    b!"4 0 obj\n<</Fields [1 0 R 2 0 R]>>\nendobj\n5 0 obj\n<</Type/Catalog/AcroForm 4 0 R>>\nendobj\n6 0 obj\n<</Type/XRef /Size 7 /W [1 2 1] /Root 5 0 R>>\nstream\n" ++
    [0, 0, 0, 0, 2, 0, 3, 0, 2, 0, 3, 1, 1, 0, 9, 0, 1, 0, 148, 0, 1, 0, 189, 0, 1, 0, 237, 0] ++ b!"\nendstream\nendobj\nstartxref\n237\n%%EOF\n"

/-- The streams are not compressed. -/
def exStmCtx : Ctx Bool Nat := { exCtx with src := { xfaSrc with unz := some } }

theorem exStm_in (n : Int) (i : Nat) (h : (n, i) ∈ [((1 : Int), 0), (2, 1)]) : InObjectStream some exStmFile n 3 := by
  obtain ⟨r, hr, h1, h2⟩ : ∃ r, XRefStream.parseFull some exStmFile 237 = .ok r ∧ r.objectStreams.get 1 = some (3, 0) ∧ r.objectStreams.get 2 = some (3, 1) := by
    have hk : (match XRefStream.parseFull some exStmFile 237 with
        | .ok r => decide (r.objectStreams.get 1 = some (3, 0) ∧ r.objectStreams.get 2 = some (3, 1))
        | _ => false) = true := by decide +kernel
    revert hk
    cases XRefStream.parseFull some exStmFile 237 with
    | ok r => intro h; exact ⟨r, rfl, of_decide_eq_true h⟩
    | err => intro h; cases h
    | panic => intro h; cases h
  have hdrop : exStmFile.drop (exStmFile.length - 1024) = exStmFile.take 344 ++ (b!"startxref" ++ (10 :: (natDec 237 ++ (10 :: b!"%%EOF\n")))) := by decide +kernel
  have hno : ¬ b!"startxref" <:+: exStmFile.take 344 := by rw [← Manipulate.noOcc_iff_infix, noOcc_iff_index]; decide +kernel
  simp only [List.mem_cons, Prod.mk.injEq, List.not_mem_nil, or_false] at h
  rcases h with ⟨rfl, rfl⟩ | ⟨rfl, rfl⟩
  · exact ⟨_, _, 237, 0, r, hdrop, hno, by decide, hr, h1⟩
  · exact ⟨_, _, 237, 1, r, hdrop, hno, by decide, hr, h2⟩

/-- For examples: the outcome of opening and extracting. -/
def okAnd {α : Type} (r : Res α) (p : α → Bool) : Bool := match r with | .ok a => p a | _ => false

theorem okAnd_iff {α : Type} {r : Res α} {p : α → Bool} (h : okAnd r p = true) : ∃ a, r = .ok a ∧ p a = true := by
  cases r with
  | ok a => exact ⟨a, rfl, h⟩
  | err => cases h
  | panic => cases h

/-- Both fields of the stream are filled by one rebuilding, though the data names them in two entries. -/
example : ∃ updates : Map Int Bytes,
    updates.get 1 = some b!"<< /FT /Tx /T (a) /V (new) >>" ∧ updates.get 2 = some b!"<< /FT /Tx /T (b) /V (value) >>" ∧
    fillForm exStmCtx id exStmFile [(b!"a", .str b!"new"), (b!"b", .str b!"value")] =
      rebuildObjectStream (Document.getObject some none) some id exStmFile 3 updates := by
  obtain ⟨p, hp, hp'⟩ := okAnd_iff (r := Incremental.openPdf exStmCtx.env exStmFile) (p := fun p =>
    okAnd (Incremental.getObject exStmCtx.env p 1) (fun o => decide (o = b!"<< /FT /Tx /T (a) /V (x) >>")) &&
    okAnd (Incremental.getObject exStmCtx.env p 2) (fun o => decide (o = b!"<< /FT /Tx /T (b) /V (y) >>"))) (by decide +kernel)
  simp only [Bool.and_eq_true] at hp'
  obtain ⟨o1, ho1, e1⟩ := okAnd_iff hp'.1
  obtain ⟨o2, ho2, e2⟩ := okAnd_iff hp'.2
  have e1 := of_decide_eq_true e1
  have e2 := of_decide_eq_true e2
  obtain ⟨fs, hfs, hf⟩ := okAnd_iff (r := extractAcroForm exStmCtx exStmFile) (p := fun fs =>
    (match findField fs b!"a" with | some (f, _) => decide (f.attrs.num = 1 ∧ f.attrs.ft = b!"Tx") | none => false) &&
    (match findField fs b!"b" with | some (f, _) => decide (f.attrs.num = 2 ∧ f.attrs.ft = b!"Tx") | none => false)) (by decide +kernel)
  simp only [Bool.and_eq_true] at hf
  obtain ⟨ha, hb⟩ := hf
  cases ha' : findField fs b!"a" with
  | none => rw [ha'] at ha; cases ha
  | some fa =>
    obtain ⟨f, full⟩ := fa
    cases hb' : findField fs b!"b" with
    | none => rw [hb'] at hb; cases hb
    | some fb =>
      obtain ⟨g, gull⟩ := fb
      rw [ha'] at ha
      rw [hb'] at hb
      have ha := of_decide_eq_true ha
      have hb := of_decide_eq_true hb
      have s1 : setValue o1 (.str b!"new") f.attrs.ft = some b!"<< /FT /Tx /T (a) /V (new) >>" := by rw [e1, ha.2]; decide +kernel
      have s2 : setValue o2 (.str b!"value") g.attrs.ft = some b!"<< /FT /Tx /T (b) /V (value) >>" := by rw [e2, hb.2]; decide +kernel
      obtain ⟨updates, hu, hfill⟩ := C126_stream_partial exStmCtx id exStmFile [(b!"a", .str b!"new"), (b!"b", .str b!"value")] p fs 3 (by decide) hp hfs
        (by
          intro d hd x xfull hx
          simp only [List.mem_cons, List.not_mem_nil, or_false] at hd
          rcases hd with rfl | rfl
          · rw [ha'] at hx
            cases hx
            refine ⟨o1, _, by rw [ha.1]; exact ho1, ?_, s1, by rw [ha.1]; exact exStm_in 1 0 (by simp)⟩
            rw [ha.1, e1, ← Manipulate.noOcc_iff_infix, noOcc_iff_index]
            decide +kernel
          · rw [hb'] at hx
            cases hx
            refine ⟨o2, _, by rw [hb.1]; exact ho2, ?_, s2, by rw [hb.1]; exact exStm_in 2 1 (by simp)⟩
            rw [hb.1, e2, ← Manipulate.noOcc_iff_infix, noOcc_iff_index]
            decide +kernel)
        (by
          obtain ⟨k1, k2⟩ := findField_some fs b!"a" f full ha'
          exact ⟨_, List.mem_cons_self, full, f, k1, k2⟩)
      refine ⟨updates, (hu 1 _).2 ?_, (hu 2 _).2 ?_, hfill⟩
      · refine ⟨[], _, _, f, full, o1, rfl, ha', ha.1, ho1, s1, ?_⟩
        intro d' hd' f' full' hf'
        simp only [List.mem_cons, List.not_mem_nil, or_false] at hd'
        subst hd'
        rw [hb'] at hf'
        cases hf'
        rw [hb.1]
        decide
      · exact ⟨[_], _, [], g, gull, o2, rfl, hb', hb.1, ho2, s2, by simp⟩

end Pdfer.Props
