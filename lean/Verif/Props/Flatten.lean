import Verif.Model.Flatten
import Verif.Spec.Flatten
import Verif.Props.FormsApi
import Verif.Props.Strings

/-! C149–C151: flattening a form, reading the appearance of a field, making appearances. -/

namespace Pdfer.Props

open Pdfer.Go Pdfer.Forms Pdfer.FormsApi Pdfer.Flatten Pdfer.Spec.Flatten Pdfer.Manipulate
open Pdfer.Spec.Manipulate (White)

variable {F S : Type}

/-! ### C149 -/

/-- The expression that `flatten` removes. -/
def formRe (s : Bytes) : Option Bytes :=
  (reLit b!"/AcroForm" s).bind fun s => (reSp1 s).bind fun s => (reRef2 s).map (·.2)

theorem flatten_eq (s : Bytes) : Forms.flatten s = replaceRe formRe (fun _ => []) 0 s := rfl

theorem white_not_digit {c : UInt8} (h : White c) : isDigit c = false := by
  rcases h with rfl | rfl | rfl | rfl | rfl <;> decide

theorem head_append {a b : Bytes} {c : UInt8} (h : (a ++ b).head? = some c) (ha : a ≠ []) : c ∈ a := by
  cases a with
  | nil => exact absurd rfl ha
  | cons x a => simp at h; simp [h]

theorem ref2_here {w2 w3 d1 d2 s : Bytes} (h1 : d1 ≠ [] ∧ ∀ c ∈ d1, isDigit c = true) (hw2 : w2 ≠ [] ∧ ∀ c ∈ w2, White c)
    (h2 : d2 ≠ [] ∧ ∀ c ∈ d2, isDigit c = true) (hw3 : w3 ≠ [] ∧ ∀ c ∈ w3, White c) :
    reRef2 (d1 ++ (w2 ++ (d2 ++ (w3 ++ (b!"R" ++ s))))) = some ((atoiClamp d1, atoiClamp d2), s) := by
  have dd : ∀ {d t : Bytes}, (d ≠ [] ∧ ∀ c ∈ d, isDigit c = true) → ∀ c, (d ++ t).head? = some c → reSpace c = false :=
    fun h c hc => isDigit_not_reSpace (h.2 _ (head_append hc h.1))
  have ww : ∀ {d t : Bytes}, (d ≠ [] ∧ ∀ c ∈ d, White c) → ∀ c, (d ++ t).head? = some c → isDigit c = false :=
    fun h c hc => white_not_digit (h.2 _ (head_append hc h.1))
  have rr : ∀ c, (b!"R" ++ s).head? = some c → reSpace c = false := by intro c hc; simp at hc; subst hc; decide
  unfold reRef2
  rw [reNum_digits h1.1 h1.2 (ww hw2), Option.bind_some, reSp1_white hw2.1 (fun c hc => white_reSpace.1 (hw2.2 c hc)) (dd h2), Option.bind_some,
    reNum_digits h2.1 h2.2 (ww hw3), Option.bind_some, reSp1_white hw3.1 (fun c hc => white_reSpace.1 (hw3.2 c hc)) rr, Option.bind_some, reLit_append]
  rfl

theorem formRe_here {m : Bytes} (h : FormRef m) (s : Bytes) : formRe (m ++ s) = some s := by
  obtain ⟨w1, d1, w2, d2, w3, hw1, h1, hw2, h2, hw3, rfl⟩ := h
  unfold formRe
  simp only [List.append_assoc]
  rw [reLit_append, Option.bind_some, reSp1_white hw1.1 (fun c hc => white_reSpace.1 (hw1.2 c hc))
    (fun c hc => isDigit_not_reSpace (h1.2 _ (head_append hc h1.1))), Option.bind_some, ref2_here h1 hw2 h2 hw3]
  rfl

theorem formRe_some {s rest : Bytes} (h : formRe s = some rest) : ∃ m, FormRef m ∧ s = m ++ rest := by
  unfold formRe reRef2 at h
  simp only [Option.bind_eq_some_iff, Option.map_eq_some_iff] at h
  obtain ⟨t1, e1, t2, e2, ⟨⟨p, t6⟩, ⟨p1, e3, t3, e4, p2, e5, t5, e6, x, e7, e8⟩, rfl⟩⟩ := h
  obtain ⟨w1, hw1, hw1', rfl⟩ := reSp1_spec e2
  obtain ⟨hd1, hd1', e3', _⟩ := reNum_some (s := t2) (d := p1.1) (t := p1.2) e3
  obtain ⟨w2, hw2, hw2', e4'⟩ := reSp1_spec e4
  obtain ⟨hd2, hd2', e5', _⟩ := reNum_some (s := t3) (d := p2.1) (t := p2.2) e5
  obtain ⟨w3, hw3, hw3', e6'⟩ := reSp1_spec e6
  have e7' := reLit_some e7
  simp only [Prod.mk.injEq] at e8
  obtain ⟨_, rfl⟩ := e8
  refine ⟨_, ⟨w1, p1.1, w2, p2.1, w3, ⟨hw1, hw1'⟩, ⟨hd1, hd1'⟩, ⟨hw2, hw2'⟩, ⟨hd2, hd2'⟩, ⟨hw3, hw3'⟩, rfl⟩, ?_⟩
  rw [reLit_some e1, e3', e4', e5', e6', e7']
  simp

theorem formRef_ne {m : Bytes} (h : FormRef m) : m ≠ [] := by
  obtain ⟨_, _, _, _, _, _, _, _, _, _, rfl⟩ := h
  simp

theorem without_flatten (s : Bytes) : Without s (Forms.flatten s) := by
  rw [flatten_eq]
  suffices h : ∀ n (s : Bytes), s.length ≤ n → Without s (replaceRe formRe (fun _ => []) 0 s) from h _ s (Nat.le_refl _)
  intro n
  induction n with
  | zero => intro s hs; cases s with | nil => exact .nil | cons c s => simp at hs
  | succ n ih =>
    intro s hs
    cases s with
    | nil => exact .nil
    | cons c s =>
      cases hp : formRe (c :: s) with
      | none =>
        have : replaceRe formRe (fun _ => []) 0 (c :: s) = c :: replaceRe formRe (fun _ => []) 0 s := by rw [replaceRe, hp]
        rw [this]
        refine .keep c (fun m rest he hm => ?_) (ih s (by simpa using hs))
        rw [he, formRe_here hm] at hp
        cases hp
      | some rest =>
        obtain ⟨m, hm, he⟩ := formRe_some hp
        rw [he, replaceRe_here (formRef_ne hm) (formRe_here hm rest), List.nil_append]
        refine .leave m hm (ih rest ?_)
        have := congrArg List.length he
        have h0 := List.length_pos_iff.2 (formRef_ne hm)
        simp at this hs
        omega

/-- C149: the exact effect of `FlattenForm` on any file that opens and has a form: from left to right every reference to the form is taken out,
and every other byte is kept. -/
theorem C149_exact (c : Ctx F S) (pdf r : Bytes) (p : Incremental.Pdf) (fs : List Field) (ho : Incremental.openPdf c.env pdf = .ok p)
    (hf : extractAcroForm c pdf = .ok fs) : flattenForm c pdf = .ok r ↔ Without pdf r := by
  unfold flattenForm
  rw [ho, hf]
  simp only [Res.bind, Res.ok.injEq]
  constructor
  · rintro rfl; exact without_flatten pdf
  · intro h
    rw [flatten_eq]
    clear ho hf
    induction h with
    | nil => rfl
    | keep c hk _ ih =>
      rename_i s r _
      have hp : formRe (c :: s) = none := by
        cases hp : formRe (c :: s) with
        | none => rfl
        | some rest => obtain ⟨m, hm, he⟩ := formRe_some hp; exact absurd hm (hk m rest he)
      rw [replaceRe, hp, ih]
    | leave m hm _ ih => rw [replaceRe_here (formRef_ne hm) (formRe_here hm _), List.nil_append, ih]

/-- C149 (partial: one reference, and the name of the key nowhere else, not even across the place where it was): the reference is gone, all other
bytes are there, and no form is found in the result any more. -/
theorem C149_gone_partial (c : Ctx F S) (a m b : Bytes) (p : Incremental.Pdf) (fs : List Field) (hm : FormRef m) (hab : ¬ b!"/AcroForm" <:+: a ++ b)
    (ho : Incremental.openPdf c.env (a ++ m ++ b) = .ok p) (hf : extractAcroForm c (a ++ m ++ b) = .ok fs) :
    flattenForm c (a ++ m ++ b) = .ok (a ++ b) ∧ ∀ fs', extractAcroForm c (a ++ b) ≠ .ok fs' := by
  constructor
  · have hna : NoOcc b!"/AcroForm" a := noOcc_iff_infix.2 fun h => hab (h.trans (List.prefix_append _ _).isInfix)
    have hnb : NoOcc b!"/AcroForm" b := noOcc_iff_infix.2 fun h => hab (h.trans (List.suffix_append _ _).isInfix)
    have hp : ∀ s, formRe s ≠ none → b!"/AcroForm" <+: s := by
      intro s hs
      apply reLit_prefix
      intro hn
      apply hs
      simp [formRe, hn]
    unfold flattenForm
    rw [ho, hf]
    simp only [Res.bind, Res.ok.injEq]
    rw [flatten_eq, List.append_assoc, replaceRe_first hp ?_ hna, replaceRe_here (formRef_ne hm) (formRe_here hm b), replaceRe_none hp hnb, List.nil_append]
    intro d hd
    obtain ⟨_, _, _, _, _, _, _, _, _, _, rfl⟩ := hm
    simp at hd
    subst hd
    decide
  · intro fs' h
    unfold extractAcroForm at h
    have : searchWith XFA.reAcroForm (a ++ b) = none := searchWith_none (fun s hs => XFA.reAcroForm_prefix hs) (noOcc_iff_infix.2 hab)
    rw [this] at h
    cases ho : Incremental.openPdf c.env (a ++ b) <;> rw [ho] at h <;> simp [Res.bind, Res.ofOption] at h

/-- C149: nothing is ever drawn: the flattened file is never longer than the file was, so that no value of a field gets into the content of a page; and
`FlattenField` gives back the file it got. -/
theorem C149_nothing_drawn_violated (c : Ctx F S) (pdf r : Bytes) :
    (flattenForm c pdf = .ok r → r.length ≤ pdf.length) ∧ (∀ n, flattenField c pdf n = .ok r → r = pdf) := by
  have key : ∀ {s r : Bytes}, Without s r → r.length ≤ s.length := by
    intro s r h
    induction h with
    | nil => simp
    | keep c _ _ ih => simpa using ih
    | leave m _ _ ih => simp only [List.length_append]; omega
  constructor
  · intro h
    unfold flattenForm at h
    cases ho : Incremental.openPdf c.env pdf <;> rw [ho] at h <;> simp [Res.bind] at h
    cases hf : extractAcroForm c pdf <;> rw [hf] at h <;> simp at h
    rw [← h]
    exact key (without_flatten pdf)
  · intro n h
    unfold flattenField at h
    cases ho : Document.getObject c.src.unz none pdf n <;> rw [ho] at h <;> simp [Res.bind] at h
    exact h.symm

/-- C149: a form that this library built: the flattened file cannot be opened any more, because everything behind the reference has moved and the
offsets have not. -/
theorem C149_offsets_violated : (flattenForm exCtx acroFile).bind (fun r => .ok (acroFile.length - r.length)) = .ok 15 ∧
    (flattenForm exCtx acroFile).bind (fun r => (Incremental.openPdf exCtx.env r).bind fun _ => .ok ()) = .err := by decide +kernel

/-- C149: taking a reference out can make a new one of the bytes around it. -/
theorem C149_again_violated : Without b!"/Acro/AcroForm 1 0 RForm 2 0 R" b!"/AcroForm 2 0 R" ∧ FormRef b!"/AcroForm 2 0 R" := by
  refine ⟨?_, b!" ", b!"2", b!" ", b!"0", b!" ", ?_⟩
  · have : Forms.flatten b!"/Acro/AcroForm 1 0 RForm 2 0 R" = b!"/AcroForm 2 0 R" := by decide +kernel
    rw [← this]
    exact without_flatten _
  · refine ⟨⟨by decide, ?_⟩, ⟨by decide, by decide⟩, ⟨by decide, ?_⟩, ⟨by decide, by decide⟩, ⟨by decide, ?_⟩, by decide⟩ <;> simp [White]

/-- The hypotheses of `C149_gone_partial` hold for a form that this library built. -/
example : acroFile = acroFile.take 38 ++ b!"/AcroForm 3 0 R" ++ acroFile.drop 53 ∧ FormRef b!"/AcroForm 3 0 R" ∧
    ¬ b!"/AcroForm" <:+: acroFile.take 38 ++ acroFile.drop 53 ∧ (Incremental.openPdf exCtx.env acroFile).bind (fun _ => .ok ()) = .ok () ∧
    (extractAcroForm exCtx acroFile).bind (fun fs => .ok fs.length) = .ok 1 := by
  refine ⟨by decide +kernel, ⟨b!" ", b!"3", b!" ", b!"0", b!" ", ⟨by decide, ?_⟩, ⟨by decide, by decide⟩, ⟨by decide, ?_⟩, ⟨by decide, by decide⟩, ⟨by decide, ?_⟩, by decide⟩,
    noOcc_iff_infix.1 (noOcc_iff_index.2 (by decide +kernel)), by decide +kernel, by decide +kernel⟩ <;> simp [White]

/-! ### C150 -/

theorem reAP_prefix {s : Bytes} (h : reAP s ≠ none) : b!"/AP" <+: s := by
  apply reLit_prefix
  intro hn
  apply h
  simp [reAP, hn]

theorem reN_prefix {s : Bytes} (h : reN s ≠ none) : b!"/N" <+: s := by
  apply reLit_prefix
  intro hn
  apply h
  simp [reN, hn]

theorem reStreamLine_prefix {s : Bytes} (h : reStreamLine s ≠ none) : b!"stream" <+: s := by
  apply reLit_prefix
  intro hn
  apply h
  simp [reStreamLine, hn]

/-- The text of a field with an appearance: `/AP << ... /N <n> <g> R ... >>` with any white space, the first such entry of the field, and no
dictionary inside it. -/
def HasAppearance (s : Bytes) (n : Nat) : Prop :=
  ∃ a w x w1 w2 g w3 y z, s = a ++ (b!"/AP" ++ w ++ b!"<<" ++ (x ++ (b!"/N" ++ w1 ++ natDec n ++ w2 ++ g ++ w3 ++ b!"R" ++ y)) ++ b!">>" ++ z) ∧
    (¬ b!"/AP" <:+: a) ∧ (∀ c ∈ w, White c) ∧ (¬ b!"/N" <:+: x) ∧ (62 : UInt8) ∉ x ∧ (62 : UInt8) ∉ y ∧ (w1 ≠ [] ∧ ∀ c ∈ w1, White c) ∧
    (w2 ≠ [] ∧ ∀ c ∈ w2, White c) ∧ (g ≠ [] ∧ ∀ c ∈ g, isDigit c = true) ∧ (w3 ≠ [] ∧ ∀ c ∈ w3, White c)

theorem appearance_found {s : Bytes} {n : Nat} (h : HasAppearance s n) (hn : n ≤ 9223372036854775807) :
    ∃ ap, searchWith reAP s = some ap ∧ searchWith reN ap = some n := by
  obtain ⟨a, w, x, w1, w2, g, w3, y, z, rfl, ha, hw, hx, hx', hy, hw1, hw2, hg, hw3⟩ := h
  refine ⟨x ++ (b!"/N" ++ w1 ++ natDec n ++ w2 ++ g ++ w3 ++ b!"R" ++ y), ?_, ?_⟩
  · rw [searchWith_first (c := 47) (k := b!"AP") (fun s hs => reAP_prefix hs) ?_ (noOcc_iff_infix.2 ha)]
    · apply searchWith_here
      have hno : ∀ c ∈ x ++ (b!"/N" ++ w1 ++ natDec n ++ w2 ++ g ++ w3 ++ b!"R" ++ y), decide (c ≠ 62) = true := by
        intro c hc
        simp only [decide_eq_true_eq]
        rintro rfl
        simp only [List.mem_append] at hc
        have hwh : ∀ {w : Bytes}, (∀ c ∈ w, White c) → (62 : UInt8) ∉ w := fun h h' => absurd (h _ h') (by unfold White; decide)
        have hdg : ∀ {w : Bytes}, (∀ c ∈ w, isDigit c = true) → (62 : UInt8) ∉ w := fun h h' => absurd (h _ h') (by decide)
        rcases hc with hc | (((((((hc | hc) | hc) | hc) | hc) | hc) | hc) | hc)
        · exact hx' hc
        · exact absurd hc (by decide)
        · exact hwh hw1.2 hc
        · exact hdg (natDec_digits n) hc
        · exact hwh hw2.2 hc
        · exact hdg hg.2 hc
        · exact hwh hw3.2 hc
        · exact absurd hc (by decide)
        · exact hy hc
      generalize x ++ (b!"/N" ++ w1 ++ natDec n ++ w2 ++ g ++ w3 ++ b!"R" ++ y) = mid at *
      unfold reAP
      simp only [List.append_assoc]
      rw [reLit_append, Option.bind_some]
      have h1 : reSp0 (w ++ (b!"<<" ++ (mid ++ (b!">>" ++ z)))) = b!"<<" ++ (mid ++ (b!">>" ++ z)) := by
        unfold reSp0
        refine dropWhile_all (fun c hc => white_reSpace.1 (hw c hc)) ?_
        intro c hc; simp at hc; subst hc; decide
      rw [h1, reLit_append, Option.bind_some]
      have h2 : ∀ c, (b!">>" ++ z).head? = some c → decide (c ≠ 62) = false := by intro c hc; simp at hc; subst hc; decide
      rw [dropWhile_all hno h2, takeWhile_all hno h2, reLit_append]
      rfl
    · intro d hd
      simp at hd; subst hd; decide
  · rw [searchWith_first (c := 47) (k := b!"N") (fun s hs => reN_prefix hs) ?_ (noOcc_iff_infix.2 hx)]
    · apply searchWith_here
      unfold reN
      simp only [List.append_assoc]
      rw [reLit_append, Option.bind_some, reSp1_white hw1.1 (fun c hc => white_reSpace.1 (hw1.2 c hc))
        (fun c hc => isDigit_not_reSpace (natDec_head n _ c hc)), Option.bind_some, ref2_here ⟨natDec_ne_nil n, natDec_digits n⟩ hw2 hg hw3, atoiClamp_natDec n hn]
      rfl
    · intro d hd
      simp at hd; subst hd; decide

/-- C150 (partial: the field has its own `/AP` dictionary with nothing nested in it; the stream is one line that starts with no white space): the
appearance of a field is the data of the stream its `/N` entry refers to. -/
theorem C150_appearance_partial (get : Int → Res Bytes) (field : Int) (s hd data tl : Bytes) (n : Nat) (hs : get field = .ok s) (ha : HasAppearance s n)
    (hn : n ≤ 9223372036854775807) (hg : get n = .ok (hd ++ (b!"stream\n" ++ data ++ b!"\nendstream" ++ tl))) (hh : ¬ b!"stream" <:+: hd)
    (h10 : (10 : UInt8) ∉ data) (hne : data ≠ []) (hw : ∀ c, data.head? = some c → ¬ White c) :
    fieldAppearance get field = .ok data := by
  obtain ⟨ap, h1, h2⟩ := appearance_found ha hn
  unfold fieldAppearance
  rw [hs]
  simp only [Res.bind, h1, h2, Res.ofOption, hg, Res.ok.injEq]
  have : searchWith reStreamLine (hd ++ (b!"stream\n" ++ data ++ b!"\nendstream" ++ tl)) = some data := by
    rw [searchWith_first (c := 115) (k := b!"tream") (fun s hs => reStreamLine_prefix hs) ?_ (noOcc_iff_infix.2 hh)]
    · apply searchWith_here
      have e : b!"stream\n" ++ data ++ b!"\nendstream" ++ tl = b!"stream" ++ (b!"\n" ++ (data ++ (b!"\nendstream" ++ tl))) := by simp
      rw [e]
      unfold reStreamLine
      rw [reLit_append, Option.bind_some]
      have hws : (b!"\n" ++ (data ++ (b!"\nendstream" ++ tl))).takeWhile reSpace = b!"\n" := by
        refine takeWhile_all (by decide) ?_
        intro c hc
        have hc' : data.head? = some c := by
          cases data with
          | nil => exact absurd rfl hne
          | cons x d => simpa using hc
        have := hw c hc'
        rw [white_reSpace] at this
        simpa using this
      rw [hws]
      have hno : ∀ c ∈ data, decide (c ≠ 10) = true := by
        intro c hc; simp only [decide_eq_true_eq]; rintro rfl; exact h10 hc
      have h3 : ∀ c, (b!"\nendstream" ++ tl).head? = some c → decide (c ≠ 10) = false := by intro c hc; simp at hc; subst hc; decide
      have e1 : (b!"\n" ++ (data ++ (b!"\nendstream" ++ tl))).getD 0 0 = 10 := rfl
      have e2 : (b!"\n" ++ (data ++ (b!"\nendstream" ++ tl))).drop (0 + 1) = data ++ (b!"\nendstream" ++ tl) := rfl
      have e3 : (List.range (b!"\n").length).reverse = [0] := by decide
      rw [e3]
      simp only [List.findSome?_cons, List.findSome?_nil, e1, if_true, e2]
      rw [dropWhile_all hno h3, takeWhile_all hno h3, reLit_append]
      rfl
    · intro d hd
      simp at hd; subst hd; decide
  rw [this]
  rfl

/-- C150: what `AddAppearanceToField` put into a field that had no appearance is found: the field refers to that object. -/
theorem C150_added_partial (a b : Bytes) (n : Nat) (hb : (62 : UInt8) ∉ b) (hno : ¬ b!"/AP" <:+: a ++ b!">>" ++ b) :
    ∃ s, addAppearance (a ++ b!">>" ++ b) n = some s ∧ HasAppearance s n := by
  refine ⟨_, (C68_added_partial a b hb).1 n hno, a, b!" ", b!" ", b!" ", b!" ", b!"0", b!" ", b!" ", b!" " ++ b!">>" ++ b, ?_, ?_, ?_, ?_, by decide, by decide, ⟨by decide, ?_⟩, ⟨by decide, ?_⟩,
    ⟨by decide, by decide⟩, ⟨by decide, ?_⟩⟩
  · simp [itoa]
  · intro h
    exact hno (h.trans ⟨[], b!">>" ++ b, by simp⟩)
  · simp [White]
  · exact noOcc_iff_infix.1 (noOcc_iff_index.2 (by decide))
  · simp [White]
  · simp [White]
  · simp [White]

/-- A field with an appearance of one line. -/
def appGet (data : Bytes) (n : Int) : Res Bytes :=
  if n = 1 then .ok b!"1 0 obj\n<</FT/Tx/AP<</D 3 0 R/N\n2 0 R>>>>\nendobj"
  else if n = 2 then .ok (b!"2 0 obj\n<</Length 9>>\nstream\n" ++ data ++ b!"\nendstream\nendobj") else .err

example : fieldAppearance (appGet b!"q 1 w S Q") 1 = .ok b!"q 1 w S Q" := by decide +kernel

/-- The field of the example has an appearance. -/
example : HasAppearance b!"1 0 obj\n<</FT/Tx/AP<</D 3 0 R/N\n2 0 R>>>>\nendobj" 2 := by
  refine ⟨b!"1 0 obj\n<</FT/Tx", [], b!"/D 3 0 R", b!"\n", b!" ", b!"0", b!" ", [], b!">>\nendobj", by decide, ?_, by simp, ?_, by decide, by decide, ⟨by decide, ?_⟩, ⟨by decide, ?_⟩,
    ⟨by decide, by decide⟩, ⟨by decide, ?_⟩⟩
  · exact noOcc_iff_infix.1 (noOcc_iff_index.2 (by decide))
  · exact noOcc_iff_infix.1 (noOcc_iff_index.2 (by decide))
  · simp [White]
  · simp [White]
  · simp [White]

/-- C150: an appearance of two lines is not found: the whole object is returned, with its header and dictionary; and of an appearance whose first
line is empty, a blank line is dropped. -/
theorem C150_lines_violated : fieldAppearance (appGet b!"q\nQ") 1 = .ok b!"2 0 obj\n<</Length 9>>\nstream\nq\nQ\nendstream\nendobj" ∧
    fieldAppearance (appGet b!"\n Q") 1 = .ok b!" Q" := by decide +kernel

/-- C150: an appearance dictionary that has states, as those of check boxes and radio buttons do, is never read. -/
theorem C150_states_violated : fieldAppearance (fun n => if n = 1 then .ok b!"<</FT/Btn/AP<</N<</On 2 0 R/Off 3 0 R>>>>/AS/On>>" else .ok b!"stream\nq\nendstream") 1 = .err := by
  decide +kernel

/-! ### C151 -/

/-- `Added env w r content text`: `r` is `w` with one more object under a fresh number: the compressed content, with a dictionary that is written as
`text` (which names the number of bytes stored); nothing else has changed. -/
structure Added (env : Writer.Env) (w : Writer.Writer) (r : Writer.Writer × Int) (content : Bytes) (text : Bytes → Bytes) : Prop where
  number : r.2 = w.nextObjNum
  next : r.1.nextObjNum = w.nextObjNum + 1
  stored : ∃ o a, r.1.objects.get r.2 = some o ∧ o.content = none ∧ o.stream = some (env.z content) ∧ o.dict = some a ∧
    Writer.formatDictionary (r.1.heap.getD a []) = text (natDec (env.z content).length)
  others : ∀ k, k ≠ r.2 → r.1.objects.get k = w.objects.get k
  dicts : ∀ a, a < w.heap.length → r.1.heap.getD a [] = w.heap.getD a []

/-- The dictionary of an appearance of the given size. -/
def appText (f : AppF F) (w h : F) (resources : Bytes) (n : Bytes) : Bytes :=
  b!"<</BBox [0 0 " ++ f.value w ++ b!" " ++ f.value h ++ b!"] /Matrix [1 0 0 1 0 0] " ++ resources ++
    b!"/Subtype /Form /Type /XObject /Filter /FlateDecode /Length " ++ n ++ b!" >>"

theorem added_of (env : Writer.Env) (w : Writer.Writer) (d : Writer.Dict) (content : Bytes) (hc : content ≠ []) (text : Bytes → Bytes)
    (h : ∀ n : Nat, Writer.formatDictionary ((d.set b!"Filter" (.str b!"/FlateDecode")).set b!"Length" (.int n)) = text (natDec n)) :
    Added env w (Writer.addStreamObject env w (.fresh d) (some content) true) content text := by
  have hl : 0 < content.length := by cases content with | nil => exact absurd rfl hc | cons => simp
  have e : Writer.prepareStream env w (.fresh d) (some content) true =
      (some (env.z content), w.heap ++ [(d.set b!"Filter" (.str b!"/FlateDecode")).set b!"Length" (.int (env.z content).length)], w.heap.length) := by
    simp [Writer.prepareStream, hl]
  refine ⟨rfl, rfl, ?_, ?_, ?_⟩
  · refine ⟨_, w.heap.length, Map.get_set_eq _ _ _, rfl, ?_, ?_, ?_⟩
    · show (Writer.prepareStream env w (.fresh d) (some content) true).1 = _
      rw [e]
    · show some (Writer.prepareStream env w (.fresh d) (some content) true).2.2 = _
      rw [e]
    · show Writer.formatDictionary ((Writer.prepareStream env w (.fresh d) (some content) true).2.1.getD w.heap.length []) = _
      rw [e]
      simp only [List.getD_eq_getElem?_getD, List.getElem?_concat_length, Option.getD_some]
      exact h _
  · intro k hk
    exact Map.get_set_ne _ _ hk
  · intro a ha
    show (Writer.prepareStream env w (.fresh d) (some content) true).2.1.getD a [] = _
    rw [e]
    simp only [List.getD_eq_getElem?_getD, List.getElem?_append_left ha]

/-- C151, check boxes: the appearance is stored under a fresh number with the box as its bounding box, and nothing else changes; a ticked box is
drawn as two strokes (down to (0.4w, 0.3h) and up to (0.8w, 0.7h)), one that is not as a frame. -/
theorem C151_checkbox (env : Writer.Env) (wr : Writer.Writer) (f : AppF F) (checked : Bool) (w h : F) :
    Added env wr (createCheckbox env wr f checked w h)
      (b!"q\n0 0 0 rg\n" ++ f.fmt (f.twentieth w) ++ b!" w\n" ++
        (match checked with
          | true => f.fmt (f.tenths 2 w) ++ b!" " ++ f.fmt (f.tenths 5 h) ++ b!" m\n" ++ f.fmt (f.tenths 4 w) ++ b!" " ++ f.fmt (f.tenths 3 h) ++
              b!" l\n" ++ f.fmt (f.tenths 8 w) ++ b!" " ++ f.fmt (f.tenths 7 h) ++ b!" l\nS\n"
          | false => b!"0 0 " ++ f.fmt w ++ b!" " ++ f.fmt h ++ b!" re\nS\n") ++ b!"Q\n")
      (appText f w h []) := by
  have e := added_of env wr (appDict f w h) (checkboxContent f checked w h) (by simp [checkboxContent]) (appText f w h []) (by
    intro n
    simp [appDict, appText, Writer.formatDictionary, Writer.formatDictOrd, Writer.formatValue, Writer.formatEntries, Writer.formatPair,
      Writer.formatItems, Writer.joinSp, Map.set, Writer.renderEntries, Writer.sortBy, Writer.insertBy, Writer.bytesLe, Writer.slashKey, itoa]
    trivial)
  cases checked <;> exact e

/-- The bytes of a content from its text operand on: the operator that shows a string, the end of the text and of the drawing. -/
def afterText : Bytes := b!" Tj\nET\nQ\n"

/-- C151, text fields (partial: characters up to U+00FF; the font is not one of the file, `C151_font_violated`): the appearance is stored under a
fresh number, and nothing else changes; its content selects the font and size given, moves up by a fifth of the height, and shows a string that a
reader reads as the text. -/
theorem C151_text_partial (env : Writer.Env) (wr : Writer.Writer) (f : AppF F) (t : List Char) (w h size : F) (font : Bytes)
    (ht : ∀ c ∈ t, c.toNat < 256) :
    ∃ lit, Added env wr (createText env wr f (Spec.utf8 t) w h size font)
        (b!"q\nBT\n/" ++ font ++ b!" " ++ f.fmt size ++ b!" Tf\n0 0 0 rg\n0 " ++ f.fmt (f.tenths 2 h) ++ b!" Td\n" ++ lit ++ afterText)
        (appText f w h (b!"/Resources <</Font <<" ++ Writer.slashKey font ++ b!" 0 0 R >> >> ")) ∧
      Spec.readLiteral (lit ++ afterText) = some (Spec.latin1 t, afterText) := by
  refine ⟨b!"(" ++ Strings.escapeFieldValue (Spec.utf8 t) ++ b!")", ?_, C21_field_value_partial t ht afterText⟩
  have e := added_of env wr (appDict f w h ++ [(b!"/Resources", .dict [(b!"/Font", .dict [(font, .str b!"0 0 R")])])])
    (textContent f (Spec.utf8 t) h size font) (by simp [textContent])
    (appText f w h (b!"/Resources <</Font <<" ++ Writer.slashKey font ++ b!" 0 0 R >> >> ")) (by
    intro n
    have hs : ∀ l, Writer.slashKey font ++ l = (if (b!"/").isPrefixOf font then font else 47 :: font) ++ l := fun _ => rfl
    generalize hk : Writer.slashKey font = sf
    simp [appDict, appText, Writer.formatDictionary, Writer.formatDictOrd, Writer.formatValue, Writer.formatEntries, Writer.formatPair,
      Writer.formatItems, Writer.joinSp, Map.set, Writer.renderEntries, Writer.sortBy, Writer.insertBy, Writer.bytesLe, itoa, hk]
    trivial)
  have e2 : textContent f (Spec.utf8 t) h size font = b!"q\nBT\n/" ++ font ++ b!" " ++ f.fmt size ++ b!" Tf\n0 0 0 rg\n0 " ++ f.fmt (f.tenths 2 h) ++
      b!" Td\n" ++ (b!"(" ++ Strings.escapeFieldValue (Spec.utf8 t) ++ b!")") ++ afterText := by
    simp [textContent, afterText]
  rw [← e2]
  exact e

/-- C151, buttons (partial: characters up to U+00FF; see `C151_size_violated` for the font): the appearance is stored under a fresh number, and
nothing else changes; its content fills and frames the box, and shows a string that a reader reads as the label, moved by half of what 6 points a
byte of the label and 12 points leave of the width and the height. -/
theorem C151_button_partial (env : Writer.Env) (wr : Writer.Writer) (f : AppF F) (t : List Char) (w h size : F) (ht : ∀ c ∈ t, c.toNat < 256) :
    ∃ lit, Added env wr (createButton env wr f (Spec.utf8 t) w h size)
        (b!"q\n0.9 0.9 0.9 rg\n0 0 " ++ f.fmt w ++ b!" " ++ f.fmt h ++ b!" re\nf\n0 0 0 RG\n1 w\n0 0 " ++ f.fmt w ++ b!" " ++ f.fmt h ++
          b!" re\nS\nBT\n/Helvetica 12 Tf\n0 0 0 rg\n" ++ f.fmt (f.centred w (Spec.utf8 t).length) ++ b!" " ++ f.fmt (f.middle h) ++ b!" Td\n" ++
          lit ++ afterText)
        (appText f w h []) ∧
      Spec.readLiteral (lit ++ afterText) = some (Spec.latin1 t, afterText) := by
  refine ⟨b!"(" ++ Strings.escapeFieldValue (Spec.utf8 t) ++ b!")", ?_, C21_field_value_partial t ht afterText⟩
  have e := added_of env wr (appDict f w h) (buttonContent f (Spec.utf8 t) w h) (by simp [buttonContent]) (appText f w h []) (by
    intro n
    simp [appDict, appText, Writer.formatDictionary, Writer.formatDictOrd, Writer.formatValue, Writer.formatEntries, Writer.formatPair,
      Writer.formatItems, Writer.joinSp, Map.set, Writer.renderEntries, Writer.sortBy, Writer.insertBy, Writer.bytesLe, Writer.slashKey, itoa]
    trivial)
  have e2 : buttonContent f (Spec.utf8 t) w h = b!"q\n0.9 0.9 0.9 rg\n0 0 " ++ f.fmt w ++ b!" " ++ f.fmt h ++
      b!" re\nf\n0 0 0 RG\n1 w\n0 0 " ++ f.fmt w ++ b!" " ++ f.fmt h ++
          b!" re\nS\nBT\n/Helvetica 12 Tf\n0 0 0 rg\n" ++ f.fmt (f.centred w (Spec.utf8 t).length) ++ b!" " ++ f.fmt (f.middle h) ++ b!" Td\n" ++
          (b!"(" ++ Strings.escapeFieldValue (Spec.utf8 t) ++ b!")") ++ afterText := by
    simp only [buttonContent, afterText, List.append_assoc, List.cons_append, List.nil_append]
  rw [← e2]
  exact e

/-- An example of the operations: whole numbers. -/
def natF : AppF Nat where
  fmt n := natDec n ++ b!".00"
  value := natDec
  twentieth n := n / 20
  tenths k n := n * k / 10
  centred x n := (x - n * 6) / 2
  middle x := (x - 12) / 2

/-- The text a writer would show in a text appearance. -/
def shownText (t : Bytes) : Bytes := textContent natF t 20 10 b!"Helv"

example : shownText b!"a(b" = b!"q\nBT\n/Helv 10.00 Tf\n0 0 0 rg\n0 4.00 Td\n(a\\(b) Tj\nET\nQ\n" ∧
    (∀ c ∈ ['a', '(', 'b', 'é'], c.toNat < 256) ∧ Spec.utf8 ['a', '(', 'b'] = b!"a(b" ∧
    (createCheckbox plainEnv Writer.newWriter natF true 20 20).2 = 1 ∧
    checkboxContent natF true 20 20 = b!"q\n0 0 0 rg\n1.00 w\n4.00 10.00 m\n8.00 6.00 l\n16.00 14.00 l\nS\nQ\n" ∧
    checkboxContent natF false 20 20 = b!"q\n0 0 0 rg\n1.00 w\n0 0 20.00 20.00 re\nS\nQ\n" := by decide +kernel

/-- C151: whatever font is named, its resource is object 0, which no file has. -/
theorem C151_font_violated (env : Writer.Env) (wr : Writer.Writer) (f : AppF F) (w h size : F) (font : Bytes) :
    ∃ c, Added env wr (createText env wr f [] w h size font) c
      (appText f w h (b!"/Resources <</Font <<" ++ Writer.slashKey font ++ b!" 0 0 R >> >> ")) := by
  obtain ⟨lit, h1, _⟩ := C151_text_partial env wr f [] w h size font (by simp)
  exact ⟨_, h1⟩

/-- C151: a button is the same whatever font size it is asked to have. -/
theorem C151_size_violated (env : Writer.Env) (wr : Writer.Writer) (f : AppF F) (label : Bytes) (w h size size' : F) :
    createButton env wr f label w h size = createButton env wr f label w h size' := rfl

/-- C151: a character above U+00FF is shown as others: the euro sign becomes a comma with two digits behind it. -/
theorem C151_characters_violated : shownText (Spec.utf8 ['€']) = b!"q\nBT\n/Helv 10.00 Tf\n0 0 0 rg\n0 4.00 Td\n(\\20254) Tj\nET\nQ\n" ∧
    Spec.readLiteral b!"(\\20254)" = some ([130, 53, 52], []) := by decide +kernel

end Pdfer.Props
