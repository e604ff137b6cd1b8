import Verif.Model.Cli
import Verif.Proofs.FormXFA
import Verif.Proofs.GoLib

/-! C118: the command. -/

namespace Pdfer.Props

open Pdfer.Go Pdfer.XFA Pdfer.FormXFA Pdfer.Cli

variable {D E S : Type}

/-- The flags of a run that fills a form. -/
structure Fills (a : Args) : Prop where
  verify : a.verify = false
  extract : a.extract = false
  input : a.input ≠ []
  data : a.data ≠ []
  output : a.output ≠ []

/-- What a run that fills a form has to produce: the update of the document, opened with the empty password or one of the four, with the data. -/
inductive Filled (w : World D E S) (fs : Files) (a : Args) (out : Bytes) : Prop
  | plain (json pdf : Bytes) (d : D) : Map.get fs a.data = some json → w.json json = some d → Map.get fs a.input = some pdf →
      contains pdf b!"/Encrypt" = false → w.update pdf d none = .ok out → Filled w fs a out
  | locked (json pdf : Bytes) (d : D) (pw b : Bytes) (e : E) : Map.get fs a.data = some json → w.json json = some d → Map.get fs a.input = some pdf →
      contains pdf b!"/Encrypt" = true → pw ∈ [[], b!"admin", b!"password", b!"1234"] → w.decrypt pdf pw = .ok (b, e) →
      w.update b d (some e) = .ok out → Filled w fs a out

theorem tryAll_mem (w : World D E S) (pdf : Bytes) (ps : List Bytes) (r : Bytes × E) (h : tryAll w pdf ps = .ok r) :
    ∃ p ∈ ps, w.decrypt pdf p = .ok r := by
  induction ps with
  | nil => cases h
  | cons p ps ih =>
    simp only [tryAll] at h
    cases hd : w.decrypt pdf p with
    | ok r' => rw [hd] at h; cases h; exact ⟨p, by simp, hd⟩
    | err => rw [hd] at h; obtain ⟨q, hq, hr⟩ := ih h; exact ⟨q, List.mem_cons_of_mem _ hq, hr⟩
    | panic => rw [hd] at h; cases h

theorem unlock_ok (w : World D E S) (pdf : Bytes) (u : Bytes × Option E) (h : unlock w pdf = .ok u) :
    (contains pdf b!"/Encrypt" = false ∧ u = (pdf, none)) ∨
    (contains pdf b!"/Encrypt" = true ∧ ∃ pw ∈ [[], b!"admin", b!"password", b!"1234"], ∃ e, u.2 = some e ∧ w.decrypt pdf pw = .ok (u.1, e)) := by
  unfold unlock at h
  split at h
  · rename_i hc
    refine .inr ⟨hc, ?_⟩
    cases hd : w.decrypt pdf [] with
    | ok r => rw [hd] at h; cases h; exact ⟨[], by simp, r.2, rfl, hd⟩
    | err =>
      rw [hd] at h
      simp only at h
      cases ht : tryAll w pdf common with
      | ok r =>
        rw [ht] at h; cases h
        obtain ⟨p, hp, hr⟩ := tryAll_mem w pdf common r ht
        exact ⟨p, hp, r.2, rfl, hr⟩
      | err => rw [ht] at h; cases h
      | panic => rw [ht] at h; cases h
    | panic => rw [hd] at h; cases h
  · rename_i hc
    cases h
    exact .inl ⟨by simpa using hc, rfl⟩

theorem readFile_ok (w : World D E S) (fs : Files) (p b : Bytes) (h : readFile w fs p = .ok b) : Map.get fs p = some b := by
  unfold readFile at h
  split at h
  · cases hg : Map.get fs p with
    | none => rw [hg] at h; cases h
    | some x => rw [hg] at h; cases h; rfl
  · cases h

theorem fill_ok (w : World D E S) (fs : Files) (a : Args) (out : Bytes) (h : fill w fs a = .ok out) : Filled w fs a out := by
  unfold fill at h
  cases h1 : readFile w fs a.data with
  | ok json =>
    rw [h1] at h
    simp only [Res.bind] at h
    cases h2 : w.json json with
    | some d =>
      rw [h2] at h
      simp only [Res.ofOption] at h
      cases h3 : readFile w fs a.input with
      | ok pdf =>
        rw [h3] at h
        simp only at h
        cases h4 : unlock w pdf with
        | ok u =>
          rw [h4] at h
          simp only at h
          rcases unlock_ok w pdf u h4 with ⟨hc, rfl⟩ | ⟨hc, pw, hp, e, he, hd⟩
          · exact .plain json pdf d (readFile_ok _ _ _ _ h1) h2 (readFile_ok _ _ _ _ h3) hc h
          · rw [he] at h
            exact .locked json pdf d pw u.1 e (readFile_ok _ _ _ _ h1) h2 (readFile_ok _ _ _ _ h3) hc hp hd h
        | err => rw [h4] at h; cases h
        | panic => rw [h4] at h; cases h
      | err => rw [h3] at h; cases h
      | panic => rw [h3] at h; cases h
    | none => rw [h2] at h; cases h
  | err => rw [h1] at h; cases h
  | panic => rw [h1] at h; cases h

theorem finish_ok {w : World D E S} {fs : Files} {out : Bytes} {r : Res Bytes} (h : (finishRun w fs out r).2 = 0) :
    ∃ b, r = .ok b ∧ (finishRun w fs out r).1 = Map.set fs out b := by
  cases r with
  | ok b =>
    refine ⟨b, rfl, ?_⟩
    simp only [finishRun, writeFile] at h ⊢
    cases hw : w.write <;> simp [hw] at h ⊢
  | err => simp [finishRun] at h
  | panic => simp [finishRun] at h

/-- The state of the files when the run reads: the log file has been started. -/
def atStart (fs : Files) (a : Args) : Files := if a.log = [] then fs else Map.set fs a.log b!"=== pdfer started ===\n"

theorem main_fill (w : World D E S) (fs : Files) (a : Args) (hf : Fills a) :
    main w fs a = if a.log ≠ [] ∧ w.createLog = false then (fs, 1) else finishRun w (atStart fs a) a.output (fill w (atStart fs a) a) := by
  obtain ⟨h1, h2, h3, h4, h5⟩ := hf
  unfold main atStart logStart
  by_cases hl : a.log = [] <;> cases hc : w.createLog <;> simp [h1, h2, h3, h4, h5, hl]

/-- C118: a run that fills a form and exits with 0 has read the data and the document, opened the document if it is encrypted, and written
exactly the update to the output; no file but the output and the log is changed. -/
theorem C118_success (w : World D E S) (fs : Files) (a : Args) (hf : Fills a) (h : (main w fs a).2 = 0) :
    ∃ out, Filled w (atStart fs a) a out ∧ Map.get (main w fs a).1 a.output = some out ∧
      ∀ p, p ≠ a.output → p ≠ a.log → Map.get (main w fs a).1 p = Map.get fs p := by
  rw [main_fill w fs a hf] at h ⊢
  by_cases hl : a.log ≠ [] ∧ w.createLog = false
  · rw [if_pos hl] at h; simp at h
  · rw [if_neg hl] at h ⊢
    obtain ⟨b, hb, hw⟩ := finish_ok h
    refine ⟨b, fill_ok w _ a b hb, ?_, ?_⟩
    · rw [hw]; simp [Map.get_set]
    · intro p h1 h2
      rw [hw, Map.get_set, if_neg h1]
      unfold atStart
      split
      · rfl
      · rw [Map.get_set, if_neg h2]

/-- C118: a run that fails, in whatever mode and for whatever reason — a bad flag, a missing file, bad data, a wrong password, an error or a panic of
the library —, exits with 1 and leaves every file but the log as it was, unless it was the writing of the output that failed. -/
theorem C118_failure (w : World D E S) (fs : Files) (a : Args) (h : (main w fs a).2 ≠ 0) :
    (main w fs a).2 = 1 ∧ ∀ p, p ≠ a.log → (p ≠ a.output ∨ ¬ ∃ k, w.write = .cut k) → Map.get (main w fs a).1 p = Map.get fs p := by
  have key : ∀ (fs' : Files) (r : Res Bytes), (∀ p, p ≠ a.log → Map.get fs' p = Map.get fs p) → (finishRun w fs' a.output r).2 ≠ 0 →
      (finishRun w fs' a.output r).2 = 1 ∧ ∀ p, p ≠ a.log → (p ≠ a.output ∨ ¬ ∃ k, w.write = .cut k) →
        Map.get (finishRun w fs' a.output r).1 p = Map.get fs p := by
    intro fs' r hfs hr
    cases r with
    | ok b =>
      obtain ⟨wr, hw⟩ : ∃ wr, w.write = wr := ⟨_, rfl⟩
      simp only [finishRun, writeFile, hw] at hr ⊢
      cases wr with
      | done => simp at hr
      | refused => exact ⟨by simp, fun p hp _ => hfs p hp⟩
      | cut k =>
        refine ⟨by simp, fun p hp ho => ?_⟩
        rcases ho with ho | ho
        · simp only [Map.get_set, if_neg ho]; exact hfs p hp
        · exact absurd ⟨k, rfl⟩ ho
    | err => exact ⟨rfl, fun p hp _ => hfs p hp⟩
    | panic => exact ⟨rfl, fun p hp _ => hfs p hp⟩
  unfold main at h ⊢
  repeat' split
  all_goals first
    | exact ⟨rfl, fun p _ _ => rfl⟩
    | skip
  all_goals
    simp_all only [if_true, if_false, not_true_eq_false, ne_eq, not_false_eq_true]
  · exact key _ _ (fun p hp => rfl) (by simpa using h)
  · exact key _ _ (fun p hp => by unfold logStart; rw [Map.get_set, if_neg hp]) (by simpa using h)
  · exact key _ _ (fun p hp => rfl) (by simpa using h)

/-- C118: the command has no password flag: a document that only another password opens cannot be filled, and its schema not extracted. -/
theorem C118_passwords_violated (w : World D E S) (fs : Files) (a : Args) (pdf : Bytes) (hr : Map.get (atStart fs a) a.input = some pdf) (hr' : Map.get fs a.input = some pdf)
    (he : contains pdf b!"/Encrypt" = true) (hd : ∀ pw ∈ [[], b!"admin", b!"password", b!"1234"], ∀ r, w.decrypt pdf pw ≠ .ok r) :
    (main w fs a).2 = 1 := by
  by_cases h : (main w fs a).2 = 0
  · exfalso
    by_cases hx : a.verify = false ∧ a.input ≠ [] ∧ a.extract = false ∧ a.data ≠ [] ∧ a.output ≠ []
    · obtain ⟨out, hf, _⟩ := C118_success w fs a ⟨hx.1, hx.2.2.1, hx.2.1, hx.2.2.2.1, hx.2.2.2.2⟩ h
      cases hf with
      | plain _ pdf' _ _ _ h3 h4 _ => rw [hr] at h3; cases h3; rw [he] at h4; cases h4
      | locked _ pdf' _ pw b e _ _ h3 _ h5 h6 _ => rw [hr] at h3; cases h3; exact hd pw h5 _ h6
    · unfold main at h
      split at h
      · simp at h
      · split at h
        · simp at h
        · split at h
          · split at h
            · simp at h
            · obtain ⟨b, hb, _⟩ := finish_ok h
              unfold extractSchema at hb
              cases h1 : readFile w fs a.input with
              | ok pdf' =>
                rw [h1] at hb
                have := readFile_ok _ _ _ _ h1
                rw [hr'] at this
                cases this
                simp only [Res.bind] at hb
                cases h2 : unlock w pdf with
                | ok u =>
                  rcases unlock_ok w pdf u h2 with ⟨hc, _⟩ | ⟨_, pw, hp, e, _, hd'⟩
                  · rw [he] at hc; cases hc
                  · exact hd pw hp _ hd'
                | err => rw [h2] at hb; cases hb
                | panic => rw [h2] at hb; cases hb
              | err => rw [h1] at hb; cases hb
              | panic => rw [h1] at hb; cases hb
          · split at h
            · simp at h
            · exact hx (by simp_all)
  · exact (C118_failure w fs a h).1

/-- C118: filling a form in place is not safe: when the disk fills up after so many bytes of the new document, the document is gone: the file
holds the beginning of the new one only. -/
theorem C118_inplace_violated (w : World D E S) (fs : Files) (a : Args) (hf : Fills a) (hl : a.log = []) (hio : a.output = a.input) (k : Nat) (hw : w.write = .cut k)
    (out : Bytes) (ho : fill w fs a = .ok out) (hk : k < out.length) :
    (main w fs a).2 = 1 ∧ Map.get (main w fs a).1 a.input = some (out.take k) := by
  rw [main_fill w fs a hf, if_neg (by simp [hl])]
  simp only [atStart, hl, if_true, ho, finishRun, writeFile, hw, hio]
  exact ⟨by simp, by simp [Map.get_set]⟩

/-! ### The schema of a document -/

/-- No field has been read. -/
structure NoField {F : Type} (st : St F) : Prop where
  cur : st.cur = none
  inField : st.inField = false
  fields : st.fields = []
  sub : st.sub.getD [] = []

theorem noField_ite {F : Type} {c : Prop} [Decidable c] {a b : Res (St F)} (ha : ∃ s, a = .ok s ∧ NoField s) (hb : ¬ c → ∃ s, b = .ok s ∧ NoField s) :
    ∃ s, (if c then a else b) = .ok s ∧ NoField s := by
  split
  · exact ha
  · exact hb ‹_›

theorem noField_step {F : Type} (lib : Lib F) (st : St F) (h : NoField st) (t : Tok) (ht : ∀ as, t ≠ .start b!"field" as) :
    ∃ s, step lib st t = .ok s ∧ NoField s := by
  obtain ⟨h1, h2, h3, h4⟩ := h
  have hst : NoField st := ⟨h1, h2, h3, h4⟩
  cases t with
  | chars t => exact ⟨st, by simp [step, h2], hst⟩
  | start n as =>
    have hn : n ≠ b!"field" := fun e => ht as (by rw [e])
    show ∃ s, onStart lib st n as = .ok s ∧ NoField s
    simp only [onStart, h2, hn, if_false, Bool.false_eq_true, Bool.and_false]
    refine noField_ite ⟨_, rfl, ⟨h1, rfl, h3, h4⟩⟩ fun _ => noField_ite ⟨_, rfl, ⟨h1, rfl, h3, rfl⟩⟩ fun _ => ?_
    repeat' refine noField_ite ⟨_, rfl, hst⟩ fun _ => ?_
    exact ⟨_, rfl, hst⟩
  | close n =>
    show ∃ s, onEnd st n = .ok s ∧ NoField s
    simp only [onEnd, h1, h2, Bool.false_eq_true, if_false, Bool.and_false]
    refine noField_ite ⟨_, rfl, ⟨rfl, rfl, h3, h4⟩⟩ fun _ => noField_ite ⟨_, rfl, ⟨rfl, rfl, by simp [h3, h4], rfl⟩⟩ fun _ => ?_
    refine noField_ite ⟨_, rfl, ⟨rfl, rfl, h3, h4⟩⟩ fun _ => noField_ite ⟨_, rfl, ⟨rfl, rfl, h3, h4⟩⟩ fun _ => ?_
    refine noField_ite ⟨_, rfl, ⟨rfl, rfl, h3, h4⟩⟩ fun _ => noField_ite ⟨_, rfl, ⟨rfl, rfl, h3, h4⟩⟩ fun _ => ?_
    refine noField_ite ⟨_, rfl, ⟨rfl, rfl, h3, h4⟩⟩ fun _ => noField_ite ⟨_, rfl, hst⟩ fun _ => noField_ite ⟨_, rfl, hst⟩ fun _ => ?_
    exact ⟨_, rfl, hst⟩

theorem noField_run {F : Type} (lib : Lib F) (toks : List Tok) (ht : ∀ t ∈ toks, ∀ as, t ≠ .start b!"field" as) (st : St F) (h : NoField st) :
    ∃ s, run lib toks st = .ok s ∧ NoField s := by
  induction toks generalizing st with
  | nil => exact ⟨st, rfl, h⟩
  | cons t ts ih =>
    obtain ⟨s, hs, hn⟩ := noField_step lib st h t (ht t (by simp))
    obtain ⟨s2, h2, hn2⟩ := ih (fun t h => ht t (List.mem_cons_of_mem _ h)) s hn
    exact ⟨s2, by simp [run, hs, Res.bind, h2], hn2⟩

/-- C118: `-extract-schema` reads the form data (the datasets stream), not the template: for data in the form that XFA prescribes, one element per
field with the field's own name — none is called `field` —, the schema is empty whatever the form. -/
theorem C118_schema_violated {F : Type} (lib : Lib F) (toks : List Tok) (h : ∀ t ∈ toks, ∀ as, t ≠ .start b!"field" as) :
    ∃ r, parseForm lib toks = .ok r ∧ r.questions = [] ∧ r.rules = [] := by
  obtain ⟨s, hs, hn⟩ := noField_run lib toks h {} ⟨rfl, rfl, rfl, rfl⟩
  refine ⟨_, by rw [parseForm, hs]; rfl, ?_, ?_⟩
  · simp [hn.fields]
  · simp [hn.fields, rulesOf]

/-! ### The hypotheses can be met -/

/-- A world in which the update puts the data behind the document. -/
def exWorld (wr : WriteRes) : World Bytes Unit Unit :=
  { readable := fun _ => true, createLog := true, write := wr, json := some, decrypt := fun _ _ => .err
    update := fun p d _ => .ok (p ++ d), datasets := fun _ _ => .err, decompress := .ok, parseForm := fun _ => .err, marshal := fun _ => none }

/-- The command `pdfer -input i -data d -output o -log l`. -/
def exArgs : Args := { input := b!"i", data := b!"d", output := b!"o", log := b!"l" }

example : Fills exArgs ∧ (main (exWorld .done) [(b!"i", b!"PDF"), (b!"d", b!"x")] exArgs).2 = 0 ∧
    Map.get (main (exWorld .done) [(b!"i", b!"PDF"), (b!"d", b!"x")] exArgs).1 b!"o" = some b!"PDFx" := by
  refine ⟨⟨rfl, rfl, by decide, by decide, by decide⟩, by decide, by decide⟩

example : (main (exWorld .done) [(b!"i", b!"PDF /Encrypt"), (b!"d", b!"x")] exArgs).2 = 1 := by decide

example : (main (exWorld (.cut 2)) [(b!"i", b!"PDF"), (b!"d", b!"x")] { exArgs with output := b!"i", log := [] }) = ([(b!"i", b!"PD"), (b!"d", b!"x")], 1) := by decide

end Pdfer.Props
