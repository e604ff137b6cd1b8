import Verif.Proofs.FormsApi
import Verif.Props.XFABuilt
import Verif.Props.Standalone
import Verif.Props.Datasets

/-! C108: one interface for both kinds of forms. -/

namespace Pdfer.Props

open Pdfer.Go Pdfer.XFA Pdfer.Forms Pdfer.Datasets Pdfer.Document Pdfer.FormsApi Pdfer.Spec Pdfer.Spec.XFA Pdfer.Spec.Datasets

variable {F S : Type}

/-- C108: `Detect` and `Extract` agree on every file. What `Extract` returns has the type `Detect` reports; when `Detect` reports an
AcroForm, `Extract` returns it, with at least one field; when it reports XFA, there is a template and `Extract` returns the form it describes
with the datasets of the file, or fails because the template cannot be parsed; and when `Detect` finds no form, neither does `Extract`. -/
theorem C108_agree (c : Ctx F S) (pdf : Bytes) :
    (∀ f, extract c pdf = .ok f → detect c pdf = .ok f.type) ∧
    (detect c pdf = .ok .acro → ∃ fs, fs ≠ [] ∧ extractAcroForm c pdf = .ok fs ∧ extract c pdf = .ok (.acro fs)) ∧
    (detect c pdf = .ok .xfa → ∃ m i, extractAll c.src pdf = .ok m ∧ m.get b!"template" = some i ∧ i.data ≠ [] ∧
      match c.schema i.data with
      | some s => extract c pdf = .ok (.xfa s ((m.get b!"datasets").map fun j => parseDatasets c.floats (c.decode j.data)))
      | none => extract c pdf = .err) ∧
    (detect c pdf = .err → extract c pdf = .err) := by
  unfold detect extract tryAcro tryXFA datasetsOf
  cases ha : extractAcroForm c pdf with
  | panic => simp [Res.bind]
  | ok fs =>
    by_cases hfs : fs = []
    · simp only [hfs, if_true, Res.bind]
      cases hx : extractAll c.src pdf with
      | panic => simp
      | err => simp
      | ok m =>
        simp only
        cases ht : m.get b!"template" with
        | none => simp
        | some i =>
          by_cases hd : i.data = []
          · simp [hd]
          · simp only [hd, if_false]
            cases hs : c.schema i.data with
            | none => simp [Res.ofOption, hd]; exact ⟨i, ht, hd, by simp [hs]⟩
            | some s =>
              refine ⟨?_, by simp, ?_, by simp⟩
              · intro f hf
                simp only [Res.ofOption, Res.bind, Res.ok.injEq] at hf
                subst hf; rfl
              · intro _
                refine ⟨m, i, rfl, ht, hd, ?_⟩
                simp [hs, Res.ofOption, Res.bind]
    · simp only [hfs, if_false, Res.bind]
      refine ⟨?_, ?_, by simp, by simp⟩
      · intro f hf
        simp only [Res.ok.injEq] at hf
        subst hf; rfl
      · intro _
        exact ⟨fs, hfs, rfl, rfl⟩
  | err =>
    simp only [Res.bind]
    cases hx : extractAll c.src pdf with
    | panic => simp
    | err => simp
    | ok m =>
      simp only
      cases ht : m.get b!"template" with
      | none => simp
      | some i =>
        by_cases hd : i.data = []
        · simp [hd]
        · simp only [hd, if_false]
          cases hs : c.schema i.data with
          | none => simp [Res.ofOption, hd]; exact ⟨i, ht, hd, by simp [hs]⟩
          | some s =>
            refine ⟨?_, by simp, ?_, by simp⟩
            · intro f hf
              simp only [Res.ofOption, Res.bind, Res.ok.injEq] at hf
              subst hf; rfl
            · intro _
              refine ⟨m, i, rfl, ht, hd, ?_⟩
              simp [hs, Res.ofOption, Res.bind]

theorem parse_built (g : Int → Option Bytes) (fuel : Nat) (n : Int) (l : List (Bytes × Nat)) :
    parseForm g fuel (itoa n ++ b!" 0 obj\n" ++ formBody l ++ b!"\nendobj") = some (some []) := by
  have hkey : searchWith (reKeyArr b!"/Fields") (itoa n ++ b!" 0 obj\n" ++ formBody l ++ b!"\nendobj") = some [] := by
    have e : itoa n ++ b!" 0 obj\n" ++ formBody l ++ b!"\nendobj" =
        (itoa n ++ b!" 0 obj\n<<") ++ (b!"/Fields" ++ (b!"[]/XFA[" ++ (refsText l ++ b!"]>>\nendobj"))) := by
      simp [formBody]
    rw [e]
    have hpre : ∀ s, reKeyArr b!"/Fields" s ≠ none → b!"/Fields" <+: s := by
      intro s h
      unfold reKeyArr at h
      cases hl : reLit b!"/Fields" s with
      | none => rw [hl] at h; simp at h
      | some r => exact Go.reLit_prefix (by rw [hl]; simp)
    have hno : NoOcc b!"/Fields" (itoa n ++ b!" 0 obj\n<<") := by
      apply Incremental.noOcc_of_mem (c := 47) (by decide)
      rw [List.mem_append, not_or]
      exact ⟨Incremental.not_mem_itoa n (by decide) (by decide), by decide⟩
    rw [Manipulate.searchWith_first (fun s => hpre s) (by intro d hd; simp at hd; subst hd; decide) hno]
    apply Go.searchWith_here
    simp [reKeyArr, Go.reLit_append, reSp0, reLit, reSpace]
  unfold parseForm
  rw [hkey]
  simp [findAll, refsLoop, reRef2, reNum]

/-- C109 (partial: the conditions of C104 on the streams and of C107 on the data): a file built from XFA streams with a template is detected
as an XFA form, `Extract` returns it when its template can be parsed, and `GetValues` returns the fields of the data that was written into its
datasets stream. -/
theorem C109_built_partial (c : Ctx F S) (env : Writer.Env) (hcr : env.crypt = none) (ss : List XStream) (hn : (ss.map (·.name)).Nodup)
    (hk : ∀ x ∈ ss, x.name ∈ Spec.XFA.streamNames) (hs : ∀ x ∈ ss, ∃ d, Storable env.z c.src.zip x d)
    (hfit : FitsAlone env (Writer.run env (buildOps ss))) (henc : c.env.handleEncryption (buildFromXFA env ss) = some none)
    (honce : ∀ i j, OccursAt b!"/AcroForm" (buildFromXFA env ss) i → OccursAt b!"/AcroForm" (buildFromXFA env ss) j → i = j)
    (t : XStream) (ht : t ∈ ss) (htn : t.name = b!"template") (htd : t.data ≠ some []) :
    detect c (buildFromXFA env ss) = .ok .xfa ∧
    ∀ (x : XStream) (data : Bytes) (d : Datasets F) (enc : List Tok) (s : S), x ∈ ss → x.name = b!"datasets" → x.data = some data →
      datasetsToXFA c.floats d = some enc → Woven enc (c.decode data) → FieldMap d.fields → (∀ g ∈ d.groups, Named g) →
      (∀ f ∈ d.fields, Unambiguous c.floats f.2) → c.schema (t.data.getD []) = some s →
      ∃ f, extract c (buildFromXFA env ss) = .ok f ∧ f.type = .xfa ∧ ∀ n, f.values.get n = (Map.get d.fields n).map AnyVal.xfa := by
  have hne : ss ≠ [] := by rintro rfl; simp at ht
  obtain ⟨hform, hsearch, hatoi⟩ := built_form c.src env ss hk hn hs hfit honce
  obtain ⟨m, hm, hget, _⟩ := C104_extract_partial c.src env hcr ss hne hn hk hs hfit honce
  obtain ⟨pdf, hopen, _⟩ := Incremental.open_writer env _ (Writer.inv_run env (buildOps ss)) (Incremental.refOrNil_run env (buildOps ss)) hfit.toFileFits c.env henc
  have hopen' : Incremental.openPdf c.env (buildFromXFA env ss) = .ok pdf := hopen
  have hacro : extractAcroForm c (buildFromXFA env ss) = .ok [] := by
    unfold extractAcroForm
    rw [hopen', hsearch]
    simp only [Res.bind, Option.bind_some, hatoi, Res.ofOption, hform, parse_built]
  have hkey : ∀ y ∈ ss, ∃ d i, y.data = some d ∧ m.get y.name = some i ∧ i.data = d := by
    intro y hy
    obtain ⟨j, hj⟩ := List.getElem?_of_mem hy
    obtain ⟨d, h1, h2⟩ := hget j y hj
    exact ⟨d, _, h1, h2, rfl⟩
  obtain ⟨td, ti, ht1, ht2, ht3⟩ := hkey t ht
  rw [htn] at ht2
  have htd' : td ≠ [] := by rintro rfl; exact htd ht1
  have hdet : detect c (buildFromXFA env ss) = .ok .xfa := by
    unfold detect tryAcro tryXFA
    rw [hacro, hm]
    simp only [if_true, Res.bind, ht2, ht3, htd', if_false]
  refine ⟨hdet, ?_⟩
  intro x data d enc s hx hxn hxd he hw hf hg hu hsch
  obtain ⟨_, _, h3, _⟩ := C108_agree c (buildFromXFA env ss)
  obtain ⟨m', i, hm', hi, _, hmatch⟩ := h3 hdet
  rw [hm] at hm'
  cases hm'
  have hi' := ht2.symm.trans hi
  cases hi'
  rw [ht1, Option.getD_some, ← ht3] at hsch
  rw [hsch] at hmatch
  refine ⟨_, hmatch, rfl, ?_⟩
  obtain ⟨xd, xi, hx1, hx2, hx3⟩ := hkey x hx
  rw [hxn] at hx2
  have : xd = data := Option.some.inj (hx1.symm.trans hxd)
  subst this
  intro n
  rw [hx2]
  simp only [Option.map_some, hx3, Form.values]
  have hread := read_written c.floats d hf hg he hw
  have hsame := sameMap_read c.floats d.fields hf hu n
  rw [hread]
  simp only
  rw [← hsame]
  generalize setAll c.floats d.fields [] = l
  induction l with
  | nil => rfl
  | cons e l ih =>
    by_cases hek : e.1 = n
    · simp [Map.get, hek]
    · simpa [Map.get, hek] using ih

/-- A file with a built form: it opens, its form is found with the fields as they were given, and the objects of the fields are read by both
readers. -/
theorem acro_built (c : Ctx F S) (hfuel : c.fuel ≠ 0) (env : Writer.Env) (ops : List Writer.Op) (fs : List FieldDef) (texts : List Bytes)
    (hb : buildTexts fs (Writer.run env ops).nextObjNum = some texts) (hf : ∀ f ∈ fs, PlainField f) (hdel : ∀ f ∈ fs, Delimitable (fieldText f))
    (hfit : FitsAlone env (Writer.run env (ops ++ addAll texts)))
    (henc : c.env.handleEncryption (Writer.write env (Writer.run env (ops ++ addAll texts))).1 = some none)
    (before after : Bytes) (n : Nat) (hn : (Writer.run env (ops ++ addAll texts)).nextObjNum = n + 1)
    (hfile : (Writer.write env (Writer.run env (ops ++ addAll texts))).1 = before ++ (b!"/AcroForm" ++ (32 :: (natDec n ++ (b!" 0 R" ++ after)))))
    (hfirst : Absent b!"/AcroForm" before) :
    let file := (Writer.write env (Writer.run env (ops ++ addAll texts))).1
    ∃ pdf fields, Incremental.openPdf c.env file = .ok pdf ∧ extractAcroForm c file = .ok fields ∧ fields.length = fs.length ∧
      ∀ (i : Nat) (f : FieldDef), fs[i]? = some f → ∃ g : Forms.Field, fields[i]? = some g ∧ g.kids = [] ∧ g.attrs =
        { num := (Writer.run env ops).nextObjNum + i, gen := 0, ft := f.type, t := f.name, tu := [], ff := f.flags,
          v := if f.value = .nil then .none else .str (Forms.formatFieldValue f.value f.type),
          dv := if f.dflt = .nil then none else some (Forms.formatFieldValue f.dflt f.type),
          maxLen := f.maxLen, opt := f.options } ∧
        Incremental.getObject c.env pdf g.attrs.num = .ok (itoa g.attrs.num ++ b!" 0 obj\n" ++ fieldText f ++ b!"\nendobj") ∧
        getObject c.src.unz none file g.attrs.num = .ok (itoa g.attrs.num ++ b!" 0 obj\n" ++ fieldText f ++ b!"\nendobj") := by
  intro file
  obtain ⟨fuel, hfu⟩ := Nat.exists_eq_succ_of_ne_zero hfuel
  obtain ⟨form, fields, h1, h2, h3, h4⟩ := C67_document_partial c.src.unz env ops fs texts hb hf hdel hfit fuel
  obtain ⟨pdf, hopen, _, _, _, hobjs⟩ := Incremental.open_writer env _ (Writer.inv_run env _) (Incremental.refOrNil_run env _) hfit.toFileFits c.env henc
  have hgetfn : fileGet c.src.unz file = FormsApi.get c.src file := by
    funext k; rfl
  have hnext := hfit.next
  rw [hn] at hnext
  have hsearch : searchWith reAcroForm file = some (natDec n) := by
    show searchWith reAcroForm (Writer.write env (Writer.run env (ops ++ addAll texts))).1 = _
    rw [hfile, Manipulate.searchWith_first (fun s => reAcroForm_prefix) (by intro d hd; simp at hd; subst hd; decide)
      ((Incremental.absent_iff (by decide)).1 hfirst)]
    exact Go.searchWith_here (reAcroForm_here _ _)
  have hatoi : atoi (natDec n) = some (n : Int) := by
    have := Manipulate.atoi_itoa ((n : Nat) : Int) (by omega) (by omega)
    exact this
  have hnum : (Writer.run env (ops ++ addAll texts)).nextObjNum - 1 = (n : Int) := by rw [hn]; omega
  rw [hnum] at h1
  have hobj : getObject c.src.unz none file (n : Int) = .ok form := by
    have h1' : fileGet c.src.unz file (n : Int) = some form := h1
    unfold fileGet at h1'
    split at h1'
    · rename_i b hb2; rw [hb2]; cases h1'; rfl
    · cases h1'
  have h2' : parseForm (FormsApi.get c.src file) c.fuel form = some (some fields) := by
    rw [← hgetfn, hfu]; exact h2
  have hopen' : Incremental.openPdf c.env file = .ok pdf := hopen
  have hacro : extractAcroForm c file = .ok fields := by
    unfold extractAcroForm
    rw [hopen', hsearch]
    simp only [Res.bind, Option.bind_some, hatoi, Res.ofOption, hobj, h2']
  refine ⟨pdf, fields, hopen', hacro, h3, ?_⟩
  intro i f hi
  obtain ⟨g, g1, g2, g3⟩ := h4 i f hi
  have ht : texts = fs.map fieldText ++ [formText ((List.range fs.length).map fun (i : Nat) => (Writer.run env ops).nextObjNum + (i : Int))] := by
    unfold buildTexts at hb
    split at hb
    · simp at hb
    · exact (Option.some.inj hb).symm
  have hti : texts[i]? = some (fieldText f) := by
    have hlt : i < fs.length := (List.getElem?_eq_some_iff.1 hi).1
    rw [ht, List.getElem?_append_left (by simpa using hlt), List.getElem?_map, hi]
    rfl
  have hpos := (Writer.inv_run env ops).next_pos
  have hst := (run_addAll env ops texts).2 i (fieldText f) hti
  have hd := hdel f (List.mem_of_getElem? hi)
  refine ⟨g, g1, g2, g3, ?_, ?_⟩
  · rw [g3]
    simp only
    obtain ⟨b, hb1, hb2⟩ := hobjs _ _ (by omega) hst
    have : b = fieldText f := hb1
    subst this
    exact hb2 hd
  · rw [g3]
    simp only
    obtain ⟨b, hb1, hb2⟩ := C29_written_partial c.src.unz env (ops ++ addAll texts) hfit _ _ (by omega) hst
    have : b = fieldText f := hb1
    subst this
    exact hb2 hd

/-- C109 (partial: the conditions of C67, and the first `/AcroForm` of the file is the reference to the form): a file with a form built by the
form builder is detected as an AcroForm, and `Extract` returns its fields: as many as were given, with their names, types and values. -/
theorem C109_acroform_partial (c : Ctx F S) (hfuel : c.fuel ≠ 0) (env : Writer.Env) (ops : List Writer.Op) (fs : List FieldDef) (texts : List Bytes) (hfs : fs ≠ [])
    (hb : buildTexts fs (Writer.run env ops).nextObjNum = some texts) (hf : ∀ f ∈ fs, PlainField f) (hdel : ∀ f ∈ fs, Delimitable (fieldText f))
    (hfit : FitsAlone env (Writer.run env (ops ++ addAll texts)))
    (henc : c.env.handleEncryption (Writer.write env (Writer.run env (ops ++ addAll texts))).1 = some none)
    (before after : Bytes) (n : Nat) (hn : (Writer.run env (ops ++ addAll texts)).nextObjNum = n + 1)
    (hfile : (Writer.write env (Writer.run env (ops ++ addAll texts))).1 = before ++ (b!"/AcroForm" ++ (32 :: (natDec n ++ (b!" 0 R" ++ after)))))
    (hfirst : Absent b!"/AcroForm" before) :
    let file := (Writer.write env (Writer.run env (ops ++ addAll texts))).1
    detect c file = .ok .acro ∧ ∃ fields, extract c file = .ok (.acro fields) ∧ fields.length = fs.length ∧
      ∀ (i : Nat) (f : FieldDef), fs[i]? = some f → ∃ g : Forms.Field, fields[i]? = some g ∧ g.attrs.t = f.name ∧ g.attrs.ft = f.type ∧
        g.attrs.ff = f.flags ∧ g.attrs.v = if f.value = .nil then .none else .str (Forms.formatFieldValue f.value f.type) := by
  intro file
  obtain ⟨pdf, fields, _, hacro, h3, h4⟩ := acro_built c hfuel env ops fs texts hb hf hdel hfit henc before after n hn hfile hfirst
  have hacro : extractAcroForm c file = .ok fields := hacro
  have hne : fields ≠ [] := by
    rintro rfl
    exact hfs (List.length_eq_zero_iff.1 h3.symm)
  refine ⟨?_, fields, ?_, h3, ?_⟩
  · unfold detect tryAcro
    rw [hacro]
    simp [hne, Res.bind]
  · unfold extract tryAcro
    rw [hacro]
    simp [hne, Res.bind]
  · intro i f hi
    obtain ⟨g, g1, _, g2, _⟩ := h4 i f hi
    exact ⟨g, g1, by rw [g2], by rw [g2], by rw [g2], by rw [g2]⟩

/-- C109: `Validate` of an XFA form never reports anything, whatever the data and the form; and `Fill` of an XFA form does not use the
passwords, so the result for an encrypted file is the result without a password. -/
theorem C109_xfa_violated (s : S) (d : Option (Datasets F)) (data : List (Bytes × Val)) (src : Src) (arr : Bytes) (len : Nat) (p q p' q' : Bytes) :
    (Form.xfa s d : Form F S).validate data = [] ∧ fillXFA src arr len data p q = fillXFA src arr len data p' q' := ⟨rfl, rfl⟩

/-- C109: a value in a group of the datasets is not among the values `GetValues` returns. -/
theorem C109_groups_violated (c : Ctx F S) (s : S) (n : Bytes) (hn : n ≠ []) (v : DVal F) (g : Bytes) (hg : Named (.mk g [(n, v)] []))
    (enc dec : List Tok) (he : datasetsToXFA c.floats { groups := [.mk g [(n, v)] []] } = some enc) (hw : Woven enc dec) :
    (Form.xfa s (some (parseDatasets c.floats dec)) : Form F S).values = [] := by
  have := hn
  rw [read_written c.floats _ ⟨by simp, by simp⟩ (by simpa using hg) he hw]
  rfl

/-- C109: `Extract` agrees with the extraction of the one kind of form: an AcroForm is that of `ExtractAcroForm`, an XFA form has the schema and the
datasets of `ExtractXFA`. -/
theorem C109_agrees (c : Ctx F S) (pdf : Bytes) :
    (∀ fs, extract c pdf = .ok (.acro fs) → extractAcroForm c pdf = .ok fs ∧ fs ≠ []) ∧
    (∀ s d, extract c pdf = .ok (.xfa s d) → extractXFA c pdf = .ok (some s, d)) := by
  unfold extract tryAcro
  refine ⟨?_, ?_⟩
  · intro fs h
    cases ha : extractAcroForm c pdf with
    | panic => rw [ha] at h; cases h
    | err =>
      rw [ha] at h
      simp only [Res.bind] at h
      revert h
      cases tryXFA c pdf with
      | panic => intro h; cases h
      | err => intro h; cases h
      | ok t =>
        cases t with
        | none => intro h; cases h
        | some t => simp only; cases c.schema t.1 <;> (intro h; cases h)
    | ok gs =>
      rw [ha] at h
      by_cases hg : gs = []
      · simp only [hg, if_pos, Res.bind] at h
        revert h
        cases tryXFA c pdf with
        | panic => intro h; cases h
        | err => intro h; cases h
        | ok t =>
          cases t with
          | none => intro h; cases h
          | some t => simp only; cases c.schema t.1 <;> (intro h; cases h)
      · simp only [hg, if_false, Res.bind] at h
        cases h
        exact ⟨rfl, hg⟩
  · intro s d h
    have key : ((tryXFA c pdf).bind fun
      | some t => (Res.ofOption (c.schema t.1)).bind fun s => .ok (Form.xfa s (datasetsOf c t.2))
      | none => .err) = .ok (Form.xfa s d) → extractXFA c pdf = .ok (some s, d) := by
      unfold tryXFA extractXFA
      cases extractAll c.src pdf with
      | panic => intro h; cases h
      | err => intro h; cases h
      | ok m =>
        simp only [Res.bind]
        cases m.get b!"template" with
        | none => intro h; cases h
        | some i =>
          simp only [Option.bind_some]
          by_cases hi : i.data = []
          · simp only [hi, if_pos]; intro h; cases h
          · simp only [hi, if_false]
            cases c.schema i.data with
            | none => intro h; cases h
            | some x => simp only [Res.ofOption]; intro h; cases h; rfl
    cases ha : extractAcroForm c pdf with
    | panic => rw [ha] at h; cases h
    | err => rw [ha] at h; exact key h
    | ok gs =>
      rw [ha] at h
      by_cases hg : gs = []
      · simp only [hg, if_pos] at h; exact key h
      · simp only [hg, if_false, Res.bind] at h; cases h

/-! ### The hypotheses can be met -/

/-- Readers for the example of C104: the template is parsed when it is `<t/>`, the decoder knows the example data. -/
def exCtx : Ctx Bool Nat where
  env := readEnv
  src := xfaSrc
  fuel := 3
  schema := fun s => if s = b!"<t/>" then some 1 else none
  decode := fun s => if s = b!"<data><field name=\"a\"><value>1</value></field></data>" then exDec else []
  floats := exFloats

/-- The example file of C104 is detected as XFA; by `C109_built_partial` its values are those of the data its datasets stands for. -/
example : detect exCtx exXfaFile = .ok .xfa ∧ ∃ f, extract exCtx exXfaFile = .ok f ∧ f.type = .xfa ∧
    ∀ n, f.values.get n = (Map.get exData.fields n).map AnyVal.xfa := by
  obtain ⟨h1, h2, h3, h4, h5⟩ := exXfa_ok
  obtain ⟨enc, he, hw⟩ := exDec_woven
  obtain ⟨k1, k2⟩ := C109_built_partial exCtx xfaEnv rfl exXfa h2 h3 h4 exXfa_fits (by rfl) h5
    { name := b!"template", data := some b!"<t/>", compress := true } (by simp [exXfa]) rfl (by simp)
  exact ⟨k1, k2 { name := b!"datasets", data := some b!"<data><field name=\"a\"><value>1</value></field></data>", compress := true } _ exData enc 1
    (by simp [exXfa]) rfl rfl he (by simpa [exCtx] using hw) exData_ok.1 (fun g h => (exData_ok.2.2 g h).1) exData_ok.2.1 rfl⟩

/-- A catalog that refers to the form that is built after it. -/
def acroOps : List Writer.Op := [.addObject (some b!"<</Type/Catalog/AcroForm 3 0 R>>"), .setRoot 1]

/-- One field. -/
def acroDefs : List FieldDef := [{ textField b!"n" [] with value := .str b!"a b" }]

/-- The texts of the example. -/
def acroTexts : List Bytes := (buildTexts acroDefs (Writer.run plainEnv acroOps).nextObjNum).getD []

/-- The written file. -/
def acroFile : Bytes := (Writer.write plainEnv (Writer.run plainEnv (acroOps ++ addAll acroTexts))).1

theorem acro_fits : FitsAlone plainEnv (Writer.run plainEnv (acroOps ++ addAll acroTexts)) := by
  have single : ∀ i j, OccursAt b!"startxref" (Writer.write plainEnv (Writer.run plainEnv (acroOps ++ addAll acroTexts))).1 i →
      OccursAt b!"startxref" (Writer.write plainEnv (Writer.run plainEnv (acroOps ++ addAll acroTexts))).1 j → i = j :=
    exXfa_once b!"startxref" (by decide) _ ((Writer.write plainEnv (Writer.run plainEnv (acroOps ++ addAll acroTexts))).1.length - 20) (by decide +kernel)
  exact { fair := plainEnv_fair, table := by decide +kernel, plain := by decide +kernel, size := by decide +kernel, next := by decide +kernel,
          once := fun i j _ _ => single i j, window := by decide +kernel, single := single, ending := by decide +kernel }

/-- The hypotheses of `C109_acroform_partial` hold for it. -/
example : detect exCtx acroFile = .ok .acro := by
  have h := C109_acroform_partial exCtx (by decide) plainEnv acroOps acroDefs acroTexts (by decide) (by decide +kernel)
    (by
      intro f hf
      simp only [acroDefs, List.mem_cons, List.not_mem_nil, or_false] at hf
      subst hf
      exact ⟨by decide, by decide +kernel, by decide +kernel, by decide +kernel, by decide +kernel, by decide +kernel, by decide, by decide⟩)
    (by
      intro f hf
      simp only [acroDefs, List.mem_cons, List.not_mem_nil, or_false] at hf
      subst hf
      refine ⟨?_, by decide +kernel, .inl ?_⟩ <;> (rw [Incremental.absent_iff (by decide), noOcc_iff_index]; decide +kernel))
    acro_fits (by rfl) (acroFile.take 38) (acroFile.drop 53) 3 (by decide +kernel) (by decide +kernel)
    (by rw [Incremental.absent_iff (by decide), noOcc_iff_index]; decide +kernel)
  exact h.1

end Pdfer.Props
