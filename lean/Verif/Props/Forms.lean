import Verif.Proofs.FormTree
import Verif.Proofs.StreamRebuild
import Verif.Model.Fallback
import Verif.Props.Manipulate
import Verif.Props.Incremental

/-! Properties C48–C50 and C66–C69: interactive forms (forms/acroform). -/

namespace Pdfer.Props

open Pdfer.Go Pdfer.Forms Pdfer.Manipulate Pdfer.Spec Pdfer.Spec.Forms Pdfer.Spec.Manipulate Pdfer.Strings

/-! ### C48: looking up and validating fields -/

/-- C48: what FindFieldByName returns is a field of the form, and its full or its partial name is the requested one. -/
theorem C48_find_sound (fs : List Field) (name full : Bytes) (f : Field) (h : findField fs name = some (f, full)) :
    FieldAt fs full f ∧ (full = name ∨ f.attrs.t = name) := by
  obtain ⟨h1, h2⟩ := findField_some fs name f full h
  refine ⟨?_, h2⟩
  cases h1 with
  | top hf => exact .top hf
  | kid hp hk => exact .kid (.top hp) hk

/-- C48: FindFieldByName finds nothing exactly when no field of the first two levels has the name. -/
theorem C48_find_none (fs : List Field) (name : Bytes) :
    findField fs name = none ↔ ∀ full f, FieldAt2 fs full f → full ≠ name ∧ f.attrs.t ≠ name :=
  findField_none fs name

/-- C48: a field of the first two levels is found by its full name, provided no other field of these levels has that name
as full or partial name.  Partial: deeper fields and names that are also partial names elsewhere, see the violations. -/
theorem C48_lookup_partial (fs : List Field) (name : Bytes) (f : Field) (hf : FieldAt2 fs name f)
    (hu : ∀ full g, FieldAt2 fs full g → (full = name ∨ g.attrs.t = name) → g = f ∧ full = name) :
    findField fs name = some (f, name) := by
  cases h : findField fs name with
  | none => exact absurd rfl ((findField_none fs name).1 h name f hf).1
  | some p =>
    obtain ⟨g, full⟩ := p
    obtain ⟨h1, h2⟩ := findField_some fs name g full h
    obtain ⟨rfl, rfl⟩ := hu full g h1 h2
    rfl

/-- C48: ValidateFormData reports nothing exactly when every given value is for a field that FindFieldByName finds and
keeps that field's limits, and every required field of the first two levels is given under its full name. -/
theorem C48_validate (fs : List Field) (data : List (Bytes × Val)) :
    validateFormData fs data = [] ↔
      (∀ d ∈ data, ∃ f full, findField fs d.1 = some (f, full) ∧ Accepts f.attrs d.2) ∧
      (∀ full f, FieldAt2 fs full f → Flag f.attrs.ff 2 → full ∈ data.map (·.1)) := by
  rw [validateFormData, List.append_eq_nil_iff, validate_nil, missing_nil]

/-- C48: ValidateField accepts a value exactly when it keeps the limits. -/
theorem C48_validate_field (a : Attrs) (name : Bytes) (v : Val) : validateField a name v = none ↔ Accepts a v :=
  validateField_none a name v

/-- For examples: a required text field. -/
def exC : Field := .mk { num := 3, gen := 0, ft := b!"Tx", t := b!"c", ff := 2 } []
/-- For examples: a text field of at most 3 bytes with a required kid. -/
def exB : Field := .mk { num := 2, gen := 0, ft := b!"Tx", t := b!"b", maxLen := 3 } [exC]
/-- For examples: a required field with a kid. -/
def exA : Field := .mk { num := 1, gen := 0, ft := b!"Tx", t := b!"a", ff := 2 } [exB]
/-- For examples: a choice field. -/
def exD : Field := .mk { num := 4, gen := 0, ft := b!"Ch", t := b!"d", opt := [b!"x", b!"y"] } []
/-- A form for examples. -/
def exForm : List Field := [exA, exD]

example : (findField exForm b!"a.b").map (fun p => (p.1.attrs.num, p.2)) = some (2, b!"a.b") ∧
    (findField exForm b!"b").map (fun p => (p.1.attrs.num, p.2)) = some (2, b!"a.b") ∧
    (findField exForm b!"q").isNone = true ∧
    validateFormData exForm [(b!"a", .str b!"hello"), (b!"a.b", .int 123), (b!"d", .str b!"x")] = [] ∧
    validateFormData exForm [(b!"a.b", .int 1234), (b!"d", .str b!"z"), (b!"q", .nil)] =
      [.tooLong b!"a.b" 3, .notOption b!"d", .unknownField b!"q", .missing b!"a"] := by decide +kernel

/-- Non-vacuity of `C48_lookup_partial`. -/
example : ∃ f, FieldAt2 exForm b!"a.b" f ∧
    ∀ full g, FieldAt2 exForm full g → (full = b!"a.b" ∨ g.attrs.t = b!"a.b") → g = f ∧ full = b!"a.b" := by
  refine ⟨exB, .kid (p := exA) (k := exB) (List.mem_cons_self ..) (List.mem_cons_self ..), ?_⟩
  intro full g h hn
  cases h with
  | top hf =>
    simp only [exForm, List.mem_cons, List.not_mem_nil, or_false] at hf
    rcases hf with rfl | rfl <;> exact absurd hn (by decide)
  | kid hp hk =>
    simp only [exForm, List.mem_cons, List.not_mem_nil, or_false] at hp
    rcases hp with rfl | rfl
    · simp only [Field.kids, exA, List.mem_cons, List.not_mem_nil, or_false] at hk
      subst hk
      exact ⟨rfl, rfl⟩
    · exact absurd hk (by simp [Field.kids, exD])

/-- C48 is violated below the second level: the form has a required field "a.b.c", but it is not found by its full name,
its value is refused and its absence is not reported. -/
theorem C48_depth_violated :
    (∃ f, FieldAt exForm b!"a.b.c" f ∧ Flag f.attrs.ff 2) ∧ findField exForm b!"a.b.c" = none ∧
    validateFormData exForm [(b!"a", .str b!"v"), (b!"a.b.c", .str b!"v")] = [.unknownField b!"a.b.c"] ∧
    validateFormData exForm [(b!"a", .str b!"v")] = [] := by
  refine ⟨⟨exC, .kid (p := exB) (k := exC) (.kid (p := exA) (k := exB) (.top (f := exA) (List.mem_cons_self ..))
    (List.mem_cons_self ..)) (List.mem_cons_self ..), by decide⟩, ?_,
    by decide +kernel, by decide +kernel⟩
  cases h : findField exForm b!"a.b.c" with
  | none => rfl
  | some p =>
    have h1 : (findField exForm b!"a.b.c").isNone = true := by decide +kernel
    rw [h] at h1; cases h1

/-- C48 is violated for a form with two fields of which one is the kid "x" of "p" and the other is the top-level field
"x": asked for "x", FindFieldByName returns the kid, whose full name is "p.x", and ValidateFormData checks the value
against the wrong field. -/
theorem C48_partial_name_violated :
    let fs : List Field := [.mk { num := 1, gen := 0, t := b!"p" } [.mk { num := 2, gen := 0, ft := b!"Tx", t := b!"x", maxLen := 2 } []],
      .mk { num := 3, gen := 0, ft := b!"Tx", t := b!"x" } []]
    (∃ f, FieldAt fs b!"x" f ∧ f.attrs.num = 3) ∧
    (findField fs b!"x").map (fun p => (p.1.attrs.num, p.2)) = some (2, b!"p.x") ∧
    validateFormData fs [(b!"x", .str b!"long")] = [.tooLong b!"p.x" 2] :=
  ⟨⟨_, .top (List.mem_cons_of_mem _ (List.mem_cons_self ..)), rfl⟩, by decide +kernel, by decide +kernel⟩

/-- C48 is violated for a required kid given by the partial name under which FindFieldByName accepts it: the value is
validated and the field is reported missing all the same. -/
theorem C48_required_partial_violated :
    let fs : List Field := [.mk { num := 1, gen := 0, t := b!"p" } [.mk { num := 2, gen := 0, ft := b!"Tx", t := b!"x", ff := 2 } []]]
    (findField fs b!"x").map (fun p => p.1.attrs.num) = some 2 ∧
    validateFormData fs [(b!"x", .str b!"v")] = [.missing b!"p.x"] := by decide +kernel

/-- C48 is violated for text outside ASCII: /MaxLen counts characters (ISO 32000-1, 12.7.4.3), the code counts bytes: two
characters of two bytes each do not fit a limit of three. -/
theorem C48_maxlen_bytes_violated :
    let a : Attrs := { num := 1, gen := 0, ft := b!"Tx", t := b!"x", maxLen := 3 }
    let v : Val := .str (utf8 ['é', 'é'])
    ['é', 'é'].length ≤ a.maxLen ∧ validateField a b!"x" v = some (.tooLong b!"x" 3) := by decide +kernel

/-- C48 is violated for an absent value of an optional field: it is measured as the text `<nil>` and compared with the
options. -/
theorem C48_nil_violated :
    validateField { num := 1, gen := 0, ft := b!"Tx", t := b!"x", maxLen := 4 } b!"x" .nil = some (.tooLong b!"x" 4) ∧
    validateField { num := 1, gen := 0, ft := b!"Ch", t := b!"x", opt := [b!"y"] } b!"x" .nil = some (.notOption b!"x") := by
  decide +kernel

/-! ### C66: the type of a field -/

/-- C66: text, choice and signature fields are recognised, and an unknown type is not taken for one of them. -/
theorem C66_types (ft : Bytes) (ff : Nat) :
    (mapFieldType ft ff = .text ↔ ft = b!"Tx") ∧ (mapFieldType ft ff = .select ↔ ft = b!"Ch") ∧
    (mapFieldType ft ff = .signature ↔ ft = b!"Sig") ∧
    (mapFieldType ft ff = .unknown ↔ ft ∉ [b!"Tx", b!"Btn", b!"Ch", b!"Sig"]) := by
  unfold mapFieldType
  by_cases h1 : ft = b!"Tx"
  · subst h1; simp
  by_cases h2 : ft = b!"Btn"
  · subst h2
    simp only [if_neg (show ¬ b!"Btn" = b!"Tx" by decide), if_true]
    split
    · simp
    split <;> simp
  by_cases h3 : ft = b!"Ch"
  · subst h3; simp
  by_cases h4 : ft = b!"Sig"
  · subst h4; simp
  simp [h1, h2, h3, h4]

/-- C66 is violated for every button field, whatever its flags: ISO 32000-1 (Table 226) makes bit 17 a push button, bit 16
a set of radio buttons and neither a check box; the code makes bit 16 a check box, bit 17 radio buttons and neither a push
button. -/
theorem C66_buttons_violated (ff : Nat) : mapFieldType b!"Btn" ff ≠ isoButton ff := by
  have h16 := and_flag ff 16 0x8000 rfl
  have h17 := and_flag ff 17 0x10000 rfl
  unfold mapFieldType isoButton
  rw [if_neg (by decide), if_pos rfl]
  by_cases a : Flag ff 16 <;> by_cases b : Flag ff 17 <;>
    simp [a, b, h16, h17]

/-- C66: what the library builds it recognises: fields added with AddTextField, AddCheckbox, AddRadioButton,
AddChoiceField and AddButton, whether or not they are made required. -/
theorem C66_own_fields (name rect : Bytes) (opts : List Bytes) (r : Bool) :
    let type (f : FieldDef) := mapFieldType (setRequired f r).type (setRequired f r).flags
    type (textField name rect) = .text ∧ type (checkbox name rect) = .checkbox ∧ type (radioButton name rect) = .radio ∧
    type (choiceField name rect opts) = .select ∧ type (button name rect) = .button := by
  have hb : ∀ f : FieldDef, f.type = b!"Btn" → mapFieldType f.type f.flags =
      if Flag f.flags 16 then .checkbox else if Flag f.flags 17 then .radio else .button := by
    intro f hf
    have h16 := and_flag f.flags 16 0x8000 rfl
    have h17 := and_flag f.flags 17 0x10000 rfl
    rw [mapFieldType, hf, if_neg (by decide), if_pos rfl]
    simp only [h16, h17]
  have fl : ∀ f : FieldDef, f.flags ∈ [0, 0x8000, 0x10000] → (setRequired f r).flags = f.flags + (if r then 2 else 0) := by
    intro f hf
    simp only [List.mem_cons, List.not_mem_nil, or_false] at hf
    unfold setRequired
    cases r
    · rcases hf with h | h | h <;> (simp only [h]; decide)
    · rcases hf with h | h | h <;> (simp only [h]; decide)
  have ty : ∀ f : FieldDef, (setRequired f r).type = f.type := fun f => rfl
  refine ⟨rfl, ?_, ?_, rfl, ?_⟩
  · show mapFieldType _ _ = _
    have e := fl (checkbox name rect) (by simp [checkbox])
    rw [show (checkbox name rect).flags = 0x8000 from rfl] at e
    rw [hb _ rfl, e, if_pos (by clear e; cases r <;> decide)]
  · show mapFieldType _ _ = _
    have e := fl (radioButton name rect) (by simp [radioButton])
    rw [show (radioButton name rect).flags = 0x10000 from rfl] at e
    rw [hb _ rfl, e, if_neg (by clear e; cases r <;> decide), if_pos (by clear e; cases r <;> decide)]
  · show mapFieldType _ _ = _
    have e := fl (button name rect) (by simp [button])
    rw [show (button name rect).flags = 0 from rfl] at e
    rw [hb _ rfl, e, if_neg (by clear e; cases r <;> decide), if_neg (by clear e; cases r <;> decide)]

example : mapFieldType b!"Btn" 0x8000 = .checkbox ∧ isoButton 0x8000 = .radio ∧ isoButton 0 = .checkbox ∧
    mapFieldType b!"Btn" 0 = .button := by decide

/-! ### C69: the field tree -/

/-- C69: parsing a field finishes exactly when no infinite chain of /Kids leads down from it. -/
theorem C69_terminates_iff (get : Int → Option Bytes) (n g : Int) :
    (∃ fuel x, parseField get fuel n g = some x) ↔ Acc (KidOf get) n := by
  constructor
  · rintro ⟨fuel, x, h⟩
    exact acc_parseField get fuel n g (by rw [h]; rfl)
  · intro h
    obtain ⟨fuel, hf⟩ := parseField_acc get n h g
    exact ⟨fuel, Option.isSome_iff_exists.1 hf⟩

/-- C69: when parsing finishes, more time does not change the result. -/
theorem C69_deterministic (get : Int → Option Bytes) (n g : Int) (fuel fuel' : Nat) (x y : Option Field)
    (h : parseField get fuel n g = some x) (h' : parseField get fuel' n g = some y) : x = y := by
  rcases Nat.le_total fuel fuel' with hl | hl
  · have := parseField_le get hl n g x h
    rw [this] at h'; exact Option.some.inj h'
  · have := parseField_le get hl n g y h'
    rw [this] at h; exact (Option.some.inj h).symm

/-- C69: the parsed tree holds exactly the readable objects below the field, each with the attributes its text states. -/
theorem C69_tree (get : Int → Option Bytes) (fuel : Nat) (n g : Int) (f : Field)
    (h : parseField get fuel n g = some (some f)) :
    (∀ m, (∃ k, InTree f k ∧ k.attrs.num = m) ↔ Below get n m) ∧
    (∀ k, InTree f k → ∃ s, get k.attrs.num = some s ∧ k.attrs = parseAttrs k.attrs.num k.attrs.gen s) := by
  refine ⟨fun m => ⟨?_, fun hb => below_tree hb fuel g f h⟩, fun k hk => (tree_below fuel n g f h k hk).2⟩
  rintro ⟨k, hk, rfl⟩
  exact (tree_below fuel n g f h k hk).1

/-- C69: an unreadable field is an error exactly when its object cannot be read. -/
theorem C69_error_iff (get : Int → Option Bytes) (fuel : Nat) (n g : Int) :
    parseField get (fuel + 1) n g = some none ↔ get n = none := by
  refine ⟨parseField_none, fun h => by rw [parseField, h]⟩

/-- Objects for examples: a field with two kids (one of them unreadable), and a field that is its own grandchild. -/
def treeGet : Int → Option Bytes
  | 1 => some b!"<< /T (a) /Kids [2 0 R 9 0 R 3 0 R] >>"
  | 2 => some b!"<< /FT /Tx /T (b) >>"
  | 3 => some b!"<< /T (c) /Ff 2 >>"
  | 5 => some b!"<< /T (x) /Kids [6 0 R] >>"
  | 6 => some b!"<< /T (y) /Kids [5 0 R] >>"
  | _ => none

example : ((parseField treeGet 2 1 0).map fun o => o.map fun f => (f.attrs.t, f.kids.map (·.attrs.t))) =
    some (some (b!"a", [b!"b", b!"c"])) := by decide +kernel

theorem cycle_not_acc {α : Type} {r : α → α → Prop} {a b : α} (h1 : r a b) (h2 : r b a) : ¬ Acc r a := by
  intro h
  have key : ∀ x, Acc r x → x ≠ a ∧ x ≠ b := by
    intro x hx
    induction hx with
    | intro x _ ih =>
      constructor
      · rintro rfl; exact (ih b h2).2 rfl
      · rintro rfl; exact (ih a h1).1 rfl
  exact (key a h).1 rfl

/-- C69 is violated for a file whose fields form a cycle: parsing never finishes. -/
theorem C69_cycle_violated : ¬ ∃ fuel x, parseField treeGet fuel 5 0 = some x := by
  rw [C69_terminates_iff]
  exact cycle_not_acc (b := 6) ⟨_, rfl, (5, 0), by decide +kernel, rfl⟩ ⟨_, rfl, (6, 0), by decide +kernel, rfl⟩

/-- C69 is violated for every file in which a field names itself among its kids. -/
theorem C69_self_violated (get : Int → Option Bytes) (n g : Int) (h : KidOf get n n) :
    ∀ fuel, parseField get fuel n g = none := by
  intro fuel
  cases hp : parseField get fuel n g with
  | none => rfl
  | some x => exact absurd ((C69_terminates_iff get n g).1 ⟨fuel, x, hp⟩) (cycle_not_acc h h)

/-! ### C67: fields built and read back -/

/-- C67: a field built with FieldBuilder is parsed back with the same name, type, flags, value, default, length limit and
options.  Partial: the texts consist of printable ASCII characters without parentheses, brackets, slash, angle brackets
and backslash (see the violations), and the object's text is surrounded by text without a slash, such as its header. -/
theorem C67_field_partial (f : FieldDef) (hf : PlainField f) (num gen : Int) (pre post : Bytes) (hpre : (47 : UInt8) ∉ pre)
    (hpost : (47 : UInt8) ∉ post) :
    parseAttrs num gen (pre ++ fieldText f ++ post) =
      { num := num, gen := gen, ft := f.type, t := f.name, tu := [], ff := f.flags,
        v := if f.value = .nil then .none else .str (formatFieldValue f.value f.type),
        dv := if f.dflt = .nil then none else some (formatFieldValue f.dflt f.type),
        maxLen := f.maxLen, opt := f.options } :=
  parse_field f hf num gen pre post hpre hpost

/-- C67: a form built with FieldBuilder is parsed back with exactly its fields, in order and without kids; `get n` gives
the text of object `n` surrounded by text without a slash. -/
theorem C67_form_partial (get : Int → Option Bytes) (fuel : Nat) (fs : List (Nat × FieldDef)) (pre post : Nat → Bytes)
    (a b : Bytes) (hpre : ∀ n, (47 : UInt8) ∉ pre n) (hpost : ∀ n, (47 : UInt8) ∉ post n) (ha : (47 : UInt8) ∉ a)
    (hf : ∀ e ∈ fs, e.1 < 2 ^ 63 ∧ PlainField e.2 ∧ get e.1 = some (pre e.1 ++ fieldText e.2 ++ post e.1)) :
    ∃ fields : List Pdfer.Forms.Field, parseForm get (fuel + 1) (a ++ formText (fs.map fun e => (e.1 : Int)) ++ b) = some (some fields) ∧
      fields.length = fs.length ∧
      ∀ (i n : Nat) (f : FieldDef), fs[i]? = some (n, f) → ∃ g : Pdfer.Forms.Field, fields[i]? = some g ∧ g.kids = [] ∧ g.attrs =
        { num := n, gen := 0, ft := f.type, t := f.name, tu := [], ff := f.flags,
          v := if f.value = .nil then .none else .str (formatFieldValue f.value f.type),
          dv := if f.dflt = .nil then none else some (formatFieldValue f.dflt f.type),
          maxLen := f.maxLen, opt := f.options } := by
  refine ⟨fs.map fun e => .mk (parseAttrs e.1 0 (fieldText e.2)) [], ?_, by simp, ?_⟩
  · have e : fs.map (fun e => (e.1 : Int)) = (fs.map (·.1)).map (fun n : Nat => (n : Int)) := by
      rw [List.map_map]; rfl
    have hn : ∀ n ∈ fs.map (·.1), n < 2 ^ 63 := by
      intro n hn
      obtain ⟨x, hx, rfl⟩ := List.mem_map.1 hn
      exact (hf x hx).1
    rw [parseForm, e, form_refs _ hn a b ha]
    simp only
    rw [findAll_refs _ hn, List.map_map,
      show ((fun n : Nat => (n, 0)) ∘ fun e : Nat × FieldDef => e.1) = (fun e : Nat × FieldDef => (e.1, 0)) from rfl,
      build_parsed get fuel fs pre post hpre hpost (fun e he => (hf e he).2)]
    rfl
  · intro i n f h
    refine ⟨Pdfer.Forms.Field.mk (parseAttrs n 0 (fieldText f)) [], by rw [List.getElem?_map, h]; rfl, rfl, ?_⟩
    have hm := List.mem_of_getElem? h
    have := parse_field f (hf _ hm).2.1 (n : Int) 0 [] [] (by simp) (by simp)
    simp only [List.nil_append, List.append_nil] at this
    exact this

/-- A field for examples: required, with value, default, limit, options and rectangle. -/
def exDef : FieldDef :=
  { name := b!"Full name", type := b!"Ch", value := .str b!"b", dflt := .int (-3), rect := b!"1.00 2.00 30.00 4.00",
    flags := 2, options := [b!"a", b!"b"], maxLen := 40 }

instance : DecidablePred PlainChar := fun c => inferInstanceAs (Decidable (_ ∧ _))

example : PlainField exDef where
  type := by decide
  name := by decide +kernel
  rect := by decide +kernel
  value := by decide +kernel
  dflt := by decide +kernel
  options := by decide +kernel
  flags := by decide
  maxLen := by decide

example : fieldText exDef = b!"<< /FT /Ch /T (Full name) /Rect [1.00 2.00 30.00 4.00] /Ff 2 /V (b) /DV (-3) /MaxLen 40 /Opt [(a) (b)] >>" := by
  decide +kernel

/-- For examples: the stand-alone reader on unencrypted files without compression. -/
def getPlain (pdf : Bytes) (n : Int) : Res Bytes := Document.getObject some none pdf n

/-- For examples: the bytes of a successful result. -/
def okOf' : Res Bytes → Bytes
  | .ok b => b
  | _ => []

/-- A written file with a text field (object 1), a form (2) and a catalog (3). -/
def formFile (value : Bytes) : Bytes :=
  (Writer.write plainEnv (Writer.run plainEnv
    [.addObject (some (fieldText { textField b!"n" [] with value := .str value })), .addObject (some (formText [1])),
     .addObject (some b!"<</Type/Catalog/AcroForm 2 0 R>>"), .setRoot 3])).1

/-- From a written file to the parsed form: the hypotheses of `C67_form_partial` hold for what GetObject returns. -/
example : getPlain (formFile b!"a") 1 = .ok (b!"1 0 obj\n" ++ fieldText { textField b!"n" [] with value := .str b!"a" } ++ b!"\nendobj") ∧
    getPlain (formFile b!"a") 2 = .ok (b!"2 0 obj\n" ++ formText [1] ++ b!"\nendobj") := by decide +kernel

/-- C67 is violated for a value with a parenthesis or another escaped character: the parser stops at the first closing
parenthesis and undoes no escape. -/
theorem C67_escape_violated :
    (parseAttrs 1 0 (fieldText { textField b!"n" [] with value := .str b!"f(x) and more" })).v = .str b!"f\\(x\\" ∧
    (parseAttrs 1 0 (fieldText { textField b!"n" [] with value := .str b!"a\\b" })).v = .str b!"a\\\\b" := by decide +kernel

/-- C67 is violated for texts that look like entries: a name that contains `/Ff 3` gives the field the flags 3 (read-only
and required). -/
theorem C67_injection_violated :
    (parseAttrs 1 0 (fieldText (textField b!"see /Ff 3" []))).ff = 3 ∧ (textField b!"see /Ff 3" []).flags = 0 := by
  decide +kernel

/-- C67 is violated for options with a closing bracket: they are cut there. -/
theorem C67_option_violated :
    (parseAttrs 1 0 (fieldText (choiceField b!"n" [] [b!"a]", b!"b"]))).opt = [] := by decide +kernel

/-! ### C49: filling a field in place -/

/-- C49: setting a value replaces exactly the present literal-string value.  Partial: `/V` stands once in the field's text,
its value has no closing parenthesis inside, and the new value has no dollar sign (see the violations). -/
theorem C49_value_replaced_partial {a w old b : Bytes} {v : Val} {ft : Bytes} (ha : ¬ b!"/V" <:+: a ++ b!"/")
    (hw : ∀ c ∈ w, White c) (ho : (41 : UInt8) ∉ old) (hb : ¬ b!"/V" <:+: b)
    (h36 : (36 : UInt8) ∉ escapeFieldValue (formatFieldValue v ft)) :
    setValue (a ++ (b!"/V" ++ w ++ b!"(" ++ old ++ b!")") ++ b) v ft =
      some (a ++ (b!"/V (" ++ escapeFieldValue (formatFieldValue v ft) ++ b!")") ++ b) := by
  have ha' : NoOcc b!"/V" a := by
    apply noOcc_iff_infix.2
    rintro ⟨x, y, e⟩
    exact ha ⟨x, y ++ b!"/", by rw [← e]; simp⟩
  exact setValue_replace ha' hw ho (noOcc_iff_infix.2 hb) (by simp [newV, h36])

/-- C49: setting a value in a field without one adds it at the end of the dictionary and changes nothing else.  Partial:
the dictionary must be the last thing in the text. -/
theorem C49_value_added_partial {a b : Bytes} {v : Val} {ft : Bytes} (hs : ¬ b!"/V" <:+: a ++ b!">>" ++ b)
    (hb : (62 : UInt8) ∉ b) :
    setValue (a ++ b!">>" ++ b) v ft =
      some (a ++ (b!"/V (" ++ escapeFieldValue (formatFieldValue v ft) ++ b!") ") ++ b!">>" ++ b) := by
  have := setValue_insert (v := v) (ft := ft) (noOcc_iff_infix.2 hs) hb
  simpa [newV] using this

example : setValue b!"<< /T (n) /V (old) /DA (x) >>" (.str b!"new (1)") b!"Tx" = some b!"<< /T (n) /V (new \\(1\\)) /DA (x) >>" ∧
    setValue b!"1 0 obj\n<< /T (n) >>\nendobj" (.bool true) b!"Btn" = some b!"1 0 obj\n<< /T (n) /V (Yes) >>\nendobj" := by
  decide +kernel

/-- C49: the exact effect of ReplaceFieldObject: the first text `n g obj` of the file and everything up to the following
`endobj` is kept resp. replaced; what stands before and behind is the same. -/
theorem C49_replace_exact (pdf new r : Bytes) (n g : Int) : replaceObject pdf n g new = some r ↔
    ∃ a hd old z, pdf = a ++ hd ++ (old ++ b!"endobj") ++ z ∧ r = a ++ hd ++ (b!"\n" ++ new ++ b!"\nendobj\n") ++ z ∧
      HeaderText n g hd ∧ (∀ j, j < a.length → ¬ HeaderAt n g pdf j) ∧ ¬ b!"endobj" <:+: old ++ b!"endob" := by
  rw [replaceObject_some]
  constructor
  · rintro ⟨a, hd, old, z, h1, h2, h3, h4, h5⟩
    refine ⟨a, hd, old, z, h1, h2, h3, h4, ?_⟩
    rw [index_eq_some_iff] at h5
    rintro ⟨x, y, e⟩
    have hlen : x.length < old.length := by
      have := congrArg List.length e
      simp at this; omega
    refine h5.2.2 x.length hlen ?_
    have e2 : old ++ b!"endobj" ++ z = x ++ (b!"endobj" ++ (y ++ b!"j" ++ z)) := by
      have : old ++ b!"endobj" = (old ++ b!"endob") ++ b!"j" := by simp
      rw [this, ← e]; simp
    rw [e2, List.drop_left]
    exact List.prefix_append _ _
  · rintro ⟨a, hd, old, z, h1, h2, h3, h4, h5⟩
    refine ⟨a, hd, old, z, h1, h2, h3, h4, ?_⟩
    rw [index_eq_some_iff]
    refine ⟨by simp, by rw [List.append_assoc, List.drop_left]; exact List.prefix_append _ _, ?_⟩
    intro j hj hpre
    apply h5
    have hd : (old ++ b!"endobj" ++ z).drop j = (old ++ b!"endob").drop j ++ (b!"j" ++ z) := by
      rw [show old ++ b!"endobj" ++ z = (old ++ b!"endob") ++ (b!"j" ++ z) by simp, List.drop_append_of_le_length]
      simp; omega
    rw [hd] at hpre
    have hp2 : b!"endobj" <+: (old ++ b!"endob").drop j :=
      List.prefix_of_prefix_length_le hpre (List.prefix_append _ _) (by simp; omega)
    exact hp2.isInfix.trans (List.drop_suffix _ _).isInfix

/-- C49: in-place filling keeps every byte up to the filled object, and what stands behind it moves by one distance; so an
offset into the part before stays right, and an offset into the part behind stays right only if the lengths are equal.
(Partial: this is what holds instead of the claim; see the violation.) -/
theorem C49_positions_partial (pdf new r : Bytes) (n g : Int) (h : replaceObject pdf n g new = some r) :
    ∃ p q : Nat, p < q ∧ q ≤ pdf.length ∧
      (∃ j hd, j + hd.length = p ∧ HeaderText n g hd ∧ hd <+: pdf.drop j ∧ ∀ i, i < j → ¬ HeaderAt n g pdf i) ∧
      r.take p = pdf.take p ∧ (∀ i, q ≤ i → r.drop (p + new.length + 9 + (i - q)) = pdf.drop i) ∧
      r.length + (q - p) = pdf.length + new.length + 9 := by
  obtain ⟨a, hd, old, z, h1, h2, h3, h4, h5⟩ := (C49_replace_exact pdf new r n g).1 h
  subst h2
  refine ⟨(a ++ hd).length, (a ++ hd ++ (old ++ b!"endobj")).length, by simp, by rw [h1]; simp,
    ⟨a.length, hd, by simp, h3, ?_, h4⟩, ?_, ?_, ?_⟩
  · rw [h1, List.append_assoc, List.append_assoc, List.drop_left]; exact List.prefix_append _ _
  · rw [h1, List.append_assoc (a ++ hd), List.append_assoc (a ++ hd), List.take_left, List.take_left]
  · intro i hi
    obtain ⟨k, rfl⟩ := Nat.exists_eq_add_of_le hi
    rw [Nat.add_sub_cancel_left, h1, ← List.drop_drop (i := k), ← List.drop_drop (i := k), List.drop_left]
    congr 1
    have : (a ++ hd).length + new.length + 9 = (a ++ hd ++ (b!"\n" ++ new ++ b!"\nendobj\n")).length := by simp; omega
    rw [this, List.drop_left]
  · rw [h1]; simp; omega

example : replaceObject b!"1 0 obj\n(a)\nendobj\n2 0 obj\n(b)\nendobj\n3 0 obj\n(c)\nendobj\n" 2 0 b!"(new)" =
    some b!"1 0 obj\n(a)\nendobj\n2 0 obj\n(new)\nendobj\n\n3 0 obj\n(c)\nendobj\n" := by decide +kernel

/-- C49 is violated: filling the field of a written file leaves the cross-reference table and `startxref` as they were.
The file opened before with three objects; after a shorter value was filled in it opens with none (the reader falls back
to searching a table behind a wrong position). -/
theorem C49_offsets_violated :
    ∃ filled, fillFieldValue getPlain (formFile b!"a long value that will be replaced by a short one")
        { num := 1, gen := 0, ft := b!"Tx" } (.str b!"b") = .ok filled ∧
      ((Incremental.openPdf (Fallback.realEnv some) (formFile b!"a long value that will be replaced by a short one")).bind
        fun p => .ok (Incremental.objects p)) = .ok [3, 2, 1] ∧
      ((Incremental.openPdf (Fallback.realEnv some) filled).bind fun p => .ok (Incremental.objects p)) = .ok [] := by
  refine ⟨okOf' (fillFieldValue getPlain (formFile b!"a long value that will be replaced by a short one")
        { num := 1, gen := 0, ft := b!"Tx" } (.str b!"b")), ?_, ?_, ?_⟩
  · decide +kernel
  · decide +kernel
  · decide +kernel

/-- C49 is violated: the text GetObject returns includes the object's own header and `endobj`, so the filled object holds
a second header and is closed twice. -/
theorem C49_nested_violated :
    fillFieldValue getPlain (formFile b!"a") { num := 1, gen := 0, ft := b!"Tx" } (.str b!"b") =
      .ok (b!"%PDF-1.7\n" ++ [37, 0xE2, 0xE3, 0xCF, 0xD3, 10] ++
        b!"1 0 obj\n1 0 obj\n<< /FT /Tx /T (n) /V (b) >>\nendobj\nendobj\n" ++
        (formFile b!"a").drop 57) := by decide +kernel

/-- C49 is violated for the field object 5 of a file that holds object 15 before it: the text `5 0 obj` is found inside
`15 0 obj`, and that object is overwritten. -/
theorem C49_wrong_object_violated :
    replaceObject b!"15 0 obj\n(keep)\nendobj\n5 0 obj\n<< /T (n) >>\nendobj\n" 5 0 b!"<< /T (n) /V (v) >>" =
      some b!"15 0 obj\n<< /T (n) /V (v) >>\nendobj\n\n5 0 obj\n<< /T (n) >>\nendobj\n" := by decide +kernel

/-- C49 is violated for values with a dollar sign: it is taken as a group reference of the replacement text. -/
theorem C49_dollar_violated :
    setValue b!"<< /T (n) /V (old) >>" (.str b!"cost $5 now") b!"Tx" = some b!"<< /T (n) /V (cost  now) >>" := by decide +kernel

/-- C49 is violated when a value with a closing parenthesis is replaced: the search stops there and the rest of the old
value stays behind, outside any string. -/
theorem C49_refill_violated :
    (setValue b!"<< /T (n) /V (a) >>" (.str b!"f(x)y") b!"Tx").bind (fun s => setValue s (.str b!"z") b!"Tx") =
      some b!"<< /T (n) /V (z)y) >>" := by decide +kernel

/-- C49 is violated for a name value that is followed by another entry without white space: the other entries go with
it. -/
theorem C49_name_violated :
    setValue b!"<< /FT /Btn /V/Off/T(n) /Ff 2 >>" (.bool true) b!"Btn" = some b!"<< /FT /Btn /V (Yes) /Ff 2 >>" := by
  decide +kernel

/-- C49 is violated for a value written as a hexadecimal string (or a number): the old entry stays and a second one is
added. -/
theorem C49_second_entry_violated :
    setValue b!"<< /T (n) /V <41> >>" (.str b!"b") b!"Tx" = some b!"<< /T (n) /V <41> /V (b) >>" := by decide +kernel

/-! ### C50: rebuilding an object stream -/

/-- C50: for a conforming object stream, the rebuilding computes a header that lists the same objects in the same order,
with the offsets at which the rebuilt data holds them: the new text of the updated ones and the old text of the others
(without white space at its end).  Partial: header and data are computed right, but see the violation for what is
stored. -/
theorem C50_pieces_partial (objs : List (Nat × Bytes)) (updates : Map Int Bytes) (hn : ∀ e ∈ objs, e.1 < 2 ^ 63)
    (hl : (objStream objs).2.length < 2 ^ 63) (hd : (objs.map (·.1)).Nodup) (hu : updates.keys.Nodup)
    (hnew : (objs.map fun e => ((updates.get e.1).getD (rstrip e.2)).length + 1).sum < 2 ^ 63) :
    ∃ (data hdr : Bytes) (offs : List Nat), rebuildContent objs.length (objStream objs).1 (objStream objs).2 updates = .ok (data, hdr) ∧
      XRefStream.headerPairs (fields hdr) = (objs.zip offs).map (fun e => ((e.1.1 : Int), (e.2 : Int))) ∧
      offs.length = objs.length ∧
      ∀ (i n : Nat) (c : Bytes) (off : Nat), objs[i]? = some (n, c) → offs[i]? = some off →
        (updates.get n).getD (rstrip c) ++ b!"\n" <+: data.drop off := by
  refine ⟨_, _, objOffsets 0 ((updated objs updates).map (·.2)), rebuild_conforming objs updates hn hl hd hu, ?_, ?_, ?_⟩
  · have e : ∀ offs : List Nat, ((updated objs updates).zip offs).flatMap (fun e => natDec e.1.1 ++ b!" " ++ natDec e.2 ++ b!" ") =
        ((objs.zip offs).map (fun e => (e.1.1, e.2))).flatMap (fun e => natDec e.1 ++ b!" " ++ natDec e.2 ++ b!" ") := by
      intro offs
      rw [List.flatMap_map, updated, List.zip_map_left, List.flatMap_map]
      rfl
    rw [e, trail_fields, List.map_map]
    · rfl
    · intro x hx
      obtain ⟨y, hy, rfl⟩ := List.mem_map.1 hx
      obtain ⟨y1, y2⟩ := List.of_mem_zip hy
      have a := hn _ y1
      have b := objOffsets_lines _ _ _ y2
      have len : (((updated objs updates).map (·.2)).flatMap (fun c => c ++ b!"\n")).length =
          (objs.map fun e => ((updates.get e.1).getD (rstrip e.2)).length + 1).sum := by
        rw [List.length_flatMap, updated, List.map_map, List.map_map]
        congr 1
        apply List.map_congr_left
        intro e _
        simp
      simp only at a b ⊢
      omega
  · rw [XRefStream.objOffsets_length]; simp [updated]
  · intro i n c off h ho
    have h1 : ((updated objs updates).map (·.2))[i]? = some ((updates.get n).getD (rstrip c)) := by
      rw [List.getElem?_map, updated, List.getElem?_map, h]; rfl
    have := lines_at ((updated objs updates).map (·.2)) 0 [] rfl i _ off h1 ho
    rw [List.nil_append, List.flatMap_map] at this
    exact this

/-- A file with an object stream (object 4) that holds the objects 1 and 2. -/
def stmFile : Bytes :=
  b!"%PDF-1.5\n4 0 obj\n<</Type/ObjStm /N 2 /First 8 /Length 23>>\nstream\n1 0 2 8 (one12) (two34)\nendstream\nendobj\nxref\n4 1\n0000000009 00000 n \ntrailer\n<</Size 5>>\nstartxref\n107\n%%EOF\n"

example : (objStream [(1, b!"(one12)"), (2, b!"(two34)")]) = (8, b!"1 0 2 8 (one12) (two34)") ∧
    rebuildContent 2 8 b!"1 0 2 8 (one12) (two34)" [(1, b!"(new)")] = .ok (b!"(new)\n(two34)\n", b!"1 0 2 6 ") := by
  decide +kernel

/-- C50 is violated: the rebuilt stream is stored without its header (and without /Type and /Filter, and closed twice), so
neither the updated object nor the others can be read. -/
theorem C50_header_lost_violated :
    XRefStream.getObjectFromStream some some stmFile 1 4 0 = .ok b!"(one12)" ∧
    XRefStream.getObjectFromStream some some stmFile 2 4 1 = .ok b!"(two34)" ∧
    ∃ pdf', rebuildObjectStream getPlain some id stmFile 4 [(1, b!"(new)")] = .ok pdf' ∧
      pdf' = b!"%PDF-1.5\n4 0 obj\n<< /N 2 /First 8 /Length 14 >>\nstream\n(new)\n(two34)\n\nendstream\nendobj\n" ++
        stmFile.drop 99 ∧
      XRefStream.getObjectFromStream some some pdf' 1 4 0 = .err ∧
      XRefStream.getObjectFromStream some some pdf' 2 4 1 = .err := by
  refine ⟨by decide +kernel, by decide +kernel,
    b!"%PDF-1.5\n4 0 obj\n<< /N 2 /First 8 /Length 14 >>\nstream\n(new)\n(two34)\n\nendstream\nendobj\n" ++ stmFile.drop 99,
    by decide +kernel, rfl, by decide +kernel, by decide +kernel⟩

/-- C50 is violated for streams whose header lists the objects in another order than the data holds them: the rebuilding
panics. -/
theorem C50_order_violated :
    rebuildContent 2 8 b!"1 8 2 0 (two34) (one12)" [(1, b!"(new)")] = .panic ∧
    XRefStream.extract 8 b!"1 8 2 0 (two34) (one12)" 2 1 = .ok b!"(two34) (one12)" := by decide +kernel

/-! ### C68: adding appearances, actions and the form -/

/-- C68: each of the four ways to add an entry to a dictionary that does not have it yet inserts it before the end of the
dictionary and changes nothing else.  Partial: the dictionary ends the text. -/
theorem C68_added_partial (a b : Bytes) (hb : (62 : UInt8) ∉ b) :
    (∀ n, ¬ b!"/AP" <:+: a ++ b!">>" ++ b →
      addAppearance (a ++ b!">>" ++ b) n = some (a ++ (b!"/AP << /N " ++ itoa n ++ b!" 0 R >> ") ++ b!">>" ++ b)) ∧
    (∀ act, addAction (a ++ b!">>" ++ b) act = some (a ++ (b!"/A " ++ act ++ b!" ") ++ b!">>" ++ b)) ∧
    (∀ key act, ¬ b!"/AA " <:+: a ++ b!">>" ++ b →
      addMouseAction (a ++ b!">>" ++ b) key act =
        some (a ++ (b!"/AA << /" ++ key ++ b!" " ++ act ++ b!" >> ") ++ b!">>" ++ b)) ∧
    (∀ n, ¬ b!"/AcroForm" <:+: a ++ b!">>" ++ b →
      addToCatalog (a ++ b!">>" ++ b) n = some (a ++ (b!" /AcroForm " ++ itoa n ++ b!" 0 R") ++ b!">>" ++ b)) := by
  have hi : ∀ entry : Bytes, insertBeforeEnd (a ++ b!">>" ++ b) entry = some (a ++ entry ++ b!">>" ++ b) := by
    intro entry
    unfold insertBeforeEnd
    rw [List.append_assoc, lastIndex_end hb]
    simp
  have hc : ∀ key s : Bytes, ¬ key <:+: s → contains s key = false := by
    intro key s h
    rw [Bool.eq_false_iff]
    exact fun hc => h ((contains_iff s key).1 hc)
  refine ⟨fun n h => ?_, fun act => ?_, fun key act h => ?_, fun n h => ?_⟩
  · unfold addAppearance
    simp only [hc _ _ h, Bool.false_eq_true, if_false, hi]
    simp
  · unfold addAction
    rw [hi]
  · unfold addMouseAction
    simp only [hc _ _ h, Bool.false_eq_true, if_false, hi]
    simp
  · unfold addToCatalog
    simp only [hc _ _ h, Bool.false_eq_true, if_false, hi]

/-- C68: adding the form a second time changes nothing. -/
theorem C68_form_once (s s' : Bytes) (n m : Int) (h : addToCatalog s n = some s') : addToCatalog s' m = some s' := by
  have hc : contains s' b!"/AcroForm" = true := by
    unfold addToCatalog at h
    split at h
    · cases h; assumption
    · unfold insertBeforeEnd at h
      simp only [Option.map_eq_some_iff] at h
      obtain ⟨i, _, rfl⟩ := h
      rw [contains_iff]
      exact ⟨s.take i ++ b!" ", b!" " ++ itoa n ++ b!" 0 R" ++ s.drop i, by simp⟩
  unfold addToCatalog
  rw [if_pos hc]

example : addAppearance b!"<< /FT /Tx >>" 9 = some b!"<< /FT /Tx /AP << /N 9 0 R >> >>" ∧
    addMouseAction b!"<< /FT /Btn >>" b!"U" (uriAction b!"http://x") =
      some b!"<< /FT /Btn /AA << /U << /Type /Action /S /URI /URI (http://x) >> >> >>" ∧
    addToCatalog b!"<< /Type /Catalog >>" 7 = some b!"<< /Type /Catalog  /AcroForm 7 0 R>>" := by decide +kernel

/-- C68 is violated for a second mouse action: the first one is lost, and because its dictionary is nested the replacement
leaves `>>` over, which ends the field's dictionary early. -/
theorem C68_second_action_violated :
    (addMouseAction b!"<< /T (n) >>" b!"U" (uriAction b!"u")).bind (fun s => addMouseAction s b!"D" (uriAction b!"d")) =
      some b!"<< /T (n) /AA << /D << /Type /Action /S /URI /URI (d) >> >> >> >>" := by decide +kernel

/-- C68 is violated for a field with an appearance per state: the replacement leaves `>>` over. -/
theorem C68_appearance_violated :
    addAppearance b!"<< /AP << /N << /Yes 5 0 R >> >> /T (n) >>" 9 =
      some b!"<< /AP << /N 9 0 R >> >> /T (n) >>" := by decide +kernel

/-- C68 is violated for a second action: the field has two /A entries. -/
theorem C68_two_actions_violated (a b act1 act2 : Bytes) (hb : (62 : UInt8) ∉ b) :
    (addAction (a ++ b!">>" ++ b) act1).bind (fun s => addAction s act2) =
      some (a ++ (b!"/A " ++ act1 ++ b!" ") ++ (b!"/A " ++ act2 ++ b!" ") ++ b!">>" ++ b) := by
  rw [(C68_added_partial a b hb).2.1, Option.bind_some, (C68_added_partial (a ++ (b!"/A " ++ act1 ++ b!" ")) b hb).2.1]

/-- C68 is violated for a URI with a dollar sign in a field that has an /AA entry. -/
theorem C68_dollar_violated :
    addMouseAction b!"<< /AA << >> >>" b!"D" (uriAction b!"http://x?$a=1") =
      some b!"<< /AA << /D << /Type /Action /S /URI /URI (http://x?=1) >> >> >>" := by decide +kernel

end Pdfer.Props
