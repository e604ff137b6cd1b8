import Verif.Proofs.Datasets

/-! C107: XFA form data written as XML and read again. -/

namespace Pdfer.Props

open Pdfer.Go Pdfer.XFA Pdfer.Datasets Pdfer.Spec.Datasets Pdfer.Spec.Builder

variable {F : Type}

theorem sameMap_read (fl : Floats F) (fs : List (Bytes × DVal F)) (h : FieldMap fs) (hu : ∀ f ∈ fs, Unambiguous fl f.2) :
    SameMap (setAll fl fs []) fs := by
  have := setAll_same fl fs h
  rw [show (fs.map fun f => (f.1, readBack fl f.2)) = fs from by
    conv => rhs; rw [← List.map_id fs]
    exact List.map_congr_left fun f hf => by simp [readBack_eq fl f.2 (hu f hf)]] at this
  exact this

/-- C107 (partial: values whose text says what they are; group names that are not the reader's own; groups without groups in them): form data
that `DatasetsToXFA` wrote, whatever order the maps are gone through, and however the decoder delivers the indentation, is read by
`ParseXFADatasets` with the same fields and values, and the same groups in the same order, each with its name, fields and values. -/
theorem C107_roundtrip_partial (fl : Floats F) (d : Datasets F) (hf : FieldMap d.fields) (hu : ∀ f ∈ d.fields, Unambiguous fl f.2)
    (hg : ∀ g ∈ d.groups, Named g ∧ g.groups = [] ∧ ∀ f ∈ g.fields, Unambiguous fl f.2)
    {enc dec : List Tok} (he : datasetsToXFA fl d = some enc) (hw : Woven enc dec) :
    SameMap (parseDatasets fl dec).fields d.fields ∧ InOrder SameGroup (parseDatasets fl dec).groups d.groups := by
  rw [read_written fl d hf (fun g h => (hg g h).1) he hw]
  refine ⟨sameMap_read fl _ hf hu, ?_⟩
  simp only
  have hl : d.groups.takeWhile leaf = d.groups := by
    have hall : ∀ g ∈ d.groups, leaf g = true := fun g h => by simp [leaf, (hg g h).2.1]
    have := List.takeWhile_append_of_pos (l₂ := []) hall
    simpa using this
  rw [hl]
  clear hl he hw hf hu
  generalize d.groups = gs at hg
  induction gs with
  | nil => exact .nil
  | cons g gs ih =>
    refine .cons ?_ (ih fun x hx => hg x (List.mem_cons_of_mem _ hx))
    obtain ⟨h1, h2, h3⟩ := hg g (by simp)
    refine ⟨rfl, sameMap_read fl _ ?_ h3, rfl, h2⟩
    cases h1; assumption

/-- C107: `DatasetsToXFA` writes all well named data, with groups in any depth, without an error. -/
theorem C107_written (fl : Floats F) (d : Datasets F) (hg : ∀ g ∈ d.groups, Named g) : (datasetsToXFA fl d).isSome := by
  have key : ∀ gs : List (Group F), (∀ g ∈ gs, Named g) → (encGroups fl gs).isSome := by
    have one : ∀ g : Group F, Named g → (encGroup fl g).isSome := by
      intro g hg
      induction hg with
      | mk n fs gs hne _ _ _ ih =>
        have : (encGroups fl gs).isSome := by
          rename_i hgs0
          clear hgs0
          induction gs with
          | nil => rfl
          | cons g gs ih2 =>
            obtain ⟨a, ha⟩ := Option.isSome_iff_exists.1 (ih g (by simp))
            obtain ⟨b, hb⟩ := Option.isSome_iff_exists.1 (ih2 fun x hx => ih x (List.mem_cons_of_mem _ hx))
            simp [encGroups, ha, hb]
        simp [encGroup, hne, this]
    intro gs
    induction gs with
    | nil => intro _; rfl
    | cons g gs ih =>
      intro h
      obtain ⟨a, ha⟩ := Option.isSome_iff_exists.1 (one g (h g (by simp)))
      obtain ⟨b, hb⟩ := Option.isSome_iff_exists.1 (ih fun x hx => h x (List.mem_cons_of_mem _ hx))
      simp [encGroups, ha, hb]
  simp [datasetsToXFA, key d.groups hg]

/-- C107: a group that has a group in it is lost with all its fields, and so is every group after it: of the groups written, only those before
the first such group are read, whatever the data. -/
theorem C107_nested_violated (fl : Floats F) (d : Datasets F) (hf : FieldMap d.fields) (hg : ∀ g ∈ d.groups, Named g)
    (before after : List (Group F)) (g : Group F) (hd : d.groups = before ++ g :: after) (hb : ∀ x ∈ before, x.groups = []) (hn : g.groups ≠ [])
    {enc dec : List Tok} (he : datasetsToXFA fl d = some enc) (hw : Woven enc dec) :
    (parseDatasets fl dec).groups.map Group.name = before.map Group.name := by
  rw [read_written fl d hf hg he hw]
  have : d.groups.takeWhile leaf = before := by
    rw [hd]
    rw [List.takeWhile_append_of_pos (by intro x hx; simp [leaf, hb x hx])]
    have : leaf g = false := by simp [leaf, hn]
    simp [List.takeWhile, this]
  simp only [this, List.map_map]
  apply List.map_congr_left
  intro x _
  rfl

/-- C107: of several value elements in a field the last one counts, and text of the earlier ones never gets into it. -/
theorem C107_last_value (fl : Floats F) (n : Bytes) (hn : n ≠ []) (vs : List Bytes) (v : Bytes) :
    Map.get (parseDatasets fl ([.start b!"field" [(b!"name", n)]] ++ vs.flatMap (fun t => [.start b!"value" [], .chars t, .close b!"value"]) ++
      [.start b!"value" [], .chars v, .close b!"value", .close b!"field"])).fields n = some (parseFieldValue fl (trimSpace v)) := by
  have key : ∀ (vs : List Bytes) (w : Bytes), ∃ w',
      (vs.flatMap (fun t => [Tok.start b!"value" [], .chars t, .close b!"value"])).foldl (step fl) ({ inField := true, name := n, value := w } : St F) =
        { inField := true, name := n, value := w' } := by
    intro vs
    induction vs with
    | nil => intro w; exact ⟨w, rfl⟩
    | cons t vs ih =>
      intro w
      obtain ⟨w', h⟩ := ih t
      refine ⟨w', Eq.trans ?_ h⟩
      simp [step, onStart, onEnd]
  obtain ⟨w', h⟩ := key vs []
  unfold parseDatasets
  rw [List.foldl_append, List.foldl_append]
  rw [show ([Tok.start b!"field" [(b!"name", n)]]).foldl (step fl) ({} : St F) = { inField := true, name := n, value := [] } by simp [step, onStart]]
  rw [h]
  simp [step, onStart, onEnd, hn, Map.get_set]

/-- C107: the numbers 0 and 1, numbers in text, white space and nil do not survive: each comes back as another value. -/
theorem C107_values_violated (fl : Floats F) (n : Bytes) (hn : n ≠ []) :
    ∀ p ∈ ([(.int 0, .bool false), (.int 1, .bool true), (.str b!"1", .bool true), (.str b!"true", .bool true), (.str b!"007", .int 7),
        (.str b!" x", if (fl.parse b!"x").isNone then .str b!"x" else readBack fl (.str b!"x")), (.nil, .str [])] : List (DVal F × DVal F)),
      ∀ enc dec, datasetsToXFA fl { fields := [(n, p.1)] } = some enc → Woven enc dec →
        Map.get (parseDatasets fl dec).fields n = some p.2 ∧ p.1 ≠ p.2 := by
  intro p hp enc dec he hw
  have hf : FieldMap [(n, p.1)] := ⟨by simpa using hn, by simp⟩
  rw [read_written fl _ hf (by simp) he hw]
  simp only [setAll, List.foldl_cons, List.foldl_nil, Map.get_set, if_true, Option.some.injEq]
  simp only [List.mem_cons, List.not_mem_nil, or_false] at hp
  have t1 : trimSpace b!" x" = b!"x" := by decide
  have t2 : trimSpace b!"x" = b!"x" := by decide
  have t3 : atoi b!"x" = none := by decide
  rcases hp with rfl | rfl | rfl | rfl | rfl | rfl | rfl
  · exact ⟨rfl, by simp⟩
  · exact ⟨rfl, by simp⟩
  · exact ⟨rfl, by simp⟩
  · exact ⟨rfl, by simp⟩
  · exact ⟨rfl, by simp⟩
  · simp only [readBack, formatFieldValue, t1, t2, parseFieldValue, t3]
    cases fl.parse b!"x" <;> simp
  · exact ⟨rfl, by simp⟩

/-- C107: the name of a group may be one of the names the reader keeps for itself, in any case: the fields of such a group become fields of the
form, and the group is gone; a group called `data` hides every group after it. -/
theorem C107_reserved_violated (fl : Floats F) (dec1 dec2 enc1 enc2 : List Tok)
    (h1 : datasetsToXFA fl { groups := [.mk b!"Items" [(b!"a", .bool true)] []] } = some enc1) (w1 : Woven enc1 dec1)
    (h2 : datasetsToXFA fl { groups := [.mk b!"data" [] [], .mk b!"g" [] []] } = some enc2) (w2 : Woven enc2 dec2) :
    (parseDatasets fl dec1).groups.length = 0 ∧ (parseDatasets fl dec1).fields = [(b!"a", .bool true)] ∧
    (parseDatasets fl dec2).groups.length = 0 := by
  have e1 : enc1 = _ := (Option.some.inj h1).symm
  have e2 : enc2 = _ := (Option.some.inj h2).symm
  have c1 : Calm fl {} enc1 := by
    rw [e1]; simp [Calm, Indentable, step, onStart, onEnd, encField, standard, toLower, formatFieldValue]
  have c2 : Calm fl {} enc2 := by
    rw [e2]; simp [Calm, Indentable, step, onStart, onEnd, standard, toLower]
  unfold parseDatasets
  rw [woven_fold fl w1 _ c1, woven_fold fl w2 _ c2, e1, e2]
  refine ⟨?_, ?_, ?_⟩
  · simp [step, onStart, onEnd, encField, standard, toLower, formatFieldValue]
  · simp [step, onStart, onEnd, encField, standard, toLower, formatFieldValue, parseFieldValue, trimSpace, isSpace, Map.set]
  · simp [step, onStart, onEnd, standard, toLower]

/-! ### The hypotheses can be met -/

/-- Numbers in units of a tenth, enough of a floating point type for examples. -/
def exFloats : Floats Bool :=
  { parse := fun s => if s = b!"0.5" then some true else if s = b!"1.5" then some false else none
    format := fun b => if b then b!"0.5" else b!"1.5" }

/-- Two fields and a group of two. -/
def exData : Datasets Bool :=
  { fields := [(b!"name", .str b!"Ada L."), (b!"n", .int (-7))]
    groups := [.mk b!"address" [(b!"zip", .str b!"x7"), (b!"rate", .float true)] [], .mk b!"empty" [] []] }

/-- What the decoder delivers for it: with indentation. -/
def exDec : List Tok :=
  [.start b!"data" [], .chars b!"\n  ", .start b!"field" [(b!"name", b!"name")], .chars b!"\n    ", .start b!"value" [],
   .chars b!"Ada L.", .close b!"value", .chars b!"\n  ", .close b!"field", .chars b!"\n  ", .start b!"field" [(b!"name", b!"n")],
   .chars b!"\n    ", .start b!"value" [], .chars b!"-7", .close b!"value", .chars b!"\n  ", .close b!"field", .chars b!"\n  ",
   .start b!"address" [], .start b!"field" [(b!"name", b!"zip")], .start b!"value" [], .chars b!"x7", .close b!"value", .close b!"field",
   .start b!"field" [(b!"name", b!"rate")], .start b!"value" [], .chars b!"0.5", .close b!"value", .close b!"field", .chars b!"\n  ",
   .close b!"address", .start b!"empty" [], .close b!"empty", .chars b!"\n", .close b!"data"]

theorem exNamed (n : Bytes) (fs : List (Bytes × DVal Bool)) (h1 : n ≠ []) (h2 : ¬ Reserved n) (h3 : FieldMap fs) : Named (.mk n fs []) :=
  .mk n fs [] h1 h2 h3 (by simp)

theorem exData_ok : FieldMap exData.fields ∧ (∀ f ∈ exData.fields, Unambiguous exFloats f.2) ∧
    ∀ g ∈ exData.groups, Named g ∧ g.groups = [] ∧ ∀ f ∈ g.fields, Unambiguous exFloats f.2 := by
  have hr : ∀ n ∈ [b!"address", b!"empty"], ¬ Reserved n := by unfold Reserved; decide
  refine ⟨⟨by decide, by decide⟩, ?_, ?_⟩
  · intro f hf
    simp only [exData, List.mem_cons, List.not_mem_nil, or_false] at hf
    rcases hf with rfl | rfl
    · exact ⟨⟨by simp [isSpace], by simp [isSpace]⟩, by decide, by decide, fun _ => ⟨by decide, by decide⟩⟩
    · exact ⟨by decide, by decide, by decide, by decide⟩
  · intro g hg
    simp only [exData, List.mem_cons, List.not_mem_nil, or_false] at hg
    rcases hg with rfl | rfl
    · refine ⟨exNamed _ _ (by decide) (hr _ (by simp)) ⟨by decide, by decide⟩, rfl, ?_⟩
      intro f hf
      simp only [Group.fields, List.mem_cons, List.not_mem_nil, or_false] at hf
      rcases hf with rfl | rfl
      · exact ⟨⟨by simp [isSpace], by simp [isSpace]⟩, by decide, by decide, fun _ => ⟨by decide, by decide⟩⟩
      · exact ⟨rfl, ⟨by simp [exFloats, isSpace], by simp [exFloats, isSpace]⟩, by decide, by decide, by decide, by decide⟩
    · exact ⟨exNamed _ _ (by decide) (hr _ (by simp)) ⟨by simp, by simp⟩, rfl, by simp [Group.fields]⟩

theorem exDec_woven : ∃ enc, datasetsToXFA exFloats exData = some enc ∧ Woven enc exDec := by
  obtain ⟨enc, he⟩ := Option.isSome_iff_exists.1 (C107_written exFloats exData fun g h => (exData_ok.2.2 g h).1)
  refine ⟨enc, he, ?_⟩
  have : enc = _ := (Option.some.inj he).symm
  rw [this]
  unfold exDec
  repeat' first
    | exact Woven.nil
    | refine Woven.indent _ _ (by simp [Indentable]) ?_
    | refine Woven.keep _ ?_

/-- The hypotheses of `C107_roundtrip_partial` hold for it. -/
example : SameMap (parseDatasets exFloats exDec).fields exData.fields ∧ InOrder SameGroup (parseDatasets exFloats exDec).groups exData.groups := by
  obtain ⟨enc, he, hw⟩ := exDec_woven
  exact C107_roundtrip_partial exFloats exData exData_ok.1 exData_ok.2.1 exData_ok.2.2 he hw

/-- A group with a group in it, and one after it: none of them is read. -/
example : ∃ enc, datasetsToXFA exFloats { groups := [.mk b!"g" [] [.mk b!"h" [(b!"a", .bool true)] []], .mk b!"k" [] []] } = some enc ∧
    (parseDatasets exFloats enc).groups.length = 0 := by
  refine ⟨_, rfl, ?_⟩
  simp [parseDatasets, step, onStart, onEnd, encField, standard, toLower, Group.name]

end Pdfer.Props
