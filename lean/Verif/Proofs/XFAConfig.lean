import Verif.Proofs.XFAConnections

namespace Pdfer.XFASets

open Pdfer.Go Pdfer.XFA
open Pdfer.Spec.Xml Pdfer.Spec.XFASets
open Pdfer.FormXFA (parseBool)

/-! ### No panic -/

/-- Inside the present section there is one. -/
def GOk (st : GSt) : Prop := st.sect = b!"present" → st.cfg.present.isSome

theorem inPresent_ok {st : GSt} (h : GOk st) (k : CfgPresent → CfgPresent) : GOk (inPresent st k) := by
  unfold inPresent
  split
  · split
    · exact fun _ => rfl
    · exact h
  · exact h

/-- The result is a state in which nothing can go wrong. -/
def GFine (r : Res GSt) : Prop := ∃ st, r = .ok st ∧ GOk st

theorem gfine_ite {p : Prop} [Decidable p] {a b : Res GSt} (ha : p → GFine a) (hb : GFine b) : GFine (if p then a else b) := by
  split
  · exact ha ‹_›
  · exact hb

theorem gfine_sect {st : GSt} {n : Bytes} {cfg : Config} (h : n ≠ b!"present") : GFine (.ok { st with sect := n, cfg := cfg }) :=
  ⟨_, rfl, fun e => absurd e h⟩

theorem gStart_fine {st : GSt} (h : GOk st) (n : Bytes) (as : List (Bytes × Bytes)) : GFine (gStart st n as) := by
  unfold gStart
  refine gfine_ite (fun _ => ⟨_, rfl, h⟩) ?_
  refine gfine_ite (fun _ => ⟨_, rfl, fun _ => rfl⟩) ?_
  refine gfine_ite (fun e => gfine_sect (by rw [e]; decide)) ?_
  refine gfine_ite (fun e => gfine_sect (by rw [e]; decide)) ?_
  refine gfine_ite (fun e => gfine_sect (by rw [e]; decide)) ?_
  refine gfine_ite (fun e => gfine_sect (by rw [e]; decide)) ?_
  refine gfine_ite (fun e => gfine_sect (by rw [e]; decide)) ?_
  refine gfine_ite (fun e => gfine_sect (by rw [e]; decide)) ?_
  refine gfine_ite (fun _ => ?_) ?_
  · refine gfine_ite (fun e => ?_) ⟨_, rfl, h⟩
    have := h e
    cases hp : st.cfg.present with
    | none => rw [hp] at this; exact nomatch this
    | some p => exact ⟨_, rfl, fun _ => rfl⟩
  refine gfine_ite (fun _ => ⟨_, rfl, inPresent_ok h _⟩) ?_
  refine gfine_ite (fun _ => ⟨_, rfl, inPresent_ok h _⟩) ?_
  refine gfine_ite (fun _ => ⟨_, rfl, inPresent_ok h _⟩) ?_
  refine gfine_ite (fun _ => ⟨_, rfl, inPresent_ok h _⟩) ?_
  exact ⟨_, rfl, h⟩

theorem gEnd_ok {st : GSt} (h : GOk st) (n : Bytes) : GOk (gEnd st n) := by
  unfold gEnd
  split
  · exact fun e => nomatch e
  · intro e
    have := h e
    show (if _ then _ else st.cfg : Config).present.isSome = true
    split <;> exact this

theorem gStep_fine {st : GSt} (h : GOk st) (t : Tok) : GFine (gStep st t) := by
  cases t with
  | start n as => exact gStart_fine h n as
  | close n => exact ⟨_, rfl, gEnd_ok h n⟩
  | chars w => exact ⟨_, rfl, h⟩

/-- A step that leaves the state alone when the code would panic. -/
def gPure (st : GSt) (t : Tok) : GSt :=
  match gStep st t with
  | .ok st' => st'
  | _ => st

theorem gRun_eq (toks : List Tok) (st : GSt) (h : GOk st) : gRun toks st = .ok (toks.foldl gPure st) := by
  induction toks generalizing st with
  | nil => rfl
  | cons t ts ih =>
    obtain ⟨st', h1, h2⟩ := gStep_fine h t
    have h3 : gPure st t = st' := by simp only [gPure, h1]
    rw [gRun, h1, List.foldl_cons, h3]
    exact ih st' h2

theorem parseConfig_eq (toks : List Tok) : parseConfig toks = .ok (toks.foldl gPure {}).cfg := by
  rw [parseConfig, gRun_eq toks {} (fun e => nomatch e)]
  rfl

/-! ### Written and read -/

/-- Between the elements of the configuration. -/
def GAt (cfg : Config) (sect : Bytes) (st : GSt) : Prop := st.cfg = cfg ∧ st.sect = sect ∧ Blank st.value

theorem blank_trim {w : Bytes} (h : Blank w) : trimSpace w = [] := by
  have : w.dropWhile isSpace = [] := by
    induction w with
    | nil => rfl
    | cons c w ih => rw [List.dropWhile_cons, if_pos (h c (by simp))]; exact ih fun x hx => h x (by simp [hx])
  simp [trimSpace, this]

theorem blank_nil : Blank [] := fun _ h => nomatch h

theorem gAt_blank {cfg : Config} {sect : Bytes} (st : GSt) (w : Bytes) (hw : Blank w) (h : GAt cfg sect st) :
    GAt cfg sect (gPure st (.chars w)) := by
  obtain ⟨h1, h2, h3⟩ := h
  refine ⟨h1, h2, ?_⟩
  intro c hc
  rcases List.mem_append.1 hc with hc | hc
  · exact h3 c hc
  · exact hw c hc

/-- A step from a state given by its parts. -/
theorem gAt_step {cfg : Config} {sect : Bytes} {Q : GSt → Prop} {k : GSt → GSt}
    (h : ∀ v, Blank v → Q (k ⟨cfg, sect, v⟩)) : ∀ st, GAt cfg sect st → Q (k st) := by
  rintro ⟨cfg', sect', value'⟩ ⟨h1, h2, h3⟩
  simp only at h1 h2 h3
  subst h1 h2
  exact h _ h3

theorem present_attrs (p : CfgPresent) :
    (strAttr b!"renderPolicy" p.renderPolicy ++ strAttr b!"effectiveOutputPolicy" p.outputPolicy).foldl presentAttr {} =
      { renderPolicy := p.renderPolicy, outputPolicy := p.outputPolicy } := by
  simp only [List.foldl_append]
  rw [fold_str (v := p.renderPolicy) (r' := { renderPolicy := p.renderPolicy }) rfl (by intro h; rw [h]),
    fold_str (v := p.outputPolicy) (r' := { renderPolicy := p.renderPolicy, outputPolicy := p.outputPolicy }) rfl (by intro h; rw [h])]

theorem pdf_attrs (p : CfgPDF) :
    (strAttr b!"version" p.version ++ strAttr b!"compression" p.compression ++ boolAttr b!"linearized" p.linearized ++
      strAttr b!"encryption" p.encryption ++ boolAttr b!"embedFonts" p.embedFonts ++ boolAttr b!"tagged" p.tagged ++
      boolAttr b!"accessibility" p.accessibility).foldl pdfAttr {} = p := by
  obtain ⟨v, c, l, e, f, t, a⟩ := p
  simp only [List.foldl_append]
  rw [fold_str (v := v) (r' := { version := v }) rfl (by intro h; rw [h]),
    fold_str (v := c) (r' := { version := v, compression := c }) rfl (by intro h; rw [h]),
    fold_bool (x := l) (r' := { version := v, compression := c, linearized := l }) (by intro h; rw [h]; rfl) (by intro h; rw [h]),
    fold_str (v := e) (r' := { version := v, compression := c, linearized := l, encryption := e }) rfl (by intro h; rw [h]),
    fold_bool (x := f) (k := b!"embedFonts") (r' := { version := v, compression := c, linearized := l, encryption := e, embedFonts := f })
      (by intro h; rw [h]; rfl) (by intro h; rw [h]),
    fold_bool (x := t) (k := b!"tagged") (r' := { version := v, compression := c, linearized := l, encryption := e, embedFonts := f, tagged := t })
      (by intro h; rw [h]; rfl) (by intro h; rw [h]),
    fold_bool (x := a) (k := b!"accessibility")
      (r' := { version := v, compression := c, linearized := l, encryption := e, embedFonts := f, tagged := t, accessibility := a })
      (by intro h; rw [h]; rfl) (by intro h; rw [h])]

theorem interactive_attrs (i : CfgInteractive) (hr : IntRange i.currentPage) :
    (intAttr b!"currentPage" i.currentPage ++ strAttr b!"zoom" i.zoom ++ strAttr b!"viewMode" i.viewMode).foldl interactiveAttr {} =
      { i with currentPage := numBack i.currentPage } := by
  simp only [List.foldl_append]
  have h0 : (intAttr b!"currentPage" i.currentPage).foldl interactiveAttr {} = { currentPage := numBack i.currentPage } := by
    refine fold_int (fun h => ?_) (fun h => ?_)
    · show ({ currentPage := intOr 0 (itoa i.currentPage) } : CfgInteractive) = _
      rw [int_back h hr.2, numBack, Int.max_eq_right (by omega)]
    · rw [numBack, Int.max_eq_left (by omega)]
  rw [h0, fold_str (v := i.zoom) (r' := { currentPage := numBack i.currentPage, zoom := i.zoom }) rfl (by intro h; rw [h]),
    fold_str (v := i.viewMode) (r' := { currentPage := numBack i.currentPage, zoom := i.zoom, viewMode := i.viewMode }) rfl (by intro h; rw [h])]

theorem submit_attrs (s : CfgSubmit) :
    (strAttr b!"format" s.format ++ strAttr b!"target" s.target ++ strAttr b!"method" s.method ++ boolAttr b!"embedPDF" s.embedPDF ++
      strAttr b!"xdpContent" s.xdpContent ++ strAttr b!"textEncoding" s.textEncoding).foldl submitAttr {} = { s with properties := [] } := by
  obtain ⟨f, t, m, e, x, n, ps⟩ := s
  simp only [List.foldl_append]
  rw [fold_str (v := f) (r' := { format := f }) rfl (by intro h; rw [h]),
    fold_str (v := t) (r' := { format := f, target := t }) rfl (by intro h; rw [h]),
    fold_str (v := m) (r' := { format := f, target := t, method := m }) rfl (by intro h; rw [h]),
    fold_bool (x := e) (r' := { format := f, target := t, method := m, embedPDF := e }) (by intro h; rw [h]; rfl) (by intro h; rw [h]),
    fold_str (v := x) (r' := { format := f, target := t, method := m, embedPDF := e, xdpContent := x }) rfl (by intro h; rw [h]),
    fold_str (v := n) (r' := { format := f, target := t, method := m, embedPDF := e, xdpContent := x, textEncoding := n }) rfl (by intro h; rw [h])]

theorem acrobat_attrs (c : CfgAcrobat) (hr : IntRange c.autoSaveTime) :
    (boolAttr b!"autoSave" c.autoSave ++ intAttr b!"autoSaveTime" c.autoSaveTime ++ strAttr b!"formType" c.formType ++
      strAttr b!"version" c.version).foldl acrobatAttr {} = { c with autoSaveTime := numBack c.autoSaveTime } := by
  obtain ⟨a, t, f, v⟩ := c
  simp only [List.foldl_append]
  rw [fold_bool (x := a) (r' := { autoSave := a }) (by intro h; rw [h]; rfl) (by intro h; rw [h])]
  have h0 : (intAttr b!"autoSaveTime" t).foldl acrobatAttr { autoSave := a } = { autoSave := a, autoSaveTime := numBack t } := by
    refine fold_int (fun h => ?_) (fun h => ?_)
    · show ({ autoSave := a, autoSaveTime := intOr 0 (itoa t) } : CfgAcrobat) = _
      rw [int_back h hr.2, numBack, Int.max_eq_right (by omega)]
    · rw [numBack, Int.max_eq_left (by omega)]
  rw [h0, fold_str (v := f) (r' := { autoSave := a, autoSaveTime := numBack t, formType := f }) rfl (by intro h; rw [h]),
    fold_str (v := v) (r' := { autoSave := a, autoSaveTime := numBack t, formType := f, version := v }) rfl (by intro h; rw [h])]

theorem destination_attrs (p : CfgPair) : (strAttr b!"type" p.a ++ strAttr b!"target" p.b).foldl destinationAttr {} = p := by
  obtain ⟨a, b⟩ := p
  simp only [List.foldl_append]
  rw [fold_str (v := a) (r' := { a := a }) rfl (by intro h; rw [h]),
    fold_str (v := b) (r' := { a := a, b := b }) rfl (by intro h; rw [h])]

theorem read_pdf (cfg : Config) (p : CfgPresent) (hp : p.pdf = none) (x : CfgPDF) :
    Reads gPure (GAt { cfg with present := some p } b!"present") (encPDF x) (GAt { cfg with present := some { p with pdf := some x } } b!"present") := by
  refine Reads.bare gAt_blank (gAt_step fun v hv => ?_)
  have h1 : ∀ as, gPure ⟨{ cfg with present := some p }, b!"present", v⟩ (.start b!"pdf" as) =
      ⟨{ cfg with present := some { p with pdf := some (as.foldl pdfAttr (p.pdf.getD {})) } }, b!"present", v⟩ := fun as => rfl
  rw [h1, hp]
  show GAt _ _ (gEnd ⟨{ cfg with present := some { p with pdf := some (List.foldl pdfAttr {} _) } }, b!"present", v⟩ b!"pdf")
  rw [pdf_attrs]
  have : trimSpace v = [] := blank_trim hv
  refine ⟨?_, rfl, blank_nil⟩
  simp [gEnd, isSection, this]

theorem read_interactive (cfg : Config) (p : CfgPresent) (hp : p.interactive = none) (x : CfgInteractive) (hr : IntRange x.currentPage) :
    Reads gPure (GAt { cfg with present := some p } b!"present") (encInteractive x)
      (GAt { cfg with present := some { p with interactive := some { x with currentPage := numBack x.currentPage } } } b!"present") := by
  refine Reads.bare gAt_blank (gAt_step fun v hv => ?_)
  have h1 : ∀ as, gPure ⟨{ cfg with present := some p }, b!"present", v⟩ (.start b!"interactive" as) =
      ⟨{ cfg with present := some { p with interactive := some (as.foldl interactiveAttr (p.interactive.getD {})) } }, b!"present", v⟩ := fun as => rfl
  rw [h1, hp]
  show GAt _ _ (gEnd ⟨{ cfg with present := some { p with interactive := some (List.foldl interactiveAttr {} _) } }, b!"present", v⟩ b!"interactive")
  rw [interactive_attrs x hr]
  have : trimSpace v = [] := blank_trim hv
  refine ⟨?_, rfl, blank_nil⟩
  simp [gEnd, isSection, this]

theorem read_present (cfg : Config) (hc : cfg.present = none) (p : CfgPresent) (hr : ∀ i, p.interactive = some i → IntRange i.currentPage) :
    Reads gPure (GAt cfg []) (encPresent p) (GAt { cfg with present := some (presentBack p) } []) := by
  unfold encPresent
  refine Reads.append (Q := GAt { cfg with present := some (presentBack p) } b!"present") ?_
    (Reads.close gAt_blank (gAt_step fun v hv => ⟨rfl, rfl, hv⟩))
  refine Reads.append (Q := GAt { cfg with present := some { renderPolicy := p.renderPolicy, outputPolicy := p.outputPolicy, pdf := p.pdf } } b!"present") ?_
    (Reads.opt _ (fun h st => ?_) fun i hi => ?_)
  · refine Reads.append (Q := GAt { cfg with present := some { renderPolicy := p.renderPolicy, outputPolicy := p.outputPolicy } } b!"present") ?_
      (Reads.opt _ (fun h st => ?_) fun x hx => ?_)
    · refine Reads.start gAt_blank (gAt_step fun v hv => ?_)
      have h1 : ∀ as, gPure ⟨cfg, [], v⟩ (.start b!"present" as) =
        ⟨{ cfg with present := some (as.foldl presentAttr (cfg.present.getD {})) }, b!"present", v⟩ := fun as => rfl
      rw [h1, hc]
      refine ⟨?_, rfl, hv⟩
      show ({ cfg with present := some (List.foldl presentAttr {} _) } : Config) = _
      rw [present_attrs]
    · simp only [h]; exact id
    · have := read_pdf cfg { renderPolicy := p.renderPolicy, outputPolicy := p.outputPolicy } rfl x
      simpa only [hx] using this
  · simp only [presentBack, h, Option.map_none]; exact id
  · have := read_interactive cfg { renderPolicy := p.renderPolicy, outputPolicy := p.outputPolicy, pdf := p.pdf } rfl i (hr i hi)
    simpa only [presentBack, hi, Option.map_some] using this

theorem read_property (cfg : Config) (p : Bytes × Bytes) (hp : p.1 ∉ configNames) :
    Reads gPure (GAt cfg []) [.start p.1 [], .chars p.2, .close p.1] (GAt cfg []) := by
  simp only [configNames, List.mem_cons, List.not_mem_nil, or_false, not_or] at hp
  have hs : ∀ v, gPure ⟨cfg, [], v⟩ (.start p.1 []) = ⟨cfg, [], []⟩ := by
    intro v
    simp [gPure, gStep, gStart, hp]
  refine Reads.text gAt_blank (fun _ => gAt_step (Q := fun st => gPure (gPure st _) _ = gPure st _) (k := id) fun v hv => ?_) (gAt_step fun v hv => ?_)
  · simp only [id, hs]; rfl
  · rw [hs]
    show GAt cfg [] (gEnd ⟨cfg, [], [] ++ p.2⟩ p.1)
    refine ⟨?_, ?_, ?_⟩ <;> simp [gEnd, isSection, hp, blank_nil]

theorem read_properties (cfg : Config) (ps : List (Bytes × Bytes)) (hp : ∀ p ∈ ps, p.1 ∉ configNames) :
    Reads gPure (GAt cfg []) (ps.flatMap fun p => [.start p.1 [], .chars p.2, .close p.1]) (GAt cfg []) := by
  induction ps with
  | nil => exact Reads.nil
  | cons p ps ih => exact Reads.append (read_property cfg p (hp p (by simp))) (ih fun q hq => hp q (by simp [hq]))

theorem read_config (c : Config) (hi : ConfigInts c) (hp : ∀ p ∈ c.properties, p.1 ∉ configNames) {enc dec : List Tok}
    (he : configToXFA c = some enc) (hd : Decoded enc dec) : parseConfig dec = .ok (configBack c) := by
  unfold configToXFA at he
  split at he
  · exact nomatch he
  obtain rfl := Option.some.inj he
  let b := configBack c
  have hr : Reads gPure (GAt {} []) ([.start b!"config" []] ++ part encPresent c.present ++ part encValidate c.validate ++ part encSubmit c.submit ++
    part (encPair b!"destination" b!"type" b!"target") c.destination ++ part encAcrobat c.acrobat ++
    part (encPair b!"common" b!"dataPrefix" b!"timeStamp") c.common ++ part (encPair b!"output" b!"format" b!"destination") c.output ++
    c.properties.flatMap (fun p => [.start p.1 [], .chars p.2, .close p.1]) ++ [.close b!"config"]) (GAt b []) := by
    refine Reads.append (Q := GAt b []) ?_ (Reads.close gAt_blank (gAt_step fun v hv => ⟨by simp [gPure, gStep, gEnd, isSection], rfl, blank_nil⟩))
    refine Reads.append (Q := GAt b []) ?_ (read_properties b c.properties hp)
    refine Reads.append (Q := GAt { present := b.present, validate := b.validate, submit := b.submit, destination := b.destination, acrobat := b.acrobat, common := b.common } []) ?_
      (Reads.opt _ (fun h st => ?_) fun x hx => ?_)
    refine Reads.append (Q := GAt { present := b.present, validate := b.validate, submit := b.submit, destination := b.destination, acrobat := b.acrobat } []) ?_
      (Reads.opt _ (fun h st => ?_) fun x hx => ?_)
    refine Reads.append (Q := GAt { present := b.present, validate := b.validate, submit := b.submit, destination := b.destination } []) ?_
      (Reads.opt _ (fun h st => ?_) fun x hx => ?_)
    refine Reads.append (Q := GAt { present := b.present, validate := b.validate, submit := b.submit } []) ?_
      (Reads.opt _ (fun h st => ?_) fun x hx => ?_)
    refine Reads.append (Q := GAt { present := b.present, validate := b.validate } []) ?_
      (Reads.opt _ (fun h st => ?_) fun x hx => ?_)
    refine Reads.append (Q := GAt { present := b.present } []) ?_ (Reads.opt _ (fun h st => ?_) fun x hx => ?_)
    refine Reads.append (Q := GAt {} []) ?_ (Reads.opt _ (fun h st => ?_) fun x hx => ?_)
    · exact Reads.start gAt_blank (gAt_step fun v hv => ⟨rfl, rfl, hv⟩)
    · simp only [b, configBack, h, Option.map_none]; exact id
    · have := read_present {} rfl x (hi.1 x hx)
      simpa only [b, configBack, hx, Option.map_some] using this
    · simp only [b, configBack, h, Option.map_none]; exact id
    · refine Reads.bare gAt_blank (gAt_step fun v hv => ⟨?_, rfl, hv⟩)
      simp only [b, configBack, hx, Option.map_some]; rfl
    · simp only [b, configBack, h, Option.map_none]; exact id
    · refine Reads.bare gAt_blank (gAt_step fun v hv => ⟨?_, rfl, hv⟩)
      show ({ present := b.present, validate := b.validate, submit := some (List.foldl submitAttr {} _) } : Config) = _
      rw [submit_attrs]
      simp only [b, configBack, hx, Option.map_some]
    · simp only [b, configBack, h]; exact id
    · refine Reads.bare gAt_blank (gAt_step fun v hv => ⟨?_, rfl, hv⟩)
      show ({ present := b.present, validate := b.validate, submit := b.submit, destination := some (List.foldl destinationAttr {} _) } : Config) = _
      rw [destination_attrs]
      simp only [b, configBack, hx]
    · simp only [b, configBack, h, Option.map_none]; exact id
    · refine Reads.bare gAt_blank (gAt_step fun v hv => ⟨?_, rfl, hv⟩)
      show ({ present := b.present, validate := b.validate, submit := b.submit, destination := b.destination, acrobat := some (List.foldl acrobatAttr {} _) } : Config) = _
      rw [acrobat_attrs x (hi.2 x hx)]
      simp only [b, configBack, hx, Option.map_some]
    · simp only [b, configBack, h, Option.map_none]; exact id
    · refine Reads.bare gAt_blank (gAt_step fun v hv => ⟨?_, rfl, hv⟩)
      simp only [b, configBack, hx, Option.map_some]; rfl
    · simp only [b, configBack, h, Option.map_none]; exact id
    · refine Reads.bare gAt_blank (gAt_step fun v hv => ⟨?_, rfl, hv⟩)
      simp only [b, configBack, hx, Option.map_some]; rfl
  have := (hr false dec {} hd ⟨rfl, rfl, blank_nil⟩).1
  rw [parseConfig_eq, this]

theorem configBack_plain {c : Config} (h : ConfigPlain c) : configBack c = c := by
  obtain ⟨pr, va, su, de, ac, co, ou, sc, tr, ps⟩ := c
  obtain ⟨h1, h2, h3, h4, h5, h6, h7, h8, h9⟩ := h
  simp only at h1 h2 h3 h4 h5 h6 h7 h8 h9
  subst h7 h8 h9
  simp only [configBack, Config.mk.injEq, true_and, and_true]
  refine ⟨?_, ?_, ?_, ?_, ?_, ?_⟩
  · cases pr with
    | none => rfl
    | some p =>
      obtain ⟨a, b, c, i, d, e, f⟩ := p
      obtain ⟨g1, g2, g3, g4⟩ := h1 _ rfl
      simp only at g1 g2 g3 g4
      subst g1 g2 g3
      cases i with
      | none => rfl
      | some i => simp only [Option.map_some, presentBack, numBack, Int.max_eq_right (g4 i rfl)]
  · cases va with
    | none => rfl
    | some v => rw [h2 v rfl]; rfl
  · cases su with
    | none => rfl
    | some v => obtain ⟨a, b, c, d, e, f, g⟩ := v; have := h3 _ rfl; simp only at this; subst this; rfl
  · cases ac with
    | none => rfl
    | some a => simp only [Option.map_some, numBack, Int.max_eq_right (h4 a rfl)]
  · cases co with
    | none => rfl
    | some v => rw [h5 v rfl]; rfl
  · cases ou with
    | none => rfl
    | some v => rw [h6 v rfl]; rfl

end Pdfer.XFASets
