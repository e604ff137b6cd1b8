import Verif.Proofs.XFAStyles

/-! C121–C125: XFA locale sets, connection sets, configurations and stylesheets written as XML and read again. -/

namespace Pdfer.Props

open Pdfer.Go Pdfer.XFA Pdfer.XFASets
open Pdfer.Spec.Xml Pdfer.Spec.XFASets Pdfer.Spec.Builder

/-! ### C121: locale sets -/

/-- C121 (what exactly comes back): a locale set that `LocaleSetToXFA` wrote, however the decoder delivers the indentation, is read by
`ParseXFALocaleSet` with the same default and the same locales in order, up to: precisions below zero are zero, and holidays lose white space
at their ends, and are lost if they are empty or contain the word "holiday". -/
theorem C121_exact_partial (s : LocaleSet) (hs : ∀ l ∈ s.locales, LocaleInts l) {dec : List Tok} (hd : Decoded (localeSetToXFA s) dec) :
    parseLocaleSet dec = { s with locales := s.locales.map localeBack } := read_localeSet s hs dec hd

/-- C121 (partial: no negative precision, no padded or empty holiday and none with "holiday" in it): the locale set that is read is the one
that was written. -/
theorem C121_roundtrip_partial (s : LocaleSet) (hs : ∀ l ∈ s.locales, LocaleInts l ∧ LocalePlain l) {dec : List Tok}
    (hd : Decoded (localeSetToXFA s) dec) : parseLocaleSet dec = s := by
  rw [C121_exact_partial s (fun l hl => (hs l hl).1) hd, show s.locales.map localeBack = s.locales from by
    conv => rhs; rw [← List.map_id s.locales]
    exact List.map_congr_left fun l hl => localeBack_plain (hs l hl).2]

/-- C121 does not hold for all locale sets: a holiday in whose name "holiday" occurs is lost, whatever the decoder does with the indentation. -/
theorem C121_violated : ∃ s : LocaleSet, (∀ l ∈ s.locales, LocaleInts l) ∧ ∀ dec, Decoded (localeSetToXFA s) dec → parseLocaleSet dec ≠ s := by
  refine ⟨{ locales := [{ code := b!"en", calendar := some { holidays := [b!"bank holiday"] } }] }, ?_, ?_⟩
  · simp [LocaleInts]
  · intro dec hd h
    rw [C121_exact_partial _ (by simp [LocaleInts]) hd] at h
    exact absurd h (by decide)

/-- A locale set for the examples. -/
def exLocales : LocaleSet :=
  { dflt := b!"en_US"
    locales := [{ code := b!"en_US", name := b!"English", calendar := some { symbols := b!"gregorian", firstDay := b!"Sun", holidays := [b!"Jan 1", b!"Jul 4"] },
                  currency := some { symbol := b!"$", name := b!"USD", precision := 2 }, datePattern := some { format := b!"MM/DD/YYYY" },
                  timePattern := some { format := b!"HH:MM", symbol := b!"t" },
                  numberPattern := some { format := b!"z,zz9.zz", grouping := b!",", decimal := b!".", precision := 3 },
                  text := some { direction := b!"ltr", encoding := b!"UTF-8" } },
                { code := b!"de_DE" }] }

theorem exLocales_ok : ∀ l ∈ exLocales.locales, LocaleInts l ∧ LocalePlain l := by
  simp [exLocales, LocaleInts, LocalePlain, IntRange, NoEnds]
  decide

/-- The theorem applies to the tokens as written, and to tokens with indentation. -/
example : parseLocaleSet (localeSetToXFA exLocales) = exLocales := C121_roundtrip_partial _ exLocales_ok (woven_refl _ _)
example : parseLocaleSet (.chars b!"\n" :: localeSetToXFA exLocales) = exLocales :=
  C121_roundtrip_partial _ exLocales_ok (.startIndent b!"\n" _ _ (by unfold Blank; decide) (woven_refl _ _))

/-! ### C122: connection sets -/

/-- C122 (partial: properties with names that are not those of the other elements, none named "url", in data descriptions none of the names the
reader takes for the connection itself, and values without white space at their ends): the connections that are read are those that were
written, in order, with the same names, types, descriptions and properties, whatever order the maps are gone through. -/
theorem C122_roundtrip_partial (cs : List Connection) (hc : ∀ c ∈ cs, ConnectionPlain c) {enc dec : List Tok}
    (he : connectionSetToXFA cs = some enc) (hd : Decoded enc dec) : InOrder SameConnection (parseConnectionSet dec) cs := by
  rw [read_connectionSet cs hc he hd]
  clear he hd
  induction cs with
  | nil => exact .nil
  | cons c cs ih => exact .cons (connBack_same (hc c (by simp))) (ih fun x hx => hc x (by simp [hx]))

/-- C122: writing fails exactly when a property has no name. -/
theorem C122_written (cs : List Connection) :
    connectionSetToXFA cs = none ↔
      ∃ c ∈ cs, (∃ p ∈ c.properties, p.1 = []) ∨ ∃ d, c.description = some d ∧ ∃ p ∈ d.properties, p.1 = [] := by
  have key : connectionSetToXFA cs = none ↔ [] ∈ cNames cs := by
    unfold connectionSetToXFA
    split <;> simp_all
  rw [key, cNames, List.mem_flatMap]
  constructor
  · rintro ⟨c, hc, h⟩
    refine ⟨c, hc, ?_⟩
    rcases List.mem_append.1 h with h | h
    · obtain ⟨p, hp, e⟩ := List.mem_map.1 h; exact .inl ⟨p, hp, e⟩
    · cases hd : c.description with
      | none => rw [hd] at h; exact nomatch h
      | some d =>
        rw [hd] at h
        obtain ⟨p, hp, e⟩ := List.mem_map.1 h
        exact .inr ⟨d, rfl, p, hp, e⟩
  · rintro ⟨c, hc, h⟩
    refine ⟨c, hc, List.mem_append.2 ?_⟩
    rcases h with ⟨p, hp, e⟩ | ⟨d, hd, p, hp, e⟩
    · exact .inl (List.mem_map.2 ⟨p, hp, e⟩)
    · rw [hd]; exact .inr (List.mem_map.2 ⟨p, hp, e⟩)

/-- C122 does not hold for all connection sets: whatever its text, a property of a data description with one of the nine names the reader
knows – here any value of "uri", "wsdl", "operation", "soapAction", "user", "password", "dsn" or "query" – is read as a property of the
connection and is gone from the description. -/
theorem C122_violated (name type ref v k : Bytes) (hk : k ∈ knownNames) (hu : k ≠ b!"url") (hv : v ≠ [] ∧ NoEnds v) {enc : List Tok}
    (he : connectionSetToXFA [{ name := name, type := type, description := some { ref := ref, properties := [(k, v)] } }] = some enc) :
    parseConnectionSet enc = [{ name := name, type := type, properties := [(k, v)], description := some { ref := ref } }] := by
  have hs : k ∉ structural := by
    rintro h
    simp only [structural, List.mem_cons, List.not_mem_nil, or_false] at h
    rcases h with rfl | rfl | rfl <;> exact absurd hk (by decide)
  have h1 := hs
  simp only [structural, List.mem_cons, List.not_mem_nil, or_false, not_or] at h1
  unfold connectionSetToXFA at he
  split at he
  · exact nomatch he
  obtain rfl := Option.some.inj he
  have hattr : ∀ c : Connection, (strAttr b!"name" c.name ++ strAttr b!"type" c.type).foldl connectionAttr {} = { name := c.name, type := c.type } :=
    connection_attrs
  have hr : Reads cStep (CAt [] none false)
      ([.start b!"connectionSet" []] ++ List.flatMap encConnection [{ name := name, type := type, description := some { ref := ref, properties := [(k, v)] } }] ++
        [.close b!"connectionSet"])
      (CAt [{ name := name, type := type, properties := [(k, v)], description := some { ref := ref } }] none false) := by
    rw [show List.flatMap encConnection [{ name := name, type := type, description := some { ref := ref, properties := [(k, v)] } }] =
      encConnection { name := name, type := type, description := some { ref := ref, properties := [(k, v)] } } from by simp]
    refine Reads.append (Reads.append (Q := CAt [] none false) (Reads.start cAt_blank (cAt_step fun v => ⟨rfl, rfl, rfl⟩)) ?_)
      (Reads.close (P := CAt [{ name := name, type := type, properties := [(k, v)], description := some { ref := ref } }] none false)
        cAt_blank (cAt_step fun v => ⟨rfl, rfl, rfl⟩))
    unfold encConnection
    refine Reads.append (Q := CAt [] (some { name := name, type := type, properties := [(k, v)], description := some { ref := ref } }) false) ?_
      (Reads.close cAt_blank (cAt_step fun v => ⟨rfl, rfl, rfl⟩))
    refine Reads.append (Reads.append (Q := CAt [] (some { name := name, type := type }) false) ?_ ?_) Reads.nil
    · refine Reads.start cAt_blank (cAt_step fun v => ⟨rfl, ?_, rfl⟩)
      exact congrArg some (hattr { name := name, type := type })
    · show Reads cStep _ (encDescription _) _
      unfold encDescription
      refine Reads.append (Reads.append (Q := CAt [] (some { name := name, type := type, description := some { ref := ref } }) true) ?_
        (Reads.append (read_prop [] _ true (k, v) hs (cur := some { name := name, type := type, properties := [(k, v)], description := some { ref := ref } })
          (.inl ?_)) Reads.nil)) (Reads.close cAt_blank (cAt_step fun v => ⟨rfl, rfl, rfl⟩))
      · refine Reads.start cAt_blank (cAt_step fun v => ⟨rfl, ?_, rfl⟩)
        exact congrArg (fun d => some ({ name := name, type := type, description := some d } : Connection)) (description_attrs { ref := ref })
      · have h3 := hv.2
        rw [NoEnds] at h3
        simp [cEnd, h1, cKnown_some hk hu, h3, hv.1, Map.set]
  have := (hr false _ {} (woven_refl _ _) ⟨rfl, rfl, rfl⟩).1
  rw [parseConnectionSet, this]

/-- A connection set for the examples. -/
def exConnections : List Connection :=
  [{ name := b!"orders", type := b!"wsdl", properties := [(b!"wsdl", b!"http://x/o?wsdl"), (b!"timeout", b!"30")],
     description := some { ref := b!"#o", schema := b!"o.xsd", properties := [(b!"root", b!"order")] } }, { name := b!"db", type := b!"odbc", properties := [(b!"dsn", b!"DB")] }]

theorem exConnections_ok : ∀ c ∈ exConnections, ConnectionPlain c := by
  intro c hc
  simp only [exConnections, List.mem_cons, List.not_mem_nil, or_false] at hc
  rcases hc with rfl | rfl
  · refine ⟨by unfold PropPlain NoEnds; decide, by decide, fun d hd => ?_⟩
    obtain rfl := Option.some.inj hd
    exact ⟨by unfold PropPlain NoEnds; decide, by decide⟩
  · exact ⟨by unfold PropPlain NoEnds; decide, by decide, fun d hd => nomatch hd⟩

example : ∃ enc, connectionSetToXFA exConnections = some enc ∧ InOrder SameConnection (parseConnectionSet enc) exConnections := by
  obtain ⟨enc, he⟩ : ∃ enc, connectionSetToXFA exConnections = some enc := ⟨_, rfl⟩
  exact ⟨enc, he, C122_roundtrip_partial _ exConnections_ok he (woven_refl _ _)⟩
example : ∃ enc, connectionSetToXFA [{ description := some { properties := [(b!"user", b!"joe")] } }] = some enc := ⟨_, rfl⟩
example : connectionSetToXFA [{ properties := [([], b!"x")] }] = none := (C122_written _).2 ⟨_, List.mem_singleton_self _, .inl ⟨_, List.mem_singleton_self _, rfl⟩⟩

/-! ### C123: configurations -/

/-- C123 (what exactly comes back, for every configuration whose further properties are not named like a section): the present, submit,
destination and acrobat sections with their settings, but without the properties of submit and with negative numbers as zero; the validate,
common and output sections without any setting; nothing else. -/
theorem C123_exact_partial (c : Config) (hi : ConfigInts c) (hp : ∀ p ∈ c.properties, p.1 ∉ configNames) {enc dec : List Tok}
    (he : configToXFA c = some enc) (hd : Decoded enc dec) : parseConfig dec = .ok (configBack c) := read_config c hi hp he hd

/-- C123 (partial: only the settings the reader knows): the configuration that is read is the one that was written. -/
theorem C123_roundtrip_partial (c : Config) (hi : ConfigInts c) (hp : ConfigPlain c) {enc dec : List Tok}
    (he : configToXFA c = some enc) (hd : Decoded enc dec) : parseConfig dec = .ok c := by
  obtain ⟨h1, h2, h3, h4, h5, h6, h7, h8, h9⟩ := hp
  rw [C123_exact_partial c hi (by rw [h9]; exact fun p h => nomatch h) he hd, configBack_plain ⟨h1, h2, h3, h4, h5, h6, h7, h8, h9⟩]

/-- C123 does not hold: no configuration with a further property, a test of the validate section, or a setting of the common or output section
is read as it was written. -/
theorem C123_violated (c : Config) (hi : ConfigInts c) (hp : ∀ p ∈ c.properties, p.1 ∉ configNames)
    (h : c.properties ≠ [] ∨ (∃ v, c.validate = some v ∧ v ≠ {}) ∨ (∃ v, c.common = some v ∧ v ≠ {}) ∨ ∃ v, c.output = some v ∧ v ≠ {}) {enc dec : List Tok}
    (he : configToXFA c = some enc) (hd : Decoded enc dec) : parseConfig dec ≠ .ok c := by
  rw [C123_exact_partial c hi hp he hd]
  intro e
  have e := Res.ok.inj e
  rcases h with h | ⟨v, h, hn⟩ | ⟨v, h, hn⟩ | ⟨v, h, hn⟩
  · exact h (by rw [← e]; rfl)
  · have := congrArg Config.validate e
    rw [h] at this
    simp only [configBack, h, Option.map_some, Option.some.injEq] at this
    exact hn this.symm
  · have := congrArg Config.common e
    rw [h] at this
    simp only [configBack, h, Option.map_some, Option.some.injEq] at this
    exact hn this.symm
  · have := congrArg Config.output e
    rw [h] at this
    simp only [configBack, h, Option.map_some, Option.some.injEq] at this
    exact hn this.symm

/-- The value of the last attribute with a name. -/
def lastAttr (as : List (Bytes × Bytes)) (k : Bytes) : Option Bytes := ((as.filter (·.1 = k)).getLast?).map (·.2)

theorem lastAttr_snoc (as : List (Bytes × Bytes)) (a : Bytes × Bytes) (k : Bytes) : lastAttr (as ++ [a]) k = if a.1 = k then some a.2 else lastAttr as k := by
  unfold lastAttr
  rw [List.filter_append]
  by_cases h : a.1 = k
  · simp [h]
  · simp [h]

/-- C123 (reading): a submit section of any document gets its settings from its attributes, the last one if a name is repeated; what the reader does
not know becomes a property of the section. -/
theorem C123_submit (as : List (Bytes × Bytes)) : ∃ s,
    parseConfig [.start b!"config" [], .start b!"submit" as, .close b!"submit", .close b!"config"] = .ok { submit := some s } ∧
    s.format = (lastAttr as b!"format").getD [] ∧ s.target = (lastAttr as b!"target").getD [] ∧ s.method = (lastAttr as b!"method").getD [] ∧
    s.embedPDF = ((lastAttr as b!"embedPDF").map FormXFA.parseBool).getD false ∧ s.xdpContent = (lastAttr as b!"xdpContent").getD [] ∧
    s.textEncoding = (lastAttr as b!"textEncoding").getD [] ∧
    ∀ k, Map.get s.properties k =
      if k ∈ [b!"format", b!"target", b!"method", b!"embedPDF", b!"xdpContent", b!"textEncoding"] then none else lastAttr as k := by
  refine ⟨as.foldl submitAttr {}, rfl, ?_⟩
  induction as using snoc_induction with
  | nil => simp [lastAttr, Map.get]
  | snoc as a ih =>
    obtain ⟨h1, h2, h3, h4, h5, h6, h7⟩ := ih
    rw [List.foldl_append, List.foldl_cons, List.foldl_nil]
    generalize as.foldl submitAttr {} = s at *
    obtain ⟨k, v⟩ := a
    simp only [lastAttr_snoc]
    by_cases e1 : k = b!"format"
    · subst e1
      refine ⟨rfl, h2, h3, h4, h5, h6, fun k => ?_⟩
      refine (h7 k).trans ?_
      by_cases hk : b!"format" = k
      · subst hk; simp
      · rw [if_neg hk]
    by_cases e2 : k = b!"target"
    · subst e2
      refine ⟨h1, rfl, h3, h4, h5, h6, fun k => ?_⟩
      refine (h7 k).trans ?_
      by_cases hk : b!"target" = k
      · subst hk; simp
      · rw [if_neg hk]
    by_cases e3 : k = b!"method"
    · subst e3
      refine ⟨h1, h2, rfl, h4, h5, h6, fun k => ?_⟩
      refine (h7 k).trans ?_
      by_cases hk : b!"method" = k
      · subst hk; simp
      · rw [if_neg hk]
    by_cases e4 : k = b!"embedPDF"
    · subst e4
      refine ⟨h1, h2, h3, rfl, h5, h6, fun k => ?_⟩
      refine (h7 k).trans ?_
      by_cases hk : b!"embedPDF" = k
      · subst hk; simp
      · rw [if_neg hk]
    by_cases e5 : k = b!"xdpContent"
    · subst e5
      refine ⟨h1, h2, h3, h4, rfl, h6, fun k => ?_⟩
      refine (h7 k).trans ?_
      by_cases hk : b!"xdpContent" = k
      · subst hk; simp
      · rw [if_neg hk]
    by_cases e6 : k = b!"textEncoding"
    · subst e6
      refine ⟨h1, h2, h3, h4, h5, rfl, fun k => ?_⟩
      refine (h7 k).trans ?_
      by_cases hk : b!"textEncoding" = k
      · subst hk; simp
      · rw [if_neg hk]
    have e : submitAttr s (k, v) = { s with properties := Map.set s.properties k v } := by
      unfold submitAttr
      simp only [if_neg e1, if_neg e2, if_neg e3, if_neg e4, if_neg e5, if_neg e6]
    rw [e, if_neg e1, if_neg e2, if_neg e3, if_neg e4, if_neg e5, if_neg e6]
    refine ⟨h1, h2, h3, h4, h5, h6, fun k' => ?_⟩
    show Map.get (Map.set s.properties k v) k' = _
    rw [Map.get_set]
    by_cases hk : k = k'
    · subst hk
      simp [e1, e2, e3, e4, e5, e6]
    · rw [if_neg (Ne.symm hk), h7 k', if_neg hk]

/-- C123 (reading): the text of an element that the reader has no place for becomes, without the spaces around it, a property of the configuration
under the name of the element, in every section; without a text there is none. -/
theorem C123_setting (sect n t : Bytes) (as : List (Bytes × Bytes))
    (hs : sect ∈ [b!"present", b!"validate", b!"submit", b!"destination", b!"acrobat", b!"common", b!"output"]) (hn : n ∉ configNames) :
    ∃ c, parseConfig [.start b!"config" [], .start sect [], .start n as, .chars t, .close n, .close sect, .close b!"config"] = .ok c ∧
      c.properties = if trimSpace t = [] then [] else [(n, trimSpace t)] := by
  have h2 : ∃ cfg : Config, cfg.properties = [] ∧ gStart {} sect [] = .ok ⟨cfg, sect, []⟩ := by
    simp only [List.mem_cons, List.not_mem_nil, or_false] at hs
    rcases hs with rfl | rfl | rfl | rfl | rfl | rfl | rfl <;> exact ⟨_, rfl, rfl⟩
  obtain ⟨cfg, hc, h2⟩ := h2
  have hne : sect ≠ [] := by rintro rfl; simp at hs
  have hsec : ∀ st, gEnd st sect = { st with sect := [] } := by
    intro st
    unfold gEnd
    rw [if_pos (by unfold isSection; rw [List.contains_iff_mem]; exact hs)]
  have hn' := hn
  simp only [configNames, List.mem_cons, List.not_mem_nil, or_false, not_or] at hn'
  have h3 : gStart ⟨cfg, sect, []⟩ n as = .ok ⟨cfg, sect, []⟩ := by simp [gStart, hn']
  have h5 : gEnd ⟨cfg, sect, t⟩ n = ⟨if trimSpace t = [] then cfg else { cfg with properties := [(n, trimSpace t)] }, sect, []⟩ := by
    unfold gEnd
    rw [if_neg (by simp [isSection, hn'])]
    by_cases ht : trimSpace t = []
    · simp [ht]
    · simp [ht, hne, hc, Map.set]
  have h0 : gStart ({} : GSt) b!"config" [] = .ok {} := rfl
  refine ⟨if trimSpace t = [] then cfg else { cfg with properties := [(n, trimSpace t)] }, ?_, ?_⟩
  · simp only [parseConfig, gRun, gStep, h0, Res.bind, h2, h3, List.nil_append, h5, hsec]
    rfl
  · split
    · exact hc
    · rfl

/-- Readings: a repeated and an unknown attribute; a text in a section. -/
example : (lastAttr [(b!"embedPDF", b!"1"), (b!"x", b!"y"), (b!"embedPDF", b!"0")] b!"embedPDF").map FormXFA.parseBool = some false ∧
    lastAttr [(b!"embedPDF", b!"1"), (b!"x", b!"y"), (b!"embedPDF", b!"0")] b!"x" = some b!"y" := by decide
example : ∃ c, parseConfig [.start b!"config" [], .start b!"validate" [], .start b!"scriptTest" [], .chars b!"\n error ", .close b!"scriptTest",
    .close b!"validate", .close b!"config"] = .ok c ∧ c.properties = [(b!"scriptTest", b!"error")] :=
  C123_setting b!"validate" b!"scriptTest" b!"\n error " [] (by simp) (by decide)


/-- A configuration for the examples. -/
def exConfig : Config :=
  { present := some { renderPolicy := b!"client", pdf := some { version := b!"1.7", linearized := true, tagged := true },
                      interactive := some { currentPage := 3, zoom := b!"fit" } }
    submit := some { format := b!"xdp", target := b!"http://x", embedPDF := true }
    destination := some { a := b!"pdf", b := b!"file" }
    acrobat := some { autoSave := true, autoSaveTime := 60, formType := b!"dynamic" } }

theorem exConfig_ok : ConfigInts exConfig ∧ ConfigPlain exConfig := by
  simp [exConfig, ConfigInts, ConfigPlain, IntRange]

example : ∃ enc, configToXFA exConfig = some enc ∧ parseConfig enc = .ok exConfig := by
  obtain ⟨enc, he⟩ : ∃ enc, configToXFA exConfig = some enc := ⟨_, rfl⟩
  exact ⟨enc, he, C123_roundtrip_partial _ exConfig_ok.1 exConfig_ok.2 he (woven_refl _ _)⟩
example : ∃ enc, configToXFA { properties := [(b!"locale", b!"en")] } = some enc ∧ parseConfig enc ≠ .ok { properties := [(b!"locale", b!"en")] } := by
  obtain ⟨enc, he⟩ : ∃ enc, configToXFA { properties := [(b!"locale", b!"en")] } = some enc := ⟨_, rfl⟩
  exact ⟨enc, he, C123_violated _ (by simp [ConfigInts]) (by decide) (.inl (by decide)) he (woven_refl _ _)⟩

/-! ### C124: stylesheets -/

variable {F : Type}

/-- C124 (what exactly comes back, when positive numbers are read as they were written): the styles in order with their names and types; of each
property, a part of its own type with numbers that are not positive as zero, and any other value as what its text looks like; nothing else. -/
theorem C124_exact_partial (fl : SFloats F) (hf : SFloats.Exact fl) (ss : List (Style F)) (hs : ∀ s ∈ ss, StyleNames s) {enc dec : List Tok}
    (he : stylesheetToXFA fl ss = some enc) (hd : Decoded enc dec) :
    ∃ back, parseStylesheet fl dec = .ok back ∧ InOrder (StyleBack fl) back ss := by
  refine ⟨_, read_stylesheet fl hf ss hs he hd, ?_⟩
  clear he hd
  induction ss with
  | nil => exact .nil
  | cons s ss ih =>
    exact .cons ⟨rfl, rfl, fun k => propsRead_get fl s (hs s (by simp)) k⟩ (ih fun x hx => hs x (by simp [hx]))

/-- A style value that comes back as it is. -/
def ValueKept (fl : SFloats F) (k : Bytes) (v : SVal F) : Prop :=
  if k ∈ styleParts then
    match v with
    | .font f => k = b!"font" ∧ (fl.pos f.size = true ∨ f.size = fl.zero)
    | .border b => k = b!"border" ∧ (fl.pos b.width = true ∨ b.width = fl.zero) ∧ (fl.pos b.radius = true ∨ b.radius = fl.zero)
    | .margin b => k = b!"margin" ∧ ∀ x ∈ [b.top, b.right, b.bottom, b.left], fl.pos x = true ∨ x = fl.zero
    | .padding b => k = b!"padding" ∧ ∀ x ∈ [b.top, b.right, b.bottom, b.left], fl.pos x = true ∨ x = fl.zero
    | .position p => k = b!"position" ∧ ∀ x ∈ [p.a, p.b], fl.pos x = true ∨ x = fl.zero
    | .size p => k = b!"size" ∧ ∀ x ∈ [p.a, p.b], fl.pos x = true ∨ x = fl.zero
    | _ => False
  else
    match v with
    | .float x => fl.print v ≠ [] ∧ NoEnds (fl.print v) ∧ fl.parse (fl.print v) = some x
    | .bool x => fl.print v = (if x then b!"true" else b!"false") ∧ fl.parse (fl.print v) = none
    | .str s => fl.print v = s ∧ s ≠ [] ∧ NoEnds s ∧ fl.parse s = none ∧ s ∉ [b!"true", b!"false", b!"1", b!"0"]
    | _ => False

theorem floatBack_kept {fl : SFloats F} {x : F} (h : fl.pos x = true ∨ x = fl.zero) : floatBack fl x = x := by
  unfold floatBack
  split
  · rfl
  · rcases h with h | h
    · contradiction
    · exact h.symm

theorem valueKept_back {fl : SFloats F} {k : Bytes} {v : SVal F} (h : ValueKept fl k v) :
    (if k ∈ styleParts then partBack fl k v else valueBack fl v) = some v := by
  unfold ValueKept at h
  split at h
  · rename_i hk
    rw [if_pos hk]
    cases v <;> simp only at h
    · obtain ⟨rfl, h1⟩ := h; simp [partBack, floatBack_kept h1]
    · obtain ⟨rfl, h1, h2⟩ := h; simp [partBack, floatBack_kept h1, floatBack_kept h2]
    · obtain ⟨rfl, h1⟩ := h; simp [partBack, floatBack_kept (h1 _ (List.mem_cons_self ..)), floatBack_kept (h1 _ (List.mem_cons_of_mem _ (List.mem_cons_self ..))), floatBack_kept (h1 _ (List.mem_cons_of_mem _ (List.mem_cons_of_mem _ (List.mem_cons_self ..)))), floatBack_kept (h1 _ (List.mem_cons_of_mem _ (List.mem_cons_of_mem _ (List.mem_cons_of_mem _ (List.mem_cons_self ..)))))]
    · obtain ⟨rfl, h1⟩ := h; simp [partBack, floatBack_kept (h1 _ (List.mem_cons_self ..)), floatBack_kept (h1 _ (List.mem_cons_of_mem _ (List.mem_cons_self ..))), floatBack_kept (h1 _ (List.mem_cons_of_mem _ (List.mem_cons_of_mem _ (List.mem_cons_self ..)))), floatBack_kept (h1 _ (List.mem_cons_of_mem _ (List.mem_cons_of_mem _ (List.mem_cons_of_mem _ (List.mem_cons_self ..)))))]
    · obtain ⟨rfl, h1⟩ := h; simp [partBack, floatBack_kept (h1 _ (List.mem_cons_self ..)), floatBack_kept (h1 _ (List.mem_cons_of_mem _ (List.mem_cons_self ..)))]
    · obtain ⟨rfl, h1⟩ := h; simp [partBack, floatBack_kept (h1 _ (List.mem_cons_self ..)), floatBack_kept (h1 _ (List.mem_cons_of_mem _ (List.mem_cons_self ..)))]
  · rename_i hk
    rw [if_neg hk]
    cases v <;> simp only at h
    · obtain ⟨h1, h2, h3⟩ := h
      rw [NoEnds] at h2
      simp [valueBack, h2, h1, h3]
    · rename_i x
      obtain ⟨h1, h2⟩ := h
      cases x
      · rw [if_neg (by decide)] at h1
        rw [h1] at h2
        have ht : trimSpace b!"false" = b!"false" := by decide
        simp [valueBack, h1, ht, h2]
      · rw [if_pos rfl] at h1
        rw [h1] at h2
        have ht : trimSpace b!"true" = b!"true" := by decide
        simp [valueBack, h1, ht, h2]
    · obtain ⟨h1, h2, h3, h4, h5⟩ := h
      rw [NoEnds] at h3
      simp only [List.mem_cons, List.not_mem_nil, or_false, not_or] at h5
      simp [valueBack, h1, h3, h2, h4, h5]

/-- The same style, up to the order of the properties. -/
def SameStyle (b a : Style F) : Prop := b.name = a.name ∧ b.type = a.type ∧ SameProps b.properties a.properties

/-- C124 (partial: parts of their own types without negative numbers; numbers, truth values and texts whose text says what they are): the styles
that are read are those that were written, in order, with the same names, types and properties. -/
theorem C124_roundtrip_partial (fl : SFloats F) (hf : SFloats.Exact fl) (ss : List (Style F))
    (hs : ∀ s ∈ ss, StyleNames s ∧ ∀ p ∈ s.properties, ValueKept fl p.1 p.2) {enc dec : List Tok}
    (he : stylesheetToXFA fl ss = some enc) (hd : Decoded enc dec) :
    ∃ back, parseStylesheet fl dec = .ok back ∧ InOrder SameStyle back ss := by
  obtain ⟨back, h1, h2⟩ := C124_exact_partial fl hf ss (fun s h => (hs s h).1) he hd
  refine ⟨back, h1, ?_⟩
  clear h1 he hd
  induction h2 with
  | nil => exact .nil
  | @cons b s bs ss h _ ih =>
    refine .cons ⟨h.1, h.2.1, fun k => ?_⟩ (ih fun x hx => hs x (by simp [hx]))
    rw [h.2.2 k, propBack]
    cases hg : Map.get s.properties k with
    | none => rfl
    | some v =>
      have hm : (k, v) ∈ s.properties := by
        unfold Map.get at hg
        obtain ⟨e, he, hv⟩ := Option.map_eq_some_iff.1 hg
        have h1 := List.mem_of_find?_eq_some he
        have h2 : e.1 = k := by simpa using List.find?_some he
        obtain ⟨a, b⟩ := e
        simp only at h2 hv
        subst h2 hv
        exact h1
      exact valueKept_back ((hs s (by simp)).2 (k, v) hm)

/-- C124 does not hold for all stylesheets: a property that is the text "1", or any text that `ParseFloat` accepts, comes back as a number. -/
theorem C124_violated (fl : SFloats F) (hf : SFloats.Exact fl) (t : Bytes) (x : F) (ht : t ≠ []) (he : NoEnds t) (hp : fl.print (.str t) = t) (hx : fl.parse t = some x)
    {enc dec : List Tok} (hw : stylesheetToXFA fl [{ properties := [(b!"k", .str t)] }] = some enc) (hd : Decoded enc dec) :
    ∃ b, parseStylesheet fl dec = .ok [b] ∧ Map.get b.properties b!"k" = some (.float x) := by
  obtain ⟨back, h1, h2⟩ := C124_exact_partial fl hf _ (by simp [StyleNames]) hw hd
  cases h2 with
  | cons h h2 =>
    cases h2
    refine ⟨_, h1, ?_⟩
    rw [h.2.2]
    rw [NoEnds] at he
    simp [propBack, Map.get, styleParts, valueBack, hp, he, ht, hx]

/-- Numbers for the examples: natural numbers in decimal. -/
def natFloats : SFloats Nat where
  parse t := if t ≠ [] ∧ t.all isDigit then (atoi t).map Int.toNat else none
  format n := natDec n
  zero := 0
  pos n := decide (0 < n ∧ n ≤ 1000)
  print
    | .float n => natDec n
    | .bool x => if x then b!"true" else b!"false"
    | .str s => s
    | _ => b!"{}"

theorem natFloats_exact : SFloats.Exact natFloats := by
  intro n hn
  have hn : 0 < n ∧ n ≤ 1000 := by simpa [natFloats] using hn
  have h1 : natDec n ≠ [] := natDec_ne_nil n
  have h2 : (natDec n).all isDigit = true := by
    rw [List.all_eq_true]; exact fun c hc => natDec_digits n c hc
  have h3 : atoi (natDec n) = some (n : Int) := by
    have := Manipulate.atoi_itoa (n : Int) (by omega) (by omega)
    simpa [itoa] using this
  simp [natFloats, h1, h3]
  exact fun c hc => natDec_digits n c hc

/-- A stylesheet for the examples. -/
def exStyles : List (Style Nat) :=
  [{ name := b!"h1", type := b!"field",
     properties := [(b!"font", .font { family := b!"Arial", size := 12, weight := b!"bold" }), (b!"margin", .margin ⟨1, 0, 2, 0⟩), (b!"visible", .bool true),
       (b!"align", .str b!"left"), (b!"level", .float 2)] }, { name := b!"empty" }]

theorem exStyles_ok : ∀ s ∈ exStyles, StyleNames s ∧ ∀ p ∈ s.properties, ValueKept natFloats p.1 p.2 := by
  intro s hs
  simp only [exStyles, List.mem_cons, List.not_mem_nil, or_false] at hs
  rcases hs with rfl | rfl
  · refine ⟨⟨by decide, by decide⟩, ?_⟩
    intro p hp
    simp only [List.mem_cons, List.not_mem_nil, or_false] at hp
    rcases hp with rfl | rfl | rfl | rfl | rfl
    · rw [ValueKept, if_pos (by decide)]; exact ⟨rfl, .inl rfl⟩
    · rw [ValueKept, if_pos (by decide)]; exact ⟨rfl, by decide⟩
    · rw [ValueKept, if_neg (by decide)]; exact ⟨rfl, by decide⟩
    · rw [ValueKept, if_neg (by decide)]; exact ⟨rfl, by decide, by unfold NoEnds; decide, by decide, by decide⟩
    · rw [ValueKept, if_neg (by decide)]; exact ⟨by decide, by unfold NoEnds; decide, by decide⟩
  · exact ⟨⟨by decide, by decide⟩, fun p hp => nomatch hp⟩

example : ∃ enc back, stylesheetToXFA natFloats exStyles = some enc ∧ parseStylesheet natFloats enc = .ok back ∧ InOrder SameStyle back exStyles := by
  obtain ⟨enc, he⟩ : ∃ enc, stylesheetToXFA natFloats exStyles = some enc := ⟨_, rfl⟩
  obtain ⟨back, h⟩ := C124_roundtrip_partial natFloats natFloats_exact exStyles exStyles_ok he (woven_refl _ _)
  exact ⟨enc, back, he, h⟩

/-! ### C125: no crash -/

/-- C125: whatever the tokens are that the decoder delivers, `ParseXFAConfig` does not panic. -/
theorem C125_config (toks : List Tok) : ∃ c, parseConfig toks = .ok c := ⟨_, parseConfig_eq toks⟩

/-- C125: whatever the tokens are that the decoder delivers, `ParseXFAStylesheet` does not panic. -/
theorem C125_stylesheet (fl : SFloats F) (toks : List Tok) : ∃ ss, parseStylesheet fl toks = .ok ss := ⟨_, parseStylesheet_eq fl toks⟩

/-- Two margins in one style, and a script in a present section. -/
example : ∃ ss, parseStylesheet natFloats [.start b!"style" [], .start b!"margin" [(b!"top", b!"1")], .start b!"margin" [(b!"left", b!"2")]] = .ok ss :=
  C125_stylesheet _ _
example : ∃ c, parseConfig [.start b!"present" [], .close b!"present", .start b!"script" []] = .ok c := C125_config _

end Pdfer.Props
