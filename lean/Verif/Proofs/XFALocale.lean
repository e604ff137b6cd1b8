import Verif.Proofs.Xml
import Verif.Proofs.XPages
import Verif.Spec.XFASets

namespace Pdfer.XFASets

open Pdfer.Go Pdfer.XFA
open Pdfer.Spec.Xml Pdfer.Spec.XFASets

/-- Between the elements of the locale set. -/
def LAt (set : LocaleSet) (cur : Option Locale) (sect : Bytes) (st : LSt) : Prop := st.set = set ∧ st.cur = cur ∧ st.sect = sect

theorem blank_no_holiday {w : Bytes} (h : Blank w) : contains w b!"holiday" = false := by
  cases hc : contains w b!"holiday" with
  | false => rfl
  | true =>
    obtain ⟨a, b, he⟩ := (Manipulate.contains_iff _ _).mp hc
    have := h 104 (by rw [← he]; simp)
    exact absurd this (by decide)

theorem lAt_blank {set : LocaleSet} {cur : Option Locale} {sect : Bytes} (st : LSt) (w : Bytes) (hw : Blank w) (h : LAt set cur sect st) :
    LAt set cur sect (lStep st (.chars w)) := by
  obtain ⟨h1, h2, h3⟩ := h
  simp only [lStep, blank_no_holiday hw, Bool.false_eq_true, and_false, if_false]
  exact ⟨h1, h2, h3⟩

/-- A step from a state given by its parts. -/
theorem lAt_step {set : LocaleSet} {cur : Option Locale} {sect : Bytes} {Q : LSt → Prop} {k : LSt → LSt}
    (h : ∀ v, Q (k ⟨set, cur, sect, v⟩)) : ∀ st, LAt set cur sect st → Q (k st) := by
  rintro ⟨set', cur', sect', value'⟩ ⟨h1, h2, h3⟩
  simp only at h1 h2 h3
  subst h1 h2 h3
  exact h _

theorem read_holiday (set : LocaleSet) (l : Locale) (c : Calendar) (h : Bytes) :
    Reads lStep (LAt set (some { l with calendar := some c }) b!"calendar") [.start b!"holiday" [], .chars h, .close b!"holiday"]
      (LAt set (some { l with calendar := some { c with holidays := c.holidays ++ holidaysBack [h] } }) b!"calendar") := by
  refine Reads.text lAt_blank (fun _ => lAt_step (Q := fun st => lStep (lStep st _) _ = lStep st _) (k := id) fun v => rfl) (lAt_step fun v => ?_)
  cases hc : contains h b!"holiday" with
  | true => simp [lStep, lStart, lEnd, hc, LAt, holidaysBack, trimSpace]
  | false => by_cases ht : trimSpace h = [] <;> simp [lStep, lStart, lEnd, hc, LAt, holidaysBack, ht]

theorem holidaysBack_append (a b : List Bytes) : holidaysBack (a ++ b) = holidaysBack a ++ holidaysBack b := by
  simp [holidaysBack]

theorem read_holidays (set : LocaleSet) (l : Locale) (c : Calendar) (hs : List Bytes) :
    Reads lStep (LAt set (some { l with calendar := some c }) b!"calendar")
      (hs.flatMap fun h => [.start b!"holiday" [], .chars h, .close b!"holiday"])
      (LAt set (some { l with calendar := some { c with holidays := c.holidays ++ holidaysBack hs } }) b!"calendar") := by
  have := Reads.list (P := fun (done : List Bytes) => LAt set (some { l with calendar := some { c with holidays := c.holidays ++ holidaysBack done } }) b!"calendar")
    (step := lStep) (enc := fun h => [.start b!"holiday" [], .chars h, .close b!"holiday"])
    (fun done h => by
      rw [holidaysBack_append, ← List.append_assoc]
      exact read_holiday set l { c with holidays := c.holidays ++ holidaysBack done } h) hs []
  simpa [holidaysBack] using this

theorem calendar_attrs (c : Calendar) :
    (strAttr b!"symbols" c.symbols ++ strAttr b!"firstDay" c.firstDay ++ strAttr b!"weekend" c.weekend).foldl calendarAttr {} =
      { c with holidays := [] } := by
  rw [List.foldl_append, List.foldl_append]
  rw [fold_str (v := c.symbols) (r' := { symbols := c.symbols }) rfl (by intro h; rw [h]),
    fold_str (v := c.firstDay) (r' := { symbols := c.symbols, firstDay := c.firstDay }) rfl (by intro h; rw [h]),
    fold_str (v := c.weekend) (r' := { symbols := c.symbols, firstDay := c.firstDay, weekend := c.weekend }) rfl (by intro h; rw [h])]

theorem currency_attrs (c : Currency) (hr : IntRange c.precision) :
    (strAttr b!"symbol" c.symbol ++ strAttr b!"name" c.name ++ intAttr b!"precision" c.precision).foldl currencyAttr {} =
      { c with precision := numBack c.precision } := by
  rw [List.foldl_append, List.foldl_append]
  rw [fold_str (v := c.symbol) (r' := { symbol := c.symbol }) rfl (by intro h; rw [h]),
    fold_str (v := c.name) (r' := { symbol := c.symbol, name := c.name }) rfl (by intro h; rw [h])]
  refine fold_int (fun h => ?_) (fun h => ?_)
  · show ({ symbol := c.symbol, name := c.name, precision := intOr 0 (itoa c.precision) } : Currency) = _
    rw [int_back h hr.2, numBack, Int.max_eq_right (by omega)]
  · rw [numBack, Int.max_eq_left (by omega)]

theorem pattern_attrs (p : Pattern) : (strAttr b!"format" p.format ++ strAttr b!"symbol" p.symbol).foldl patternAttr {} = p := by
  rw [List.foldl_append]
  rw [fold_str (v := p.format) (r' := { format := p.format }) rfl (by intro h; rw [h]),
    fold_str (v := p.symbol) (r' := { format := p.format, symbol := p.symbol }) rfl (by intro h; cases p; simp only at h; rw [h])]

theorem number_attrs (p : NumberPattern) (hr : IntRange p.precision) :
    (strAttr b!"format" p.format ++ strAttr b!"symbol" p.symbol ++ strAttr b!"grouping" p.grouping ++ strAttr b!"decimal" p.decimal ++
      intAttr b!"precision" p.precision).foldl numberAttr {} = { p with precision := numBack p.precision } := by
  simp only [List.foldl_append]
  rw [fold_str (v := p.format) (r' := { format := p.format }) rfl (by intro h; rw [h]),
    fold_str (v := p.symbol) (r' := { format := p.format, symbol := p.symbol }) rfl (by intro h; rw [h]),
    fold_str (v := p.grouping) (r' := { format := p.format, symbol := p.symbol, grouping := p.grouping }) rfl (by intro h; rw [h]),
    fold_str (v := p.decimal) (r' := { format := p.format, symbol := p.symbol, grouping := p.grouping, decimal := p.decimal }) rfl (by intro h; rw [h])]
  refine fold_int (fun h => ?_) (fun h => ?_)
  · show ({ format := p.format, symbol := p.symbol, grouping := p.grouping, decimal := p.decimal, precision := intOr 0 (itoa p.precision) } : NumberPattern) = _
    rw [int_back h hr.2, numBack, Int.max_eq_right (by omega)]
  · rw [numBack, Int.max_eq_left (by omega)]

theorem text_attrs (t : TextSettings) : (strAttr b!"direction" t.direction ++ strAttr b!"encoding" t.encoding).foldl textAttr {} = t := by
  rw [List.foldl_append]
  rw [fold_str (v := t.direction) (r' := { direction := t.direction }) rfl (by intro h; rw [h]),
    fold_str (v := t.encoding) (r' := { direction := t.direction, encoding := t.encoding }) rfl (by intro h; cases t; simp only at h; rw [h])]

theorem locale_attrs (l : Locale) : (strAttr b!"code" l.code ++ strAttr b!"name" l.name).foldl localeAttr {} = { code := l.code, name := l.name } := by
  rw [List.foldl_append]
  rw [fold_str (v := l.code) (r' := { code := l.code }) rfl (by intro h; rw [h]),
    fold_str (v := l.name) (r' := { code := l.code, name := l.name }) rfl (by intro h; rw [h])]

theorem read_calendar (set : LocaleSet) (l : Locale) (hl : l.calendar = none) (c : Calendar) :
    Reads lStep (LAt set (some l) []) (encCalendar c)
      (LAt set (some { l with calendar := some { c with holidays := holidaysBack c.holidays } }) []) := by
  refine Reads.append (Reads.append (Q := LAt set (some { l with calendar := some { c with holidays := [] } }) b!"calendar") ?_ ?_) ?_ (Q := LAt set (some { l with calendar := some { c with holidays := holidaysBack c.holidays } }) b!"calendar")
  · refine Reads.start lAt_blank (lAt_step fun v => ?_)
    refine ⟨rfl, ?_, rfl⟩
    show some { l with calendar := some (List.foldl calendarAttr (l.calendar.getD {}) _) } = _
    rw [hl]
    show some { l with calendar := some (List.foldl calendarAttr {} _) } = _
    rw [calendar_attrs]
  · exact read_holidays set l { c with holidays := [] } c.holidays
  · exact Reads.close lAt_blank (lAt_step fun v => ⟨rfl, rfl, rfl⟩)

theorem read_currency (set : LocaleSet) (l : Locale) (hl : l.currency = none) (c : Currency) (hr : IntRange c.precision) :
    Reads lStep (LAt set (some l) []) (encCurrency c) (LAt set (some { l with currency := some { c with precision := numBack c.precision } }) []) := by
  refine Reads.bare lAt_blank (lAt_step fun v => ?_)
  refine ⟨rfl, ?_, rfl⟩
  show some { l with currency := some (List.foldl currencyAttr (l.currency.getD {}) _) } = _
  rw [hl]
  show some { l with currency := some (List.foldl currencyAttr {} _) } = _
  rw [currency_attrs c hr]

theorem read_date (set : LocaleSet) (l : Locale) (hl : l.datePattern = none) (p : Pattern) :
    Reads lStep (LAt set (some l) []) (encPattern b!"datePattern" p) (LAt set (some { l with datePattern := some p }) []) := by
  refine Reads.bare lAt_blank (lAt_step fun v => ?_)
  refine ⟨rfl, ?_, rfl⟩
  show some { l with datePattern := some (List.foldl patternAttr (l.datePattern.getD {}) _) } = _
  rw [hl]
  show some { l with datePattern := some (List.foldl patternAttr {} _) } = _
  rw [pattern_attrs]

theorem read_time (set : LocaleSet) (l : Locale) (hl : l.timePattern = none) (p : Pattern) :
    Reads lStep (LAt set (some l) []) (encPattern b!"timePattern" p) (LAt set (some { l with timePattern := some p }) []) := by
  refine Reads.bare lAt_blank (lAt_step fun v => ?_)
  refine ⟨rfl, ?_, rfl⟩
  show some { l with timePattern := some (List.foldl patternAttr (l.timePattern.getD {}) _) } = _
  rw [hl]
  show some { l with timePattern := some (List.foldl patternAttr {} _) } = _
  rw [pattern_attrs]

theorem read_number (set : LocaleSet) (l : Locale) (hl : l.numberPattern = none) (p : NumberPattern) (hr : IntRange p.precision) :
    Reads lStep (LAt set (some l) []) (encNumber p) (LAt set (some { l with numberPattern := some { p with precision := numBack p.precision } }) []) := by
  refine Reads.bare lAt_blank (lAt_step fun v => ?_)
  refine ⟨rfl, ?_, rfl⟩
  show some { l with numberPattern := some (List.foldl numberAttr (l.numberPattern.getD {}) _) } = _
  rw [hl]
  show some { l with numberPattern := some (List.foldl numberAttr {} _) } = _
  rw [number_attrs p hr]

theorem read_text (set : LocaleSet) (l : Locale) (hl : l.text = none) (t : TextSettings) :
    Reads lStep (LAt set (some l) []) (encText t) (LAt set (some { l with text := some t }) []) := by
  refine Reads.bare lAt_blank (lAt_step fun v => ?_)
  refine ⟨rfl, ?_, rfl⟩
  show some { l with text := some (List.foldl textAttr (l.text.getD {}) _) } = _
  rw [hl]
  show some { l with text := some (List.foldl textAttr {} _) } = _
  rw [text_attrs]

/-- A part that may be missing. -/
theorem Reads.opt {S A : Type} {step : S → Tok → S} {P Q : S → Prop} {enc : A → List Tok} (o : Option A)
    (hn : o = none → ∀ st, P st → Q st) (hs : ∀ a, o = some a → Reads step P (enc a) Q) : Reads step P (XFASets.part enc o) Q := by
  cases o with
  | none =>
    intro c dec st h hp
    have h' : dec = [] := woven_nil h
    subst h'
    exact hn rfl _ hp
  | some a => exact hs a rfl

theorem read_locale (set : LocaleSet) (l : Locale) (hl : LocaleInts l) :
    Reads lStep (LAt set none []) (encLocale l) (LAt { set with locales := set.locales ++ [localeBack l] } none []) := by
  let c1 := l.calendar.map fun c => { c with holidays := holidaysBack c.holidays }
  let c2 := l.currency.map fun c => { c with precision := numBack c.precision }
  let c3 := l.numberPattern.map fun p => { p with precision := numBack p.precision }
  unfold encLocale
  refine Reads.append (Q := LAt set (some (localeBack l)) []) ?_ (Reads.close lAt_blank (lAt_step fun v => ⟨rfl, rfl, rfl⟩))
  refine Reads.append (Q := LAt set (some { code := l.code, name := l.name, calendar := c1, currency := c2, datePattern := l.datePattern, timePattern := l.timePattern, numberPattern := c3 }) []) ?_
    (Reads.opt _ (fun h st => ?_) fun a ha => ?_)
  refine Reads.append (Q := LAt set (some { code := l.code, name := l.name, calendar := c1, currency := c2, datePattern := l.datePattern, timePattern := l.timePattern }) []) ?_
    (Reads.opt _ (fun h st => ?_) fun a ha => ?_)
  refine Reads.append (Q := LAt set (some { code := l.code, name := l.name, calendar := c1, currency := c2, datePattern := l.datePattern }) []) ?_
    (Reads.opt _ (fun h st => ?_) fun a ha => ?_)
  refine Reads.append (Q := LAt set (some { code := l.code, name := l.name, calendar := c1, currency := c2 }) []) ?_
    (Reads.opt _ (fun h st => ?_) fun a ha => ?_)
  refine Reads.append (Q := LAt set (some { code := l.code, name := l.name, calendar := c1 }) []) ?_
    (Reads.opt _ (fun h st => ?_) fun a ha => ?_)
  refine Reads.append (Q := LAt set (some { code := l.code, name := l.name }) []) ?_
    (Reads.opt _ (fun h st => ?_) fun a ha => ?_)
  · refine Reads.start lAt_blank (lAt_step fun v => ⟨rfl, ?_, rfl⟩)
    show some (List.foldl localeAttr {} _) = _
    rw [locale_attrs]
  · simp only [c1, h, Option.map_none]; exact id
  · have := read_calendar set { code := l.code, name := l.name } rfl a
    simpa only [c1, ha, Option.map_some] using this
  · simp only [c2, h, Option.map_none]; exact id
  · have := read_currency set { code := l.code, name := l.name, calendar := c1 } rfl a (hl.1 a ha)
    simpa only [c2, ha, Option.map_some] using this
  · simp only [h]; exact id
  · have := read_date set { code := l.code, name := l.name, calendar := c1, currency := c2 } rfl a
    simpa only [ha] using this
  · simp only [h]; exact id
  · have := read_time set { code := l.code, name := l.name, calendar := c1, currency := c2, datePattern := l.datePattern } rfl a
    simpa only [ha] using this
  · simp only [c3, h, Option.map_none]; exact id
  · have := read_number set { code := l.code, name := l.name, calendar := c1, currency := c2, datePattern := l.datePattern, timePattern := l.timePattern } rfl a (hl.2 a ha)
    simpa only [c3, ha, Option.map_some] using this
  · simp only [localeBack, h]; exact id
  · have := read_text set { code := l.code, name := l.name, calendar := c1, currency := c2, datePattern := l.datePattern, timePattern := l.timePattern, numberPattern := c3 } rfl a
    simpa only [localeBack, ha] using this

theorem read_localeSet (s : LocaleSet) (hs : ∀ l ∈ s.locales, LocaleInts l) (dec : List Tok) (hd : Decoded (localeSetToXFA s) dec) :
    parseLocaleSet dec = { s with locales := s.locales.map localeBack } := by
  have hlist : ∀ (ls : List Locale), (∀ l ∈ ls, LocaleInts l) → ∀ set : LocaleSet, Reads lStep (LAt set none []) (ls.flatMap encLocale)
      (LAt { set with locales := set.locales ++ ls.map localeBack } none []) := by
    intro ls
    induction ls with
    | nil => intro _ set; simpa using Reads.nil
    | cons l ls ih =>
      intro h set
      rw [List.flatMap_cons]
      have := (read_locale set l (h l (by simp))).append (ih (fun x hx => h x (by simp [hx])) { set with locales := set.locales ++ [localeBack l] })
      simpa using this
  have hr : Reads lStep (LAt {} none []) (localeSetToXFA s) (LAt { locales := [] ++ s.locales.map localeBack, dflt := s.dflt } none []) := by
    unfold localeSetToXFA
    refine Reads.append (Reads.append (Q := LAt { dflt := s.dflt } none []) ?_ (hlist s.locales hs { dflt := s.dflt }))
      (Reads.close lAt_blank (lAt_step fun v => ⟨rfl, rfl, rfl⟩))
    refine Reads.start lAt_blank (lAt_step fun v => ⟨?_, rfl, rfl⟩)
    show ({ locales := [], dflt := List.foldl _ [] _ } : LocaleSet) = _
    rw [fold_str (r' := s.dflt) rfl (by intro h; rw [h])]
  have := (hr false dec {} hd ⟨rfl, rfl, rfl⟩).1
  rw [parseLocaleSet, this]
  simp

theorem localeBack_plain {l : Locale} (h : LocalePlain l) : localeBack l = l := by
  obtain ⟨code, name, cal, cur, dp, tp, np, tx⟩ := l
  obtain ⟨h1, h2, h3⟩ := h
  simp only at h1 h2 h3
  simp only [localeBack, Locale.mk.injEq, true_and, and_true]
  refine ⟨?_, ?_, ?_⟩
  · cases cal with
    | none => rfl
    | some c =>
      have hb : ∀ hs : List Bytes, (∀ h ∈ hs, h ≠ [] ∧ NoEnds h ∧ contains h b!"holiday" = false) → holidaysBack hs = hs := by
        intro hs
        induction hs with
        | nil => intro _; rfl
        | cons x hs ih =>
          intro h
          obtain ⟨g1, g2, g3⟩ := h x (by simp)
          have e : holidaysBack [x] = [x] := by
            rw [NoEnds] at g2
            simp [holidaysBack, g3, g2, g1]
          rw [show x :: hs = [x] ++ hs from rfl, holidaysBack_append, e, ih fun y hy => h y (by simp [hy])]
      simp only [Option.map_some, hb c.holidays (h1 c rfl)]
  · cases cur with
    | none => rfl
    | some c => simp only [Option.map_some, numBack, Int.max_eq_right (h2 c rfl)]
  · cases np with
    | none => rfl
    | some c => simp only [Option.map_some, numBack, Int.max_eq_right (h3 c rfl)]

end Pdfer.XFASets
