import Verif.Model.XFA

/-! Model of forms/xfa/xfa_locale_translator.go: reading and writing the XML of locale sets.

Simplifications: the XML encoder and decoder of the standard library are not modelled, both functions work on tokens (`XFA.Tok`, local names
only); `verbose` is off. -/

namespace Pdfer.XFASets

open Pdfer.Go Pdfer.XFA

/-- An attribute that is written when it is not empty. -/
def strAttr (k v : Bytes) : List (Bytes × Bytes) := if v ≠ [] then [(k, v)] else []

/-- An attribute that is written when it is positive. -/
def intAttr (k : Bytes) (n : Int) : List (Bytes × Bytes) := if n > 0 then [(k, itoa n)] else []

/-- An attribute that is written when it is set. -/
def boolAttr (k : Bytes) (x : Bool) : List (Bytes × Bytes) := if x then [(k, b!"1")] else []

/-- An element without content. -/
def bare (n : Bytes) (as : List (Bytes × Bytes)) : List Tok := [.start n as, .close n]

/-- types/xfa_data_types.go – types.XFACalendar. -/
structure Calendar where
  symbols : Bytes := []
  firstDay : Bytes := []
  weekend : Bytes := []
  holidays : List Bytes := []
deriving DecidableEq, Repr

/-- types/xfa_data_types.go – types.XFACurrency. -/
structure Currency where
  symbol : Bytes := []
  name : Bytes := []
  precision : Int := 0
deriving DecidableEq, Repr

/-- types/xfa_data_types.go – types.XFADatePattern and types.XFATimePattern. -/
structure Pattern where
  format : Bytes := []
  symbol : Bytes := []
deriving DecidableEq, Repr

/-- types/xfa_data_types.go – types.XFANumberPattern. -/
structure NumberPattern where
  format : Bytes := []
  symbol : Bytes := []
  grouping : Bytes := []
  decimal : Bytes := []
  precision : Int := 0
deriving DecidableEq, Repr

/-- types/xfa_data_types.go – types.XFAText. -/
structure TextSettings where
  direction : Bytes := []
  encoding : Bytes := []
deriving DecidableEq, Repr

/-- types/xfa_data_types.go – types.XFALocale. -/
structure Locale where
  code : Bytes := []
  name : Bytes := []
  calendar : Option Calendar := none
  currency : Option Currency := none
  datePattern : Option Pattern := none
  timePattern : Option Pattern := none
  numberPattern : Option NumberPattern := none
  text : Option TextSettings := none
deriving DecidableEq, Repr

/-- types/xfa_data_types.go – types.XFALocaleSet. -/
structure LocaleSet where
  locales : List Locale := []
  dflt : Bytes := []
deriving DecidableEq, Repr

/-! ### Reading -/

/-- `if val, err := strconv.Atoi(attr.Value); err == nil { … = val }`. -/
def intOr (old : Int) (v : Bytes) : Int := (atoi v).getD old

/-- forms/xfa/xfa_locale_translator.go:163-174 – `parseCalendarAttributes`. -/
def calendarAttr (c : Calendar) (a : Bytes × Bytes) : Calendar :=
  if a.1 = b!"symbols" then { c with symbols := a.2 }
  else if a.1 = b!"firstDay" then { c with firstDay := a.2 }
  else if a.1 = b!"weekend" then { c with weekend := a.2 }
  else c

/-- forms/xfa/xfa_locale_translator.go:176-189 – `parseCurrencyAttributes`. -/
def currencyAttr (c : Currency) (a : Bytes × Bytes) : Currency :=
  if a.1 = b!"symbol" then { c with symbol := a.2 }
  else if a.1 = b!"name" then { c with name := a.2 }
  else if a.1 = b!"precision" then { c with precision := intOr c.precision a.2 }
  else c

/-- forms/xfa/xfa_locale_translator.go:191-211 – `parseDatePatternAttributes` and `parseTimePatternAttributes`. -/
def patternAttr (p : Pattern) (a : Bytes × Bytes) : Pattern :=
  if a.1 = b!"format" then { p with format := a.2 }
  else if a.1 = b!"symbol" then { p with symbol := a.2 }
  else p

/-- forms/xfa/xfa_locale_translator.go:213-230 – `parseNumberPatternAttributes`. -/
def numberAttr (p : NumberPattern) (a : Bytes × Bytes) : NumberPattern :=
  if a.1 = b!"format" then { p with format := a.2 }
  else if a.1 = b!"symbol" then { p with symbol := a.2 }
  else if a.1 = b!"grouping" then { p with grouping := a.2 }
  else if a.1 = b!"decimal" then { p with decimal := a.2 }
  else if a.1 = b!"precision" then { p with precision := intOr p.precision a.2 }
  else p

/-- forms/xfa/xfa_locale_translator.go:232-241 – `parseTextAttributes`. -/
def textAttr (t : TextSettings) (a : Bytes × Bytes) : TextSettings :=
  if a.1 = b!"direction" then { t with direction := a.2 }
  else if a.1 = b!"encoding" then { t with encoding := a.2 }
  else t

/-- forms/xfa/xfa_locale_translator.go:56-64 – the attributes of a locale. -/
def localeAttr (l : Locale) (a : Bytes × Bytes) : Locale :=
  if a.1 = b!"name" then { l with name := a.2 }
  else if a.1 = b!"code" ∨ a.1 = b!"id" then { l with code := a.2 }
  else l

/-- forms/xfa/xfa_locale_translator.go:20-29 – the result and the local variables of the loop. -/
structure LSt where
  set : LocaleSet := {}
  cur : Option Locale := none
  sect : Bytes := []
  value : Bytes := []
deriving DecidableEq, Repr

/-- forms/xfa/xfa_locale_translator.go:44-119 – a start element. -/
def lStart (st : LSt) (n : Bytes) (as : List (Bytes × Bytes)) : LSt :=
  if n = b!"localeSet" then
    { st with set := { st.set with dflt := as.foldl (fun d a => if a.1 = b!"default" then a.2 else d) st.set.dflt } }
  else if n = b!"locale" then { st with cur := some (as.foldl localeAttr {}) }
  else if n = b!"calendar" then
    (match st.cur with
      | some l => { st with sect := b!"calendar", cur := some { l with calendar := some (as.foldl calendarAttr (l.calendar.getD {})) } }
      | none => st)
  else if n = b!"currency" then
    (match st.cur with
      | some l => { st with sect := b!"currency", cur := some { l with currency := some (as.foldl currencyAttr (l.currency.getD {})) } }
      | none => st)
  else if n = b!"datePattern" then
    (match st.cur with
      | some l => { st with sect := b!"datePattern", cur := some { l with datePattern := some (as.foldl patternAttr (l.datePattern.getD {})) } }
      | none => st)
  else if n = b!"timePattern" then
    (match st.cur with
      | some l => { st with sect := b!"timePattern", cur := some { l with timePattern := some (as.foldl patternAttr (l.timePattern.getD {})) } }
      | none => st)
  else if n = b!"numberPattern" then
    (match st.cur with
      | some l => { st with sect := b!"numberPattern", cur := some { l with numberPattern := some (as.foldl numberAttr (l.numberPattern.getD {})) } }
      | none => st)
  else if n = b!"text" then
    (match st.cur with
      | some l => { st with sect := b!"text", cur := some { l with text := some (as.foldl textAttr (l.text.getD {})) } }
      | none => st)
  else if n = b!"holiday" then
    (match st.cur with
      | some l => if st.sect = b!"calendar" ∧ l.calendar.isSome then { st with value := [] } else st
      | none => st)
  else { st with value := [] }

/-- forms/xfa/xfa_locale_translator.go:121-144 – an end element. -/
def lEnd (st : LSt) (n : Bytes) : LSt :=
  if n = b!"locale" then
    { st with set := { st.set with locales := st.set.locales ++ st.cur.toList }, cur := none, sect := [] }
  else if n = b!"calendar" ∨ n = b!"currency" ∨ n = b!"datePattern" ∨ n = b!"timePattern" ∨ n = b!"numberPattern" ∨ n = b!"text" then
    { st with sect := [] }
  else if n = b!"holiday" then
    (match st.cur with
      | some l => (match l.calendar with
        | some c =>
          let h := trimSpace st.value
          if st.sect = b!"calendar" ∧ h ≠ [] then { st with cur := some { l with calendar := some { c with holidays := c.holidays ++ [h] } } } else st
        | none => st)
      | none => st)
  else { st with value := [] }

/-- forms/xfa/xfa_locale_translator.go:31-153 – one token. -/
def lStep (st : LSt) : Tok → LSt
  | .start n as => lStart st n as
  | .close n => lEnd st n
  | .chars t => if st.sect = b!"calendar" ∧ contains t b!"holiday" then st else { st with value := st.value ++ t }

/-- forms/xfa/xfa_locale_translator.go:15-161 – `ParseXFALocaleSet` on the tokens the decoder delivers before it ends or fails. -/
def parseLocaleSet (toks : List Tok) : LocaleSet := (toks.foldl lStep {}).set

/-! ### Writing -/

/-- forms/xfa/xfa_locale_translator.go:347-384 – `encodeCalendar`. -/
def encCalendar (c : Calendar) : List Tok :=
  [.start b!"calendar" (strAttr b!"symbols" c.symbols ++ strAttr b!"firstDay" c.firstDay ++ strAttr b!"weekend" c.weekend)] ++
  c.holidays.flatMap (fun h => [.start b!"holiday" [], .chars h, .close b!"holiday"]) ++ [.close b!"calendar"]

/-- forms/xfa/xfa_locale_translator.go:386-408 – `encodeCurrency`. -/
def encCurrency (c : Currency) : List Tok :=
  bare b!"currency" (strAttr b!"symbol" c.symbol ++ strAttr b!"name" c.name ++ intAttr b!"precision" c.precision)

/-- forms/xfa/xfa_locale_translator.go:410-450 – `encodeDatePattern` and `encodeTimePattern`. -/
def encPattern (n : Bytes) (p : Pattern) : List Tok := bare n (strAttr b!"format" p.format ++ strAttr b!"symbol" p.symbol)

/-- forms/xfa/xfa_locale_translator.go:452-480 – `encodeNumberPattern`. -/
def encNumber (p : NumberPattern) : List Tok :=
  bare b!"numberPattern" (strAttr b!"format" p.format ++ strAttr b!"symbol" p.symbol ++ strAttr b!"grouping" p.grouping ++
    strAttr b!"decimal" p.decimal ++ intAttr b!"precision" p.precision)

/-- forms/xfa/xfa_locale_translator.go:482-501 – `encodeText`. -/
def encText (t : TextSettings) : List Tok := bare b!"text" (strAttr b!"direction" t.direction ++ strAttr b!"encoding" t.encoding)

/-- A part that is written when it is there. -/
def part {A : Type} (enc : A → List Tok) : Option A → List Tok
  | some a => enc a
  | none => []

/-- forms/xfa/xfa_locale_translator.go:289-345 – `encodeLocale`. -/
def encLocale (l : Locale) : List Tok :=
  [.start b!"locale" (strAttr b!"code" l.code ++ strAttr b!"name" l.name)] ++ part encCalendar l.calendar ++ part encCurrency l.currency ++
  part (encPattern b!"datePattern") l.datePattern ++ part (encPattern b!"timePattern") l.timePattern ++ part encNumber l.numberPattern ++
  part encText l.text ++ [.close b!"locale"]

/-- forms/xfa/xfa_locale_translator.go:244-287 – `LocaleSetToXFA`: the tokens given to the encoder (which refuses none of them). -/
def localeSetToXFA (s : LocaleSet) : List Tok :=
  [.start b!"localeSet" (strAttr b!"default" s.dflt)] ++ s.locales.flatMap encLocale ++ [.close b!"localeSet"]

end Pdfer.XFASets
