import Verif.Spec.Strings
import Verif.Model.Strings

/-! Specification of dates: what an ISO 8601 text says, and what a PDF date says (ISO 32000-1, 7.9.4), independently of the model. -/

namespace Pdfer.Spec.Metadata

open Pdfer.Go (padDec)

/-- A point of local time and how many minutes it is ahead of UTC. -/
structure Moment where
  year : Nat
  month : Nat
  day : Nat
  hour : Nat
  min : Nat
  sec : Nat
  ahead : Int
  deriving DecidableEq, Repr

/-- The days of a month in the Gregorian calendar. -/
def monthDays (year : Nat) : Nat → Nat
  | 1 => 31 | 3 => 31 | 5 => 31 | 7 => 31 | 8 => 31 | 10 => 31 | 12 => 31
  | 4 => 30 | 6 => 30 | 9 => 30 | 11 => 30
  | 2 => if year % 400 = 0 then 29 else if year % 100 = 0 then 28 else if year % 4 = 0 then 29 else 28
  | _ => 0

/-- The moment exists. -/
structure Moment.Valid (t : Moment) : Prop where
  year : t.year < 10000
  day : 1 ≤ t.day ∧ t.day ≤ monthDays t.year t.month
  hour : t.hour < 24
  min : t.min < 60
  sec : t.sec < 60
  ahead : t.ahead.natAbs < 24 * 60

/-- `2006-01-02`. -/
def dayText (t : Moment) : Bytes := padDec 4 t.year ++ b!"-" ++ padDec 2 t.month ++ b!"-" ++ padDec 2 t.day

/-- `15:04:05`. -/
def clockText (t : Moment) : Bytes := padDec 2 t.hour ++ b!":" ++ padDec 2 t.min ++ b!":" ++ padDec 2 t.sec

/-- `+01:30`. -/
def isoZone (ahead : Int) : Bytes :=
  (if ahead < 0 then b!"-" else b!"+") ++ padDec 2 (ahead.natAbs / 60) ++ b!":" ++ padDec 2 (ahead.natAbs % 60)

/-- `Says s t`: the text `s` gives the moment `t` in one of the accepted forms; without a zone it is UTC, without a time it is midnight. -/
inductive Says : Bytes → Moment → Prop
  | zone (t : Moment) : Says (dayText t ++ b!"T" ++ clockText t ++ isoZone t.ahead) t
  | utc (t : Moment) : t.ahead = 0 → Says (dayText t ++ b!"T" ++ clockText t ++ b!"Z") t
  | noZone (t : Moment) : t.ahead = 0 → Says (dayText t ++ b!"T" ++ clockText t) t
  | space (t : Moment) : t.ahead = 0 → Says (dayText t ++ b!" " ++ clockText t) t
  | day (t : Moment) : t.ahead = 0 → t.hour = 0 → t.min = 0 → t.sec = 0 → Says (dayText t) t

/-- The value of a digit. -/
def digit (c : UInt8) : Option Nat := if 48 ≤ c ∧ c ≤ 57 then some (c.toNat - 48) else none

/-- A number of exactly `k` digits, and the rest. -/
def number : Nat → Nat → Bytes → Option (Nat × Bytes)
  | 0, v, s => some (v, s)
  | _ + 1, _, [] => none
  | k + 1, v, c :: s => (digit c).bind fun d => number k (10 * v + d) s

/-- Reads a PDF date with all its fields: `D:YYYYMMDDHHmmSSOHH'mm`, O being + or - , with an optional apostrophe at the end. -/
def readPdfDate (s : Bytes) : Option Moment :=
  match s with
  | 68 :: 58 :: s =>
    (number 4 0 s).bind fun (y, s) => (number 2 0 s).bind fun (mo, s) => (number 2 0 s).bind fun (d, s) =>
    (number 2 0 s).bind fun (h, s) => (number 2 0 s).bind fun (m, s) => (number 2 0 s).bind fun (x, s) =>
    match s with
    | o :: s =>
      if o = 43 ∨ o = 45 then
        (number 2 0 s).bind fun (zh, s) =>
        match s with
        | 39 :: s => (number 2 0 s).bind fun (zm, s) =>
          if (s = [] ∨ s = [39]) ∧ zh < 24 ∧ zm < 60 then
            some ⟨y, mo, d, h, m, x, if o = 45 then -((zh * 60 + zm : Nat) : Int) else ((zh * 60 + zm : Nat) : Int)⟩
          else none
        | _ => none
      else none
    | [] => none
  | _ => none

/-- What becomes of a date: none stays none, a date in PDF format stays as it is, and an ISO date is the PDF date that says the same (zones less
than an hour behind UTC aside). -/
structure DateKept (given read : Bytes) : Prop where
  none : given = [] → read = []
  pdf : (b!"D:").isPrefixOf given = true → read = given
  iso : ∀ t, Says given t → t.Valid → ¬ (-60 < t.ahead ∧ t.ahead < 0) → readPdfDate read = some t

/-- A text that is plain: no closing parenthesis, no backslash before n, r or t, not beginning with a slash and not ending in ` R`. -/
structure Plain (v : Bytes) : Prop where
  close : (41 : UInt8) ∉ v
  esc : ∀ u x w, v = u ++ 92 :: x :: w → x ≠ 110 ∧ x ≠ 114 ∧ x ≠ 116
  slash : v.head? ≠ some 47
  ref : ¬ b!" R" <:+ v

/-- A date in PDF format has only visible ASCII characters other than parentheses and backslashes. -/
def PlainDate (d : Bytes) : Prop := (b!"D:").isPrefixOf d = true → ∀ c ∈ d, 32 < c ∧ c < 127 ∧ c ≠ 40 ∧ c ≠ 41 ∧ c ≠ 92

/-- The names of the standard fields. -/
def fieldNames : List Bytes :=
  [b!"Title", b!"Author", b!"Subject", b!"Keywords", b!"Creator", b!"Producer", b!"CreationDate", b!"ModDate"]

/-- A name for a custom field: letters, digits and underscores, and no standard name. -/
def CustomName (k : Bytes) : Prop :=
  k ≠ [] ∧ (∀ c ∈ k, (65 ≤ c ∧ c ≤ 90) ∨ (97 ≤ c ∧ c ≤ 122) ∨ (48 ≤ c ∧ c ≤ 57) ∨ c = 95) ∧ k ∉ fieldNames

/-- Metadata with plain values. -/
structure PlainMetadata (m : Strings.Metadata) : Prop where
  texts : ∀ v ∈ [m.title, m.author, m.subject, m.keywords, m.creator, m.producer], Plain v
  dates : PlainDate m.creationDate ∧ PlainDate m.modDate
  custom : ∀ e ∈ m.custom, CustomName e.1 ∧ Plain e.2 ∧ e.2 ≠ []
  once : m.custom.keys.Nodup

/-- The spellings of the standard fields, in lower case. -/
def spellings : List (List Bytes) :=
  [[b!"title"], [b!"author"], [b!"subject"], [b!"keywords"], [b!"creator"], [b!"producer"], [b!"creationdate", b!"creation_date"],
   [b!"moddate", b!"mod_date"]]

/-- ASCII text in lower case. -/
def lowered (s : Bytes) : Bytes := s.map fun c => if 65 ≤ c ∧ c ≤ 90 then c + 32 else c

/-- Two keys name the same field: both are spellings of one standard field in any case, or they are the same key. -/
def SameField (a b : Bytes) : Prop := a = b ∨ ∃ l ∈ spellings, lowered a ∈ l ∧ lowered b ∈ l

/-- The value of the last entry whose key satisfies `p`. -/
def lastValue (p : Bytes → Bool) (fields : List (Bytes × Bytes)) : Option Bytes := ((fields.filter fun e => p e.1).map (·.2)).getLast?

end Pdfer.Spec.Metadata
