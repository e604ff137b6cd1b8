import Verif.Model.Metadata
import Verif.Spec.Metadata
import Verif.Props.Strings
import Verif.Proofs.Metadata
import Verif.Proofs.PageTree
import Verif.Model.Outline

/-! C152–C154: metadata through a file, dates, fields by name. -/

namespace Pdfer.Props

open Pdfer.Go Pdfer.Strings Pdfer.Metadata Pdfer.Spec.Metadata

/-! ### C153 -/

theorem two_digits (n : Nat) (h : n < 100) : ∃ a c, padDec 2 n = [a, c] ∧ isDigit a = true ∧ isDigit c = true ∧
    (a.toNat - 48) * 10 + (c.toNat - 48) = n := by
  have : ∀ n < 100, (match padDec 2 n with
    | [a, c] => isDigit a && isDigit c && ((a.toNat - 48) * 10 + (c.toNat - 48) == n)
    | _ => false) = true := by decide +kernel
  have := this n h
  split at this
  · rename_i a c e
    simp only [Bool.and_eq_true, beq_iff_eq] at this
    exact ⟨a, c, e, this.1.1, this.1.2, this.2⟩
  · cases this

theorem getnum_two (fixed : Bool) (n : Nat) (h : n < 100) (s : Bytes) : getnum fixed (padDec 2 n ++ s) = some (n, s) := by
  obtain ⟨a, c, e, h1, h2, h3⟩ := two_digits n h
  rw [e]
  simp [getnum, h1, h2, h3]

theorem number_digits (ds : Bytes) (h : ∀ c ∈ ds, isDigit c = true) (v : Nat) (s : Bytes) :
    number ds.length v (ds ++ s) = some (ds.foldl (fun v c => 10 * v + (c.toNat - 48)) v, s) := by
  induction ds generalizing v with
  | nil => rfl
  | cons c ds ih =>
    have hc := h c (by simp)
    simp only [isDigit, Bool.and_eq_true, decide_eq_true_eq] at hc
    have e : Spec.Metadata.digit c = some (c.toNat - 48) := by unfold Spec.Metadata.digit; rw [if_pos hc]
    rw [List.length_cons, List.cons_append, number, e, Option.bind_some, ih (fun x hx => h x (by simp [hx])), List.foldl_cons]

theorem number_pad (k n : Nat) (hk : 1 ≤ k) (h : n < 10 ^ k) (s : Bytes) : number k 0 (padDec k n ++ s) = some (n, s) := by
  have := number_digits (padDec k n) (padDec_digits k n) 0 s
  rw [padDec_length k n hk h] at this
  rw [this]
  exact congrArg (fun x => some (x, s)) (digitsVal_padDec k n)

theorem getYear_pad (n : Nat) (h : n < 10000) (s : Bytes) : getYear (padDec 4 n ++ s) = some (n, s) := by
  have hl := padDec_length 4 n (by decide) (by simpa using h)
  unfold getYear
  have h1 : (padDec 4 n).take 4 = padDec 4 n := List.take_of_length_le (by omega)
  have h2 : (padDec 4 n).drop 4 = [] := List.drop_of_length_le (by omega)
  rw [List.take_append_of_le_length (by omega), List.drop_append_of_le_length (by omega), h1, h2, digitsVal_padDec]
  rw [if_pos]
  · simp
  · refine ⟨by simp [hl], ?_⟩
    rw [List.all_eq_true]
    exact padDec_digits _ _

theorem lit_byte (c : UInt8) (s : Bytes) : skipByte c ([c] ++ s) = some s := reLit_append [c] s

theorem monthDays_eq (t : Moment) (h : 1 ≤ t.day ∧ t.day ≤ monthDays t.year t.month) :
    1 ≤ t.month ∧ t.month ≤ 12 ∧ monthDays t.year t.month = daysIn t.month t.year := by
  obtain ⟨y, mo, d, _, _, _, _⟩ := t
  simp only at h ⊢
  unfold monthDays at h ⊢
  split at h <;> first
    | (refine ⟨by decide, by decide, ?_⟩; rfl)
    | skip
  · refine ⟨by decide, by decide, ?_⟩
    simp only [daysIn, if_true]
    split <;> split <;> (try split) <;> (try split) <;> first | rfl | omega
  · omega

theorem daysIn_le (m y : Nat) : daysIn m y ≤ 31 := by
  unfold daysIn; repeat' split
  all_goals omega

theorem getDay_text {t : Moment} (h : t.Valid) (s : Bytes) : getDay (dayText t ++ s) = some ((t.year, t.month, t.day), s) := by
  obtain ⟨h1, h2, h3⟩ := monthDays_eq t h.day
  have h4 := daysIn_le t.month t.year
  have h5 := h.day
  unfold getDay dayText
  simp only [List.append_assoc]
  rw [getYear_pad _ h.year]
  simp only [Option.bind_some, lit_byte]
  rw [getnum_two _ _ (by omega)]
  simp only [Option.bind_some]
  rw [if_neg (by omega), lit_byte]
  simp only [Option.bind_some]
  rw [getnum_two _ _ (by omega)]
  rfl

theorem getClock_text {t : Moment} (h : t.Valid) (s : Bytes) :
    getClock (clockText t ++ s) = some ((t.hour, t.min, t.sec), skipFraction s) := by
  have h1 := h.hour
  have h2 := h.min
  have h3 := h.sec
  unfold getClock clockText
  simp only [List.append_assoc]
  rw [getnum_two _ _ (by omega)]
  simp only [Option.bind_some]
  rw [if_neg (by omega), lit_byte]
  simp only [Option.bind_some]
  rw [getnum_two _ _ (by omega)]
  simp only [Option.bind_some]
  rw [if_neg (by omega), lit_byte]
  simp only [Option.bind_some]
  rw [getnum_two _ _ (by omega)]
  simp only [Option.bind_some]
  rw [if_neg (by omega)]

theorem getZone_text (a : Int) (h : a.natAbs < 24 * 60) : getZone (isoZone a) = some (a * 60, []) := by
  obtain ⟨x1, x2, e1, d1, d2, v1⟩ := two_digits (a.natAbs / 60) (by omega)
  obtain ⟨y1, y2, e2, d3, d4, v2⟩ := two_digits (a.natAbs % 60) (by omega)
  have g1 : getnum true [x1, x2] = some (a.natAbs / 60, []) := by
    have := getnum_two true (a.natAbs / 60) (by omega) []
    rwa [e1] at this
  have g2 : getnum true [y1, y2] = some (a.natAbs % 60, []) := by
    have := getnum_two true (a.natAbs % 60) (by omega) []
    rwa [e2] at this
  unfold isoZone
  rw [e1, e2]
  by_cases ha : a < 0
  · rw [if_pos ha]
    show getZone [45, x1, x2, 58, y1, y2] = _
    rw [getZone]
    · simp only [g1, Option.bind_some, g2]
      rw [if_neg (by omega), if_neg (by decide), if_pos trivial]
      simp only [Option.some.injEq, Prod.mk.injEq, and_true]
      omega
    · intro x; exact absurd x (by decide)
  · rw [if_neg ha]
    show getZone [43, x1, x2, 58, y1, y2] = _
    rw [getZone]
    · simp only [g1, Option.bind_some, g2]
      rw [if_neg (by omega), if_pos trivial]
      simp only [Option.some.injEq, Prod.mk.injEq, and_true]
      omega
    · intro x; exact absurd x (by decide)

theorem endDate_ok {t : Moment} (h : t.Valid) (c : Nat × Nat × Nat) (off : Int) :
    endDate (t.year, t.month, t.day) c off [] = some ⟨t.year, t.month, t.day, c.1, c.2.1, c.2.2, off⟩ := by
  obtain ⟨h1, h2, h3⟩ := monthDays_eq t h.day
  have h5 := h.day
  unfold endDate
  rw [if_neg (by simp), if_neg (by simp only; omega)]

theorem fraction_zone (a : Int) : skipFraction (isoZone a) = isoZone a := by
  unfold isoZone
  split <;> cases hp : padDec 2 (a.natAbs / 60) <;> simp [skipFraction]

/-- Every accepted form is read as what it says. -/
theorem parseDate_says {s : Bytes} {t : Moment} (hs : Says s t) (h : t.Valid) :
    parseDate s = some ⟨t.year, t.month, t.day, t.hour, t.min, t.sec, t.ahead * 60⟩ := by
  have e84 : ∀ s, skipByte 84 (b!"T" ++ s) = some s := fun s => lit_byte 84 s
  cases hs with
  | zone _ =>
    unfold parseDate
    rw [List.append_assoc, List.append_assoc, getDay_text h]
    simp only [Option.bind_some, e84]
    rw [getClock_text h]
    simp only [Option.bind_some, fraction_zone]
    rw [getZone_text _ h.ahead]
    simp only [Option.bind_some, endDate_ok h, Option.some_or]
  | utc _ h0 =>
    unfold parseDate
    rw [List.append_assoc, List.append_assoc, getDay_text h]
    simp only [Option.bind_some, e84]
    rw [getClock_text h]
    simp only [Option.bind_some, show skipFraction b!"Z" = b!"Z" from rfl, show getZone b!"Z" = some (0, []) from rfl, endDate_ok h, Option.some_or, h0]
    rfl
  | noZone _ h0 =>
    unfold parseDate
    rw [List.append_assoc, getDay_text h]
    have := getClock_text h []
    rw [List.append_nil] at this
    simp only [Option.bind_some, e84, this, show skipFraction [] = [] from rfl, show getZone [] = none from rfl, Option.bind_none, Option.none_or,
      endDate_ok h, Option.some_or, h0]
    rfl
  | space _ h0 =>
    unfold parseDate
    rw [List.append_assoc, getDay_text h]
    have := getClock_text h []
    rw [List.append_nil] at this
    have e1 : skipByte 84 (b!" " ++ clockText t) = none := reLit_ne (by decide)
    have e2 : skipSpaces (b!" " ++ clockText t) = some (clockText t) := by
      obtain ⟨x1, x2, e1, d1, d2, v1⟩ := two_digits t.hour (by have := h.hour; omega)
      unfold clockText
      rw [e1]
      have : x1 ≠ 32 := by rintro rfl; revert d1; decide
      simp [skipSpaces, this]
    simp only [Option.bind_some, e1, e2, this, show skipFraction [] = [] from rfl, Option.bind_none, Option.none_or, endDate_ok h, Option.some_or, h0]
    rfl
  | day _ h0 h1 h2 h3 =>
    unfold parseDate
    have := getDay_text h []
    rw [List.append_nil] at this
    rw [this]
    simp only [Option.bind_some, show skipByte 84 [] = none from rfl, show skipSpaces [] = some [] from rfl, show getClock [] = none from rfl,
      Option.bind_none, Option.none_or, endDate_ok h, h0, h1, h2, h3]
    rfl

theorem pad2_nat (n : Nat) : pad2 (n : Int) = padDec 2 n := by
  unfold pad2
  rw [if_neg (by omega), Int.natAbs_natCast]

theorem zone_read (a : Int) (h : a.natAbs < 24 * 60) (hneg : ¬ (-60 < a ∧ a < 0)) :
    zoneText (a * 60) = (if a < 0 then b!"-" else b!"+") ++ padDec 2 (a.natAbs / 60) ++ b!"'" ++ padDec 2 (a.natAbs % 60) := by
  obtain ⟨n, hn⟩ : ∃ n : Nat, n = a.natAbs := ⟨_, rfl⟩
  by_cases ha : a < 0
  · have e1 : a = -(n : Int) := by omega
    have e2 : (-(n : Int) * 60).tdiv 3600 = -((n / 60 : Nat) : Int) := by
      rw [show -(n : Int) * 60 = -(((n * 60 : Nat)) : Int) by omega, Int.neg_tdiv, Int.tdiv_eq_ediv_of_nonneg (by omega)]
      omega
    have e3 : ((-(n : Int) * 60).tmod 3600).tdiv 60 = -((n % 60 : Nat) : Int) := by
      rw [show -(n : Int) * 60 = -(((n * 60 : Nat)) : Int) by omega, Int.neg_tmod, Int.tmod_eq_emod_of_nonneg (by omega), Int.neg_tdiv,
        Int.tdiv_eq_ediv_of_nonneg (by omega)]
      omega
    unfold zoneText
    simp only
    rw [if_pos ha, e1, e2, e3, if_neg (by omega), Int.neg_neg, Int.neg_neg, pad2_nat, pad2_nat, Int.natAbs_neg, Int.natAbs_natCast]
  · have e1 : a = (n : Int) := by omega
    have e2 : ((n : Int) * 60).tdiv 3600 = ((n / 60 : Nat) : Int) := by
      rw [Int.tdiv_eq_ediv_of_nonneg (by omega)]; omega
    have e3 : (((n : Int) * 60).tmod 3600).tdiv 60 = ((n % 60 : Nat) : Int) := by
      rw [Int.tmod_eq_emod_of_nonneg (by omega), Int.tdiv_eq_ediv_of_nonneg (by omega)]; omega
    unfold zoneText
    simp only
    rw [if_neg ha, e1, e2, e3, if_pos (by omega), pad2_nat, pad2_nat, Int.natAbs_natCast]

theorem dateText_read {t : Moment} (h : t.Valid) (hneg : ¬ (-60 < t.ahead ∧ t.ahead < 0)) :
    readPdfDate (dateText ⟨t.year, t.month, t.day, t.hour, t.min, t.sec, t.ahead * 60⟩) = some t := by
  obtain ⟨h1, h2, h3⟩ := monthDays_eq t h.day
  have h4 := daysIn_le t.month t.year
  have h5 := h.day
  have hh := h.hour
  have hm := h.min
  have hs := h.sec
  have ha := h.ahead
  unfold dateText
  simp only
  rw [zone_read _ ha hneg]
  simp only [List.append_assoc]
  show readPdfDate (68 :: 58 :: (padDec 4 t.year ++ _)) = _
  rw [readPdfDate]
  rw [number_pad 4 _ (by decide) (by have := h.year; omega)]
  simp only [Option.bind_some]
  rw [number_pad 2 _ (by decide) (by omega)]
  simp only [Option.bind_some]
  rw [number_pad 2 _ (by decide) (by omega)]
  simp only [Option.bind_some]
  rw [number_pad 2 _ (by decide) (by omega)]
  simp only [Option.bind_some]
  rw [number_pad 2 _ (by decide) (by omega)]
  simp only [Option.bind_some]
  rw [number_pad 2 _ (by decide) (by omega)]
  simp only [Option.bind_some]
  obtain ⟨o, ho, ho2⟩ : ∃ o : UInt8, (if t.ahead < 0 then b!"-" else b!"+") = [o] ∧ ((o = 45 ∧ t.ahead < 0) ∨ (o = 43 ∧ ¬ t.ahead < 0)) := by
    by_cases h : t.ahead < 0
    · exact ⟨45, by rw [if_pos h], Or.inl ⟨rfl, h⟩⟩
    · exact ⟨43, by rw [if_neg h], Or.inr ⟨rfl, h⟩⟩
  rw [ho]
  simp only [List.cons_append, List.nil_append]
  rw [if_pos (by rcases ho2 with h | h; exact Or.inr h.1; exact Or.inl h.1), number_pad 2 _ (by decide) (by omega)]
  simp only [Option.bind_some]
  have := number_pad 2 (t.ahead.natAbs % 60) (by decide) (by omega) []
  rw [List.append_nil] at this
  rw [this]
  simp only [Option.bind_some]
  rw [if_pos ⟨by simp, by omega, by omega⟩]
  congr 1
  obtain ⟨y, mo, d, hh, mm, ss, ah⟩ := t
  simp only [Moment.mk.injEq, true_and]
  simp only at ho2
  rcases ho2 with ⟨rfl, h⟩ | ⟨rfl, h⟩
  · rw [if_pos rfl]; omega
  · rw [if_neg (by decide)]; omega

theorem dateText_chars (t : DateTime) : ∀ c ∈ dateText t, escByte c = [c] := by
  have hd : ∀ c : UInt8, (isDigit c = true → escByte c = [c]) := forall_byte (by decide +kernel)
  have pd : ∀ k n, ∀ c ∈ padDec k n, escByte c = [c] := fun k n c hc => hd c (padDec_digits k n c hc)
  have p2 : ∀ n, ∀ c ∈ pad2 n, escByte c = [c] := by
    intro n c hc
    unfold pad2 at hc
    split at hc
    · rcases List.mem_append.1 hc with h | h
      · simp at h; subst h; rfl
      · exact pd _ _ c h
    · exact pd _ _ c hc
  have hz : ∀ c ∈ zoneText t.offset, escByte c = [c] := by
    intro c hc
    unfold zoneText at hc
    simp only at hc
    split at hc <;> simp only [List.mem_append, List.mem_cons, List.not_mem_nil, or_false] at hc <;>
      rcases hc with ((rfl | h) | rfl) | h <;> first | rfl | exact p2 _ c h
  intro c hc
  unfold dateText at hc
  simp only [List.mem_append] at hc
  rcases hc with ((((((h | h) | h) | h) | h) | h) | h) | h
  · simp at h; rcases h with rfl | rfl <;> rfl
  all_goals first | exact pd _ _ c h | exact hz c h

theorem escape_date (t : DateTime) : escapeMeta (dateText t) = dateText t := by
  rw [escapeMeta_eq]
  have : ∀ l : Bytes, (∀ c ∈ l, escByte c = [c]) → l.flatMap escByte = l := by
    intro l hl
    induction l with
    | nil => rfl
    | cons c l ih => rw [List.flatMap_cons, hl c (by simp), ih (fun x hx => hl x (by simp [hx]))]; rfl
  exact this _ (dateText_chars t)

/-- C153 (partial: not for zones between -01:00 and UTC, `C153_zone_violated`): a date in one of the accepted ISO 8601 forms is stored as a PDF date
that says the same moment, in the same zone, whatever the time of the day the document is made. -/
theorem C153_date_partial (now : DateTime) (s : Bytes) (t : Moment) (hs : Says s t) (h : t.Valid) (hneg : ¬ (-60 < t.ahead ∧ t.ahead < 0)) :
    readPdfDate (formatPDFDate (normDate now) s) = some t := by
  have hd : s ≠ [] ∧ (b!"D:").isPrefixOf s = false := by
    have : ∃ y m r, padDec 4 t.year = y :: m ∧ isDigit y = true ∧ s = y :: r := by
      cases hp : padDec 4 t.year with
      | nil => exact absurd hp (padDec_ne_nil _ _)
      | cons y m =>
        have hy := padDec_digits 4 t.year y (by rw [hp]; simp)
        refine ⟨y, m, s.tail, rfl, hy, ?_⟩
        cases hs <;> simp [dayText, hp]
    obtain ⟨y, m, r, _, hy, e⟩ := this
    rw [e]
    refine ⟨by simp, ?_⟩
    have : y ≠ 68 := by rintro rfl; revert hy; decide
    simp [List.isPrefixOf, this.symm]
  unfold formatPDFDate
  rw [if_neg hd.1, if_neg (by rw [hd.2]; decide)]
  unfold normDate
  rw [parseDate_says hs h, Option.getD_some, escape_date]
  exact dateText_read h hneg

/-- A moment for the examples: 29 February 2024, 23:05:09 in a zone that is 5 hours 30 minutes ahead. -/
def leapDay : Moment := ⟨2024, 2, 29, 23, 5, 9, 330⟩

/-- Some current time. -/
def someNow : DateTime := ⟨2026, 1, 2, 3, 4, 5, 3600⟩

example : leapDay.Valid := ⟨by decide, by decide, by decide, by decide, by decide, by decide⟩
example : Says b!"2024-02-29T23:05:09+05:30" leapDay := .zone leapDay
example : formatPDFDate (normDate someNow) b!"2024-02-29T23:05:09+05:30" = b!"D:20240229230509+05'30" ∧
    formatPDFDate (normDate someNow) b!"2024-02-29" = b!"D:20240229000000+00'00" ∧
    formatPDFDate (normDate someNow) b!"2024-02-29  7:05:09" = b!"D:20240229070509+00'00" ∧
    formatPDFDate (normDate someNow) b!"2024-02-29T23:05:09.25-03:00" = b!"D:20240229230509-03'00" := by decide +kernel

/-- C153 is violated for zones less than an hour behind UTC: the minutes get a sign of their own, and no reader understands the date. -/
theorem C153_zone_violated :
    let t : Moment := ⟨2024, 2, 29, 23, 5, 9, -30⟩
    Says b!"2024-02-29T23:05:09-00:30" t ∧ formatPDFDate (normDate someNow) b!"2024-02-29T23:05:09-00:30" = b!"D:20240229230509+00'-30" ∧
    readPdfDate b!"D:20240229230509+00'-30" = none := by
  refine ⟨?_, by decide +kernel, by decide +kernel⟩
  exact .zone ⟨2024, 2, 29, 23, 5, 9, -30⟩

/-- C153: a date the library cannot read is not refused: the current time is stored instead. -/
theorem C153_now_violated (now : DateTime) (s : Bytes) (h : parseDate s = none) (h0 : s ≠ []) (hd : (b!"D:").isPrefixOf s = false) :
    formatPDFDate (normDate now) s = dateText now := by
  unfold formatPDFDate
  rw [if_neg h0, if_neg (by rw [hd]; decide)]
  unfold normDate
  rw [h, Option.getD_none, escape_date]

example : parseDate b!"2023-02-29" = none ∧ parseDate b!"29.02.2024" = none ∧ parseDate b!"2024-02-29T24:00:00Z" = none := by decide +kernel

/-! ### C154 -/

/-- The standard fields of metadata, in the order of `spellings`. -/
def standardFields (m : Strings.Metadata) : List Bytes :=
  [m.title, m.author, m.subject, m.keywords, m.creator, m.producer, m.creationDate, m.modDate]

theorem lowered_eq (s : Bytes) : lower s = lowered s := by
  unfold lower lowered
  apply List.map_congr_left
  intro c _
  simp [Bool.and_eq_true]

theorem lastValue_snoc (p : Bytes → Bool) (l : List (Bytes × Bytes)) (e : Bytes × Bytes) :
    lastValue p (l ++ [e]) = if p e.1 then some e.2 else lastValue p l := by
  unfold lastValue
  rw [List.filter_append]
  by_cases h : p e.1
  · simp [h]
  · simp [h]

/-- Whether a key is a spelling of the `i`-th standard field. -/
def isField (i : Nat) (k : Bytes) : Bool := (spellings.getD i []).contains (lowered k)

/-- Whether a key is a spelling of some standard field. -/
def isStandard (k : Bytes) : Bool := (List.range 8).any fun i => isField i k

theorem isStandard_iff (k : Bytes) : isStandard k = true ↔ ∃ i, i < 8 ∧ isField i k = true := by
  simp [isStandard, List.any_eq_true]

theorem putField_cases (m : Strings.Metadata) (k v : Bytes) :
    (∃ i, i < 8 ∧ isField i k = true ∧ (∀ j, j < 8 → j ≠ i → isField j k = false) ∧ standardFields (putField m k v) = (standardFields m).set i v ∧
      (putField m k v).custom = m.custom) ∨
    ((∀ i, i < 8 → isField i k = false) ∧ standardFields (putField m k v) = standardFields m ∧ (putField m k v).custom = m.custom.set k v) := by
  unfold putField
  simp only [lowered_eq]
  generalize hl : lowered k = l
  have hf : ∀ i, isField i k = (spellings.getD i []).contains l := fun i => by unfold isField; rw [hl]
  simp only [hf]
  by_cases h0 : l = b!"title"
  · rw [if_pos h0]; subst h0; left; exact ⟨0, by decide, by decide, by decide, rfl, rfl⟩
  by_cases h1 : l = b!"author"
  · rw [if_neg h0, if_pos h1]; subst h1; left; exact ⟨1, by decide, by decide, by decide, rfl, rfl⟩
  by_cases h2 : l = b!"subject"
  · rw [if_neg h0, if_neg h1, if_pos h2]; subst h2; left; exact ⟨2, by decide, by decide, by decide, rfl, rfl⟩
  by_cases h3 : l = b!"keywords"
  · rw [if_neg h0, if_neg h1, if_neg h2, if_pos h3]; subst h3; left; exact ⟨3, by decide, by decide, by decide, rfl, rfl⟩
  by_cases h4 : l = b!"creator"
  · rw [if_neg h0, if_neg h1, if_neg h2, if_neg h3, if_pos h4]; subst h4; left; exact ⟨4, by decide, by decide, by decide, rfl, rfl⟩
  by_cases h5 : l = b!"producer"
  · rw [if_neg h0, if_neg h1, if_neg h2, if_neg h3, if_neg h4, if_pos h5]; subst h5; left; exact ⟨5, by decide, by decide, by decide, rfl, rfl⟩
  by_cases h6 : l = b!"creationdate" ∨ l = b!"creation_date"
  · rw [if_neg h0, if_neg h1, if_neg h2, if_neg h3, if_neg h4, if_neg h5, if_pos h6]
    left; rcases h6 with h6 | h6 <;> subst h6 <;> exact ⟨6, by decide, by decide, by decide, rfl, rfl⟩
  by_cases h7 : l = b!"moddate" ∨ l = b!"mod_date"
  · rw [if_neg h0, if_neg h1, if_neg h2, if_neg h3, if_neg h4, if_neg h5, if_neg h6, if_pos h7]
    left; rcases h7 with h7 | h7 <;> subst h7 <;> exact ⟨7, by decide, by decide, by decide, rfl, rfl⟩
  · rw [if_neg h0, if_neg h1, if_neg h2, if_neg h3, if_neg h4, if_neg h5, if_neg h6, if_neg h7]
    right
    refine ⟨?_, rfl, rfl⟩
    intro i hi
    simp only [not_or] at h6 h7
    match i, hi with
    | 0, _ => simpa [spellings] using h0
    | 1, _ => simpa [spellings] using h1
    | 2, _ => simpa [spellings] using h2
    | 3, _ => simpa [spellings] using h3
    | 4, _ => simpa [spellings] using h4
    | 5, _ => simpa [spellings] using h5
    | 6, _ => simpa [spellings] using h6
    | 7, _ => simpa [spellings] using h7

theorem fromFields_snoc (l : List (Bytes × Bytes)) (e : Bytes × Bytes) : fromFields (l ++ [e]) = putField (fromFields l) e.1 e.2 := by
  simp [fromFields]

/-- C154: each standard field gets the value of the last entry whose key is one of its spellings, in any case; every other entry is a custom field
under its own key. -/
theorem C154_last (fields : List (Bytes × Bytes)) :
    (∀ i, i < 8 → (standardFields (fromFields fields)).getD i [] = (lastValue (isField i) fields).getD []) ∧
    (∀ k, (fromFields fields).custom.get k = if isStandard k then none else lastValue (· == k) fields) := by
  induction fields using snoc_induction with
  | nil =>
    refine ⟨?_, ?_⟩
    · intro i hi
      match i, hi with
      | 0, _ | 1, _ | 2, _ | 3, _ | 4, _ | 5, _ | 6, _ | 7, _ => rfl
    · intro k; split <;> rfl
  | snoc l e ih =>
    rw [fromFields_snoc]
    have hlen : (standardFields (fromFields l)).length = 8 := rfl
    rcases putField_cases (fromFields l) e.1 e.2 with ⟨i, hi, h1, h2, h3, h4⟩ | ⟨h1, h2, h3⟩
    · refine ⟨?_, ?_⟩
      · intro j hj
        rw [h3, lastValue_snoc]
        by_cases hji : j = i
        · subst hji
          rw [if_pos h1]
          simp [List.getD_eq_getElem?_getD, List.getElem?_set, hlen, hj]
        · rw [h2 j hj hji, if_neg (by decide), ← ih.1 j hj]
          simp [List.getD_eq_getElem?_getD, List.getElem?_set, Ne.symm hji]
      · intro k
        rw [h4, ih.2 k, lastValue_snoc]
        split
        · rfl
        · rename_i hk
          rw [if_neg]
          intro he
          simp only [beq_iff_eq] at he
          exact hk ((isStandard_iff k).2 ⟨i, hi, by rw [← he]; exact h1⟩)
    · refine ⟨?_, ?_⟩
      · intro j hj
        rw [h2, lastValue_snoc, h1 j hj, if_neg (by decide)]
        exact ih.1 j hj
      · intro k
        rw [h3, lastValue_snoc]
        by_cases hk : e.1 = k
        · subst hk
          rw [Map.get_set_eq, if_neg, if_pos (by simp)]
          intro h
          obtain ⟨i, hi, h⟩ := (isStandard_iff _).1 h
          rw [h1 i hi] at h
          cases h
        · rw [Map.get_set_ne _ _ (fun h => hk h.symm), ih.2 k, if_neg (c := (e.1 == k) = true) (by simpa using hk)]

/-- C154 (partial: no two keys name the same field, see `C154_order_violated`): the metadata are the same in whatever order Go walks the map. -/
theorem C154_order_partial (fields fields' : List (Bytes × Bytes)) (hp : fields.Perm fields')
    (hd : fields.Pairwise fun a b => ¬ SameField a.1 b.1) :
    standardFields (fromFields fields) = standardFields (fromFields fields') ∧
    ∀ k, (fromFields fields).custom.get k = (fromFields fields').custom.get k := by
  have key : ∀ p : Bytes → Bool, (∀ a b, p a = true → p b = true → SameField a b) → lastValue p fields = lastValue p fields' := by
    intro p hpp
    unfold lastValue
    have h1 := hp.filter (fun e => p e.1)
    have h2 : (fields.filter fun e => p e.1).length ≤ 1 := by
      have h3 := hd.filter (fun e => p e.1)
      cases hf : fields.filter fun e => p e.1 with
      | nil => simp
      | cons a r =>
        cases r with
        | nil => simp
        | cons b r =>
          exfalso
          rw [hf] at h3
          have ha : a ∈ fields.filter fun e => p e.1 := by rw [hf]; simp
          have hb : b ∈ fields.filter fun e => p e.1 := by rw [hf]; simp
          have := (List.pairwise_cons.1 h3).1 b (by simp)
          exact this (hpp _ _ (List.mem_filter.1 ha).2 (List.mem_filter.1 hb).2)
    cases hf : fields.filter fun e => p e.1 with
    | nil => rw [hf] at h1; rw [List.nil_perm.1 h1]
    | cons a r =>
      cases r with
      | cons b r => rw [hf] at h2; simp at h2
      | nil => rw [hf] at h1; rw [List.singleton_perm.1 h1]
  obtain ⟨a1, a2⟩ := C154_last fields
  obtain ⟨b1, b2⟩ := C154_last fields'
  refine ⟨?_, ?_⟩
  · apply List.ext_getElem (by rfl)
    intro i hi hi'
    have hi8 : i < 8 := hi
    have := a1 i hi8
    rw [key (isField i), ← b1 i hi8] at this
    · rw [List.getD_eq_getElem?_getD, List.getD_eq_getElem?_getD, List.getElem?_eq_getElem hi, List.getElem?_eq_getElem hi'] at this
      exact this
    · intro a b ha hb
      right
      unfold isField at ha hb
      have hl : i < spellings.length := hi8
      rw [List.getD_eq_getElem?_getD, List.getElem?_eq_getElem hl, Option.getD_some] at ha hb
      exact ⟨spellings[i], List.getElem_mem hl, by simpa using ha, by simpa using hb⟩
  · intro k
    rw [a2 k, b2 k, key (· == k)]
    intro a b ha hb
    left
    simp only [beq_iff_eq] at ha hb
    rw [ha, hb]

example : fromFields [(b!"TITLE", b!"a"), (b!"creation_Date", b!"b"), (b!"Foo", b!"c")] =
    { title := b!"a", creationDate := b!"b", custom := [(b!"Foo", b!"c")] } := by rfl
example : ([(b!"TITLE", b!"a"), (b!"creation_Date", b!"b"), (b!"Foo", b!"c")] : List (Bytes × Bytes)).Pairwise fun a b => ¬ SameField a.1 b.1 := by
  unfold SameField; decide +kernel

/-- C154 is violated: the map with the keys Title and title gives one title or the other, depending on the order in which Go walks it, which is
random. -/
theorem C154_order_violated : (fromFields [(b!"Title", b!"a"), (b!"title", b!"b")]).title = b!"b" ∧
    (fromFields [(b!"title", b!"b"), (b!"Title", b!"a")]).title = b!"a" := by decide +kernel

/-! ### C152: metadata written and read back -/

/-- Calls that leave the object `n` and the choice of the Info dictionary alone. -/
def LeavesInfo (n : Int) : Writer.Op → Prop
  | .addObject _ => True
  | .addStream _ _ _ => True
  | .setObject m _ => m ≠ n
  | .setStream m _ _ _ => m ≠ n
  | .setRoot _ => True
  | .setVersion _ => True
  | _ => False

theorem leaves_step (env : Writer.Env) (w : Writer.Writer) (n : Int) (op : Writer.Op) (h : LeavesInfo n op) (hn : n < w.nextObjNum) :
    (Writer.step env w op).1.objects.get n = w.objects.get n ∧ (Writer.step env w op).1.infoRef = w.infoRef := by
  cases op with
  | addObject c =>
    simp only [Writer.step, Writer.addObject]
    exact ⟨by rw [Map.get_set, if_neg (by omega)], trivial⟩
  | addStream d data compress =>
    simp only [Writer.step, Writer.addStreamObject]
    exact ⟨by rw [Map.get_set, if_neg (by omega)], trivial⟩
  | setObject m c =>
    simp only [Writer.step, Writer.setObject]
    exact ⟨by rw [Map.get_set, if_neg (fun e => h e.symm)], trivial⟩
  | setStream m d data compress =>
    simp only [Writer.step, Writer.setStreamObject]
    exact ⟨by rw [Map.get_set, if_neg (fun e => h e.symm)], trivial⟩
  | setRoot m => exact ⟨rfl, rfl⟩
  | setVersion v => exact ⟨rfl, rfl⟩
  | _ => exact absurd h (by simp [LeavesInfo])

theorem leaves_run (env : Writer.Env) (n : Int) (ops : List Writer.Op) (h : ∀ op ∈ ops, LeavesInfo n op) (w : Writer.Writer) (hn : n < w.nextObjNum) :
    (ops.foldl (fun w op => (Writer.step env w op).1) w).objects.get n = w.objects.get n ∧
      (ops.foldl (fun w op => (Writer.step env w op).1) w).infoRef = w.infoRef := by
  induction ops generalizing w with
  | nil => exact ⟨rfl, rfl⟩
  | cons op ops ih =>
    have h1 := leaves_step env w n op (h op (by simp)) hn
    have h2 := ih (fun o ho => h o (by simp [ho])) (Writer.step env w op).1 (by have := Writer.next_mono env w op; omega)
    exact ⟨h2.1.trans h1.1, h2.2.trans h1.2⟩

theorem says_digit {s : Bytes} {t : Moment} (hs : Says s t) : s ≠ [] ∧ (b!"D:").isPrefixOf s = false := by
  have : ∃ y m r, padDec 4 t.year = y :: m ∧ isDigit y = true ∧ s = y :: r := by
    cases hp : padDec 4 t.year with
    | nil => exact absurd hp (padDec_ne_nil _ _)
    | cons y m =>
      have hy := padDec_digits 4 t.year y (by rw [hp]; simp)
      refine ⟨y, m, s.tail, rfl, hy, ?_⟩
      cases hs <;> simp [dayText, hp]
  obtain ⟨y, m, r, _, hy, e⟩ := this
  rw [e]
  refine ⟨by simp, ?_⟩
  have : y ≠ 68 := by rintro rfl; revert hy; decide
  simp [List.isPrefixOf, this.symm]

theorem stored_iso (now : DateTime) {s : Bytes} {t : Moment} (hs : Says s t) (h : t.Valid) (hneg : ¬ (-60 < t.ahead ∧ t.ahead < 0)) :
    readPdfDate (storedDate now s) = some t := by
  unfold storedDate
  rw [if_neg (by rw [(says_digit hs).2]; decide)]
  unfold normDate
  rw [parseDate_says hs h, Option.getD_some]
  exact dateText_read h hneg

theorem dateOk_of {d : Bytes} (h : PlainDate d) : DateOk d := by
  intro hd c hc
  have := h hd c hc
  simp only [dateChar, decide_eq_true_eq]
  exact this

theorem plainMeta_of {nowText : Bytes} {m : Strings.Metadata} (h : PlainMetadata m) {t : Moment} (hnow : Says nowText t) : PlainMeta nowText m := by
  have pt : ∀ {v : Bytes}, Plain v → PlainText v := fun h => ⟨h.close, h.esc, h.slash, h.ref⟩
  refine ⟨fun v hv => pt (h.texts v hv), ⟨dateOk_of h.dates.1, dateOk_of h.dates.2⟩, ⟨fun hd => ?_, (says_digit hnow).1⟩, fun e he => ?_, h.once,
    fun e he => ⟨pt (h.custom e he).2.1, (h.custom e he).2.2⟩⟩
  · rw [(says_digit hnow).2] at hd; exact absurd hd (by decide)
  · obtain ⟨⟨h1, h2, h3⟩, _⟩ := h.custom e he
    refine ⟨h1, fun c hc => ?_, h3⟩
    have : ∀ c : UInt8, ((65 ≤ c ∧ c ≤ 90) ∨ (97 ≤ c ∧ c ≤ 122) ∨ (48 ≤ c ∧ c ≤ 57) ∨ c = 95) → isWord c = true := by
      apply forall_byte; decide +kernel
    exact this c (h2 c hc)

theorem header_version (v rest : Bytes) (h : ∀ c ∈ v, c ≠ 10 ∧ c ≠ 13) (hl : v.length ≤ 15) (hr : 2 ≤ v.length + rest.length) :
    ∃ h, Document.parseHeader (b!"%PDF-" ++ v ++ b!"\n" ++ rest) = some h ∧ h.version = v := by
  have h1 : ¬ ((b!"%PDF-" ++ v ++ b!"\n" ++ rest).length < 8 ∨ !(b!"%PDF-").isPrefixOf (b!"%PDF-" ++ v ++ b!"\n" ++ rest)) := by
    rw [not_or]
    refine ⟨by simp; omega, ?_⟩
    have : (b!"%PDF-").isPrefixOf (b!"%PDF-" ++ v ++ b!"\n" ++ rest) = true := by
      rw [List.isPrefixOf_iff_prefix, List.append_assoc, List.append_assoc]; exact List.prefix_append _ _
    rw [this]; decide
  unfold Document.parseHeader
  rw [if_neg h1]
  refine ⟨_, rfl, ?_⟩
  show ((b!"%PDF-" ++ v ++ b!"\n" ++ rest).take 20 |>.drop 5).takeWhile (fun c => !Incremental.isEol c) = v
  have e : (((b!"%PDF-" ++ v ++ b!"\n" ++ rest).take 20).drop 5) = (v ++ 10 :: rest).take 15 := by
    rw [List.drop_take]
    simp
  rw [e, List.take_append, List.take_of_length_le hl]
  have hv : ∀ c ∈ v, (fun c => !Incremental.isEol c) c = true := by
    intro c hc
    simp [Incremental.isEol, (h c hc).1, (h c hc).2]
  rw [List.takeWhile_append_of_pos hv]
  cases 15 - v.length with
  | zero => simp
  | succ k => simp [Incremental.isEol]

/-- C152: `SetMetadata` and later calls that do not touch it, the file written and opened: `ExtractMetadata` returns the texts and the custom fields
that were given, the dates as the PDF dates that say the same, as the date of the last change the current time if none was given, the version
of the file and that it is not encrypted – for every history of calls before and after, and for every plain metadata.

Partial: values with closing parentheses, custom names with other characters, files with cross-reference streams and encrypted files are not
covered, and the number of pages is wrong (`C152_pages_violated`). -/
theorem C152_roundtrip_partial (wenv : Writer.Env) (now : DateTime) (nowText : Bytes) (tnow : Moment) (hnow : Says nowText tnow) (hv : tnow.Valid)
    (hz : ¬ (-60 < tnow.ahead ∧ tnow.ahead < 0)) (before after : List Writer.Op) (m : Strings.Metadata) (hm : PlainMetadata m)
    (w : Writer.Writer) (hw : w = after.foldl (fun w op => (Writer.step wenv w op).1) (setMetadata now nowText (Writer.run wenv before) m).1)
    (hafter : ∀ op ∈ after, LeavesInfo (setMetadata now nowText (Writer.run wenv before) m).2 op)
    (hfit : Spec.FileFits wenv w)
    (hdel : ∀ t, Writer.getObject w (setMetadata now nowText (Writer.run wenv before) m).2 = some t → Spec.Delimitable t)
    (hver : (∀ c ∈ w.pdfVersion, c ≠ 10 ∧ c ≠ 13) ∧ w.pdfVersion.length ≤ 15)
    (env : Incremental.Env) (henc : env.handleEncryption (Writer.write wenv w).1 = some none) :
    ∃ pdf x, Incremental.openPdf env (Writer.write wenv w).1 = .ok pdf ∧ extractMetadata env pdf = .ok x ∧
      x.info.title = m.title ∧ x.info.author = m.author ∧ x.info.subject = m.subject ∧ x.info.keywords = m.keywords ∧
      x.info.creator = m.creator ∧ x.info.producer = m.producer ∧ DateKept m.creationDate x.info.creationDate ∧
      (m.modDate ≠ [] → DateKept m.modDate x.info.modDate) ∧ (m.modDate = [] → readPdfDate x.info.modDate = some tnow) ∧
      (∀ k, x.info.custom.get k = m.custom.get k) ∧ x.version = w.pdfVersion ∧ x.encrypted = false := by
  have hpm := plainMeta_of hm hnow
  have hrun : w = Writer.run wenv (before ++ [.addObject (some (infoText (normDate now) nowText m)), .setInfo (Writer.run wenv before).nextObjNum] ++ after) := by
    rw [hw]
    simp only [Writer.run, List.foldl_append, List.foldl_cons, List.foldl_nil]
    rfl
  have hinv : Writer.Inv w := by rw [hrun]; exact Writer.inv_run _ _
  have hrefs : Incremental.RefOrNil w.rootRef ∧ Incremental.RefOrNil w.infoRef ∧ Incremental.RefOrNil w.encryptRef := by
    rw [hrun]; exact Incremental.refOrNil_run _ _
  have hpos := (Writer.inv_run wenv before).next_pos
  have hnum : (setMetadata now nowText (Writer.run wenv before) m).2 = (Writer.run wenv before).nextObjNum := rfl
  rw [hnum] at hafter hdel
  have hkeep := leaves_run wenv _ after hafter (setMetadata now nowText (Writer.run wenv before) m).1
    (by simp only [setMetadata, Writer.addObject]; omega)
  rw [← hw] at hkeep
  obtain ⟨N, hN⟩ : ∃ N : Nat, (Writer.run wenv before).nextObjNum = (N : Int) := ⟨_, (Int.toNat_of_nonneg (by omega)).symm⟩
  rw [hN] at hkeep hdel hpos
  have hobj : w.objects.get (N : Int) = some ⟨some (infoText (normDate now) nowText m), none, none⟩ := by
    rw [hkeep.1]
    simp only [setMetadata, Writer.addObject, hN]
    rw [Map.get_set_eq]
  have hinfo : w.infoRef = Writer.ref (N : Int) := by
    rw [hkeep.2]
    simp only [setMetadata, Writer.addObject, hN]
  obtain ⟨pdf, ⟨h1, h2, h3, h4⟩, _, _, h5⟩ := Incremental.open_writer_info wenv w hinv hrefs hfit env henc
  obtain ⟨c, k1, _, k3⟩ := h5 N _ (by omega) hobj
  have hc : c = infoText (normDate now) nowText m := by
    unfold Spec.BodyOf at k1
    simpa using k1
  subst hc
  have hget := k3 (hdel _ (by unfold Writer.getObject; rw [hobj]))
  have hlt : (N : Int) ≤ 9223372036854775807 := by
    have := hinv.lt_next N ((Map.get_isSome_iff _ _).1 (by rw [hobj]; rfl))
    have := hfit.next
    omega
  have hparse : Manipulate.parseObjectRef pdf.info = some (N : Int) := by
    rw [h4 N hinfo]
    exact Manipulate.parseObjectRef_refText N (by omega)
  have hpre : (47 : UInt8) ∉ itoa (N : Int) ++ b!" 0 obj\n" := by
    simp only [List.mem_append, not_or]
    exact ⟨Incremental.not_mem_itoa _ (by decide) (by decide), by decide⟩
  have rd := fun k v hkv => read_std (now := now) (nowText := nowText) hpm _ b!"\nendobj" hpre (by decide) (k := k) (v := v) hkv
  have rc := fun k => read_custom (now := now) (nowText := nowText) hpm _ b!"\nendobj" hpre (by decide) k
  refine ⟨pdf, _, h1, by unfold extractMetadata; rw [hparse]; simp only [hget]; rfl, ?_⟩
  simp only [parseInfo]
  refine ⟨rd _ _ (by simp [stdPairs]), rd _ _ (by simp [stdPairs]), rd _ _ (by simp [stdPairs]), rd _ _ (by simp [stdPairs]),
    rd _ _ (by simp [stdPairs]), rd _ _ (by simp [stdPairs]), ?_, ?_, ?_, rc, ?_, by rw [h2]; rfl⟩
  · have := rd b!"/CreationDate" (if m.creationDate = [] then [] else storedDate now m.creationDate) (by simp [stdPairs])
    rw [this]
    refine ⟨fun e => by rw [if_pos e], fun e => ?_, fun t ht hv hz => ?_⟩
    · rw [if_neg (by rintro h; rw [h] at e; exact absurd e (by decide))]
      unfold storedDate; rw [if_pos e]
    · rw [if_neg (says_digit ht).1]
      exact stored_iso now ht hv hz
  · intro hmd
    have := rd b!"/ModDate" (storedDate now (if m.modDate = [] then nowText else m.modDate)) (by simp [stdPairs])
    rw [this, if_neg hmd]
    refine ⟨fun e => absurd e hmd, fun e => by unfold storedDate; rw [if_pos e], fun t ht hv hz => stored_iso now ht hv hz⟩
  · intro hmd
    have := rd b!"/ModDate" (storedDate now (if m.modDate = [] then nowText else m.modDate)) (by simp [stdPairs])
    rw [this, if_pos hmd]
    exact stored_iso now hnow hv hz
  · rw [h3, Writer.write_table wenv w hfit.table hfit.plain]
    obtain ⟨h, e1, e2⟩ := header_version w.pdfVersion ([0x25, 0xE2, 0xE3, 0xCF, 0xD3, 0x0A] ++ ((Writer.tableBody wenv w).1 ++
      (Writer.xrefTable w.nextObjNum (Writer.tableBody wenv w).2.1 ++ (Writer.trailer w ++
        Writer.startxref ((Writer.header w.pdfVersion).length + (Writer.tableBody wenv w).1.length))))) hver.1 hver.2 (by simp; omega)
    unfold Writer.header
    unfold Writer.header at e1
    simp only [List.append_assoc] at e1 ⊢
    rw [e1]
    exact e2

/-- A document of one page. -/
def metaOps : List Writer.Op :=
  [.addObject (some b!"<</Type/Catalog/Pages 2 0 R>>"), .setRoot 1, .addObject (some b!"<</Type/Pages/Kids[3 0 R]/Count 1>>"),
   .addObject (some b!"<</Type/Page/Parent 2 0 R>>")]

/-- Metadata for the example, with an escaped character in the title. -/
def exMeta : Strings.Metadata :=
  { title := b!"A (b", author := b!"Ada", creationDate := b!"2024-02-29T23:05:09+05:30", custom := [(b!"Dept_7", b!"R&D")] }

/-- The writer after `SetMetadata` and two more calls. -/
def exMetaWriter : Writer.Writer :=
  ([.addObject (some b!"(later)"), .setVersion b!"1.4"] : List Writer.Op).foldl (fun w op => (Writer.step plainEnv w op).1)
    (setMetadata someNow b!"2026-01-02T03:04:05+01:00" (Writer.run plainEnv metaOps) exMeta).1

theorem exMeta_fits : Spec.FileFits plainEnv exMetaWriter where
  fair := plainEnv_fair
  table := by decide +kernel
  plain := by decide +kernel
  size := by decide +kernel
  next := by decide +kernel
  once := by
    generalize hf : (Writer.write plainEnv exMetaWriter).1 = F
    have key : ∀ i, i < F.length → F.length ≤ i + 106 → (b!"startxref").isPrefixOf (F.drop i) = true → i + 20 = F.length := by
      subst hf; decide +kernel
    intro i j hi1 hj1 hi hj
    have lt : ∀ i, Spec.OccursAt b!"startxref" F i → i < F.length := by
      intro i hi
      rw [Incremental.occursAt_iff (by decide)] at hi
      apply Classical.byContradiction; intro hn
      rw [List.drop_of_length_le (by omega)] at hi
      simp at hi
    have h1 := key i (lt i hi) hi1 (by rw [Incremental.occursAt_iff (by decide)] at hi; exact List.isPrefixOf_iff_prefix.2 hi)
    have h2 := key j (lt j hj) hj1 (by rw [Incremental.occursAt_iff (by decide)] at hj; exact List.isPrefixOf_iff_prefix.2 hj)
    omega
  window := by decide +kernel

theorem exMeta_plain : PlainMetadata exMeta := by
  have noEsc : ∀ v : Bytes, (92 : UInt8) ∉ v → ∀ u x w, v = u ++ 92 :: x :: w → x ≠ 110 ∧ x ≠ 114 ∧ x ≠ 116 :=
    fun v h u x w e => absurd (by rw [e]; simp) h
  have plain : ∀ v : Bytes, (41 : UInt8) ∉ v → (92 : UInt8) ∉ v → v.head? ≠ some 47 → ¬ b!" R" <:+ v → Plain v :=
    fun v h1 h2 h3 h4 => ⟨h1, noEsc v h2, h3, h4⟩
  refine ⟨?_, ⟨by unfold PlainDate; decide +kernel, by unfold PlainDate; decide +kernel⟩, ?_, by decide⟩
  · intro v hv
    have : (41 : UInt8) ∉ v ∧ (92 : UInt8) ∉ v ∧ v.head? ≠ some 47 ∧ ¬ b!" R" <:+ v := by
      revert v; decide
    exact plain v this.1 this.2.1 this.2.2.1 this.2.2.2
  · intro e he
    have hh : e = (b!"Dept_7", b!"R&D") := by simpa [exMeta] using he
    subst hh
    exact ⟨⟨by decide, by decide, by decide⟩, plain _ (by decide) (by decide) (by decide) (by decide), by decide⟩

example : ∃ pdf x, Incremental.openPdf readEnv (Writer.write plainEnv exMetaWriter).1 = .ok pdf ∧ extractMetadata readEnv pdf = .ok x ∧
    x.info.title = b!"A (b" ∧ DateKept b!"2024-02-29T23:05:09+05:30" x.info.creationDate ∧ x.info.custom.get b!"Dept_7" = some b!"R&D" ∧
    x.version = b!"1.4" := by
  obtain ⟨pdf, x, h1, h2, h3, _, _, _, _, _, h4, _, _, h5, h6, _⟩ := C152_roundtrip_partial plainEnv someNow b!"2026-01-02T03:04:05+01:00"
    ⟨2026, 1, 2, 3, 4, 5, 60⟩ (.zone ⟨2026, 1, 2, 3, 4, 5, 60⟩) ⟨by decide, by decide, by decide, by decide, by decide, by decide⟩ (by decide)
    metaOps _ exMeta exMeta_plain exMetaWriter rfl
    (by intro op hop; simp at hop; rcases hop with rfl | rfl <;> exact trivial)
    exMeta_fits
    (by
      intro t ht
      have : t = b!"<</Author (Ada) /CreationDate (D:20240229230509+05'30) /Dept_7 (R&D) /ModDate (D:20260102030405+01'00) /Title (A \\(b) >>" := by
        have : Writer.getObject exMetaWriter 4 = some b!"<</Author (Ada) /CreationDate (D:20240229230509+05'30) /Dept_7 (R&D) /ModDate (D:20260102030405+01'00) /Title (A \\(b) >>" := by
          decide +kernel
        exact Option.some.inj (ht.symm.trans this)
      subst this
      refine ⟨?_, by decide +kernel, .inl ?_⟩ <;> (rw [Incremental.absent_iff (by decide), noOcc_iff_index]; decide +kernel))
    (by decide +kernel) readEnv rfl
  exact ⟨pdf, x, h1, h2, h3, h4, (h5 _).trans (by decide), h6.trans (by decide +kernel)⟩

/-- C154: `SetMetadataFields` and later calls that do not touch it, the file written and opened: `ExtractMetadata` returns for each standard field the
value of the last entry whose key is a spelling of it (dates as PDF dates that say the same), and every other entry under its own key.

Partial: as C152, and of two keys that name one field the one Go walks last wins (`C154_order_violated`). -/
theorem C154_written_partial (wenv : Writer.Env) (now : DateTime) (nowText : Bytes) (tnow : Moment) (hnow : Says nowText tnow) (hv : tnow.Valid)
    (hz : ¬ (-60 < tnow.ahead ∧ tnow.ahead < 0)) (before after : List Writer.Op) (fields : List (Bytes × Bytes)) (hm : PlainMetadata (fromFields fields))
    (w : Writer.Writer) (hw : w = after.foldl (fun w op => (Writer.step wenv w op).1) (setMetadataFields now nowText (Writer.run wenv before) fields).1)
    (hafter : ∀ op ∈ after, LeavesInfo (setMetadataFields now nowText (Writer.run wenv before) fields).2 op)
    (hfit : Spec.FileFits wenv w)
    (hdel : ∀ t, Writer.getObject w (setMetadataFields now nowText (Writer.run wenv before) fields).2 = some t → Spec.Delimitable t)
    (hver : (∀ c ∈ w.pdfVersion, c ≠ 10 ∧ c ≠ 13) ∧ w.pdfVersion.length ≤ 15)
    (env : Incremental.Env) (henc : env.handleEncryption (Writer.write wenv w).1 = some none) :
    ∃ pdf x, Incremental.openPdf env (Writer.write wenv w).1 = .ok pdf ∧ extractMetadata env pdf = .ok x ∧
      (∀ i, i < 6 → (standardFields x.info).getD i [] = (lastValue (isField i) fields).getD []) ∧
      DateKept ((lastValue (isField 6) fields).getD []) x.info.creationDate ∧
      (∀ d, lastValue (isField 7) fields = some d → d ≠ [] → DateKept d x.info.modDate) ∧
      (∀ k, x.info.custom.get k = if isStandard k then none else lastValue (· == k) fields) := by
  obtain ⟨pdf, x, h1, h2, t1, t2, t3, t4, t5, t6, d1, d2, _, h3, _, _⟩ :=
    C152_roundtrip_partial wenv now nowText tnow hnow hv hz before after (fromFields fields) hm w hw hafter hfit hdel hver env henc
  obtain ⟨l1, l2⟩ := C154_last fields
  refine ⟨pdf, x, h1, h2, ?_, ?_, ?_, fun k => (h3 k).trans (l2 k)⟩
  · intro i hi
    rw [← l1 i (by omega)]
    match i, hi with
    | 0, _ => exact t1
    | 1, _ => exact t2
    | 2, _ => exact t3
    | 3, _ => exact t4
    | 4, _ => exact t5
    | 5, _ => exact t6
  · rw [← l1 6 (by omega)]; exact d1
  · intro d hd hne
    have := l1 7 (by omega)
    rw [hd] at this
    have e : (fromFields fields).modDate = d := this
    rw [← e]
    exact d2 (by rw [e]; exact hne)

/-- The hypotheses can be met: the fields of `exMeta` from a map, in three spellings. -/
example : ∃ pdf x, Incremental.openPdf readEnv (Writer.write plainEnv exMetaWriter).1 = .ok pdf ∧ extractMetadata readEnv pdf = .ok x ∧
    x.info.title = b!"A (b" ∧ x.info.custom.get b!"Dept_7" = some b!"R&D" := by
  have hf : fromFields [(b!"TITLE", b!"A (b"), (b!"author", b!"Ada"), (b!"creation_Date", b!"2024-02-29T23:05:09+05:30"), (b!"Dept_7", b!"R&D")] = exMeta := by rfl
  obtain ⟨pdf, x, h1, h2, h3, _, _, h5⟩ := C154_written_partial plainEnv someNow b!"2026-01-02T03:04:05+01:00"
    ⟨2026, 1, 2, 3, 4, 5, 60⟩ (.zone ⟨2026, 1, 2, 3, 4, 5, 60⟩) ⟨by decide, by decide, by decide, by decide, by decide, by decide⟩ (by decide)
    metaOps _ [(b!"TITLE", b!"A (b"), (b!"author", b!"Ada"), (b!"creation_Date", b!"2024-02-29T23:05:09+05:30"), (b!"Dept_7", b!"R&D")]
    (by rw [hf]; exact exMeta_plain) exMetaWriter (by unfold setMetadataFields; rw [hf]; rfl)
    (by intro op hop; simp at hop; rcases hop with rfl | rfl <;> exact trivial)
    exMeta_fits
    (by
      intro t ht
      unfold setMetadataFields at ht
      rw [hf] at ht
      have : t = b!"<</Author (Ada) /CreationDate (D:20240229230509+05'30) /Dept_7 (R&D) /ModDate (D:20260102030405+01'00) /Title (A \\(b) >>" := by
        have : Writer.getObject exMetaWriter 4 = some b!"<</Author (Ada) /CreationDate (D:20240229230509+05'30) /Dept_7 (R&D) /ModDate (D:20260102030405+01'00) /Title (A \\(b) >>" := by
          decide +kernel
        exact Option.some.inj (ht.symm.trans this)
      subst this
      refine ⟨?_, by decide +kernel, .inl ?_⟩ <;> (rw [Incremental.absent_iff (by decide), noOcc_iff_index]; decide +kernel))
    (by decide +kernel) readEnv rfl
  exact ⟨pdf, x, h1, h2, (h3 0 (by omega)).trans (by decide), (h5 _).trans (by decide)⟩

/-- C152 is violated: the number of pages is the number of objects – the document of one page is said to have five. -/
theorem C152_pages_violated : ∃ pdf x, Incremental.openPdf readEnv (Writer.write plainEnv exMetaWriter).1 = .ok pdf ∧
    extractMetadata readEnv pdf = .ok x ∧ x.pageCount = 5 ∧ Manipulate.allPages (Outline.pdfGet readEnv pdf) pdf.root 9 = some (some [3]) := by
  have key : (match Incremental.openPdf readEnv (Writer.write plainEnv exMetaWriter).1 with
    | .ok pdf => (match extractMetadata readEnv pdf with | .ok x => x.pageCount == 5 | _ => false) &&
        Manipulate.allPages (Outline.pdfGet readEnv pdf) pdf.root 9 == some (some [3])
    | _ => false) = true := by decide +kernel
  cases h1 : Incremental.openPdf readEnv (Writer.write plainEnv exMetaWriter).1 with
  | ok pdf =>
    rw [h1] at key
    simp only at key
    cases h2 : extractMetadata readEnv pdf with
    | ok x =>
      rw [h2] at key
      simp only [Bool.and_eq_true, beq_iff_eq] at key
      exact ⟨pdf, x, rfl, h2, key.1, key.2⟩
    | err => rw [h2] at key; simp at key
    | panic => rw [h2] at key; simp at key
  | err => rw [h1] at key; simp at key
  | panic => rw [h1] at key; simp at key

/-- C152 is violated: a custom field whose name has another character, such as a hyphen, does not come back, and a text is cut at its first closing
parenthesis. -/
theorem C152_custom_violated :
    readCustom (infoText (normDate someNow) b!"D:2026" { custom := [(b!"Due-Date", b!"1999")] }) = [] ∧
    (parseInfo (infoText (normDate someNow) b!"D:2026" { title := b!"f(x) = 1" })).title ≠ b!"f(x) = 1" := by decide +kernel

end Pdfer.Props
