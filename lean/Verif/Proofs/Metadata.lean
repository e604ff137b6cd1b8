import Verif.Model.Metadata
import Verif.Proofs.InfoDict
import Verif.Proofs.FieldText
import Verif.Proofs.OpenWritten

/-! Lemmas about reading a whole Info dictionary and about finding it in a file. -/

namespace Pdfer.Metadata

open Pdfer.Go Pdfer.Strings Pdfer.Writer

/-! ### The entries of a plain dictionary -/

/-- An entry the reader of custom fields understands: the name and the stored string. -/
structure PlainEntry (k : Bytes) (v : PVal) (name s : Bytes) : Prop where
  key : k = 47 :: name
  ne : name ≠ []
  word : ∀ c ∈ name, isWord c = true
  val : v = .str s
  raw : ((b!"/").isPrefixOf s || (b!" R").isSuffixOf s) = false
  close : (41 : UInt8) ∉ s

theorem word_not {c : UInt8} (h : isWord c = true) : c ≠ 47 ∧ c ≠ 40 ∧ reSpace c = false := by
  have : ∀ c : UInt8, isWord c = true → c ≠ 47 ∧ c ≠ 40 ∧ reSpace c = false := by apply forall_byte; decide +kernel
  exact this c h

theorem reCustom_miss {c : UInt8} {s : Bytes} (h : c ≠ 47) : reCustom (c :: s) = none := by
  unfold reCustom
  rw [reLit_ne (fun e => h e.symm)]
  rfl

theorem findAll_custom_skip (a t : Bytes) (h : (47 : UInt8) ∉ a) : Forms.findAll reCustom 0 (a ++ t) = Forms.findAll reCustom 0 t := by
  induction a with
  | nil => rfl
  | cons c a ih =>
    rw [List.cons_append, Forms.findAll_miss (reCustom_miss (by rintro rfl; simp at h))]
    exact ih (fun hm => h (by simp [hm]))

theorem reCustom_entry {name s : Bytes} (hne : name ≠ []) (hw : ∀ c ∈ name, isWord c = true) (hs : (41 : UInt8) ∉ s) (t : Bytes) :
    reCustom ((47 :: name ++ b!" " ++ (40 :: s ++ [41])) ++ t) = some ((name, s), t) := by
  have e : (47 :: name ++ b!" " ++ (40 :: s ++ [41])) ++ t = b!"/" ++ (name ++ (32 :: ((40 :: s ++ [41]) ++ t))) := by simp
  have h1 : (name ++ (32 :: ((40 :: s ++ [41]) ++ t))).takeWhile isWord = name := by
    rw [List.takeWhile_append_of_pos hw, List.takeWhile_cons_of_neg (by decide), List.append_nil]
  have h2 : (name ++ (32 :: ((40 :: s ++ [41]) ++ t))).dropWhile isWord = 32 :: ((40 :: s ++ [41]) ++ t) := by
    rw [List.dropWhile_append_of_pos hw, List.dropWhile_cons_of_neg (by decide)]
  have h3 : reSp0 (32 :: ((40 :: s ++ [41]) ++ t)) = (40 :: s ++ [41]) ++ t := by
    unfold reSp0
    rw [List.dropWhile_cons_of_pos (by decide), List.cons_append, List.cons_append, List.dropWhile_cons_of_neg (by decide)]
  rw [e]
  unfold reCustom
  rw [reLit_append, Option.bind_some, h1, h2, h3, Forms.reParen_here hs, if_neg hne]
  rfl

/-- Everything that is found in the text of a dictionary of plain entries. -/
theorem findAll_dict (pre post : Bytes) (hpre : (47 : UInt8) ∉ pre) (hpost : (47 : UInt8) ∉ post) (d : Dict)
    (hd : ∀ e ∈ d, ∃ name s, PlainEntry e.1 e.2 name s) :
    ∃ L : List (Bytes × Bytes), L.Perm (d.map fun e => (e.1.drop 1, match e.2 with | .str s => s | _ => [])) ∧
      Forms.findAll reCustom 0 (pre ++ formatDictionary d ++ post) = L := by
  have hfe : formatEntries id d = d.map (fun e => (e.1, formatValue id e.2)) := by
    clear hd
    induction d with
    | nil => rfl
    | cons e d ih => obtain ⟨k, x⟩ := e; rw [formatEntries, ih]; rfl
  refine ⟨_, ?_, rfl⟩
  have hperm := sortBy_perm (fun a b : Bytes × Bytes => bytesLe a.1 b.1) (d.map (fun e => (e.1, formatValue id e.2)))
  unfold formatDictionary formatDictOrd
  rw [formatValue, id, hfe, renderEntries]
  generalize sortBy (fun a b : Bytes × Bytes => bytesLe a.1 b.1) (d.map (fun e => (e.1, formatValue id e.2))) = L at *
  have hL : ∀ e ∈ L, ∃ name s, e.1 = 47 :: name ∧ name ≠ [] ∧ (∀ c ∈ name, isWord c = true) ∧ e.2 = 40 :: s ++ [41] ∧ (41 : UInt8) ∉ s := by
    intro e he
    rw [hperm.mem_iff, List.mem_map] at he
    obtain ⟨x, hx, rfl⟩ := he
    obtain ⟨name, s, h⟩ := hd x hx
    refine ⟨name, s, h.key, h.ne, h.word, ?_, h.close⟩
    simp only
    rw [h.val, formatValue, h.raw]
    simp
  have key : ∀ L : List (Bytes × Bytes), (∀ e ∈ L, ∃ name s, e.1 = 47 :: name ∧ name ≠ [] ∧ (∀ c ∈ name, isWord c = true) ∧ e.2 = 40 :: s ++ [41] ∧
      (41 : UInt8) ∉ s) → ∀ t, Forms.findAll reCustom 0 ((L.flatMap fun e => slashKey e.1 ++ b!" " ++ e.2 ++ b!" ") ++ t) =
        (L.map fun e => (e.1.drop 1, (e.2.drop 1).dropLast)) ++ Forms.findAll reCustom 0 t := by
    intro L hL
    induction L with
    | nil => intro t; rfl
    | cons e L ih =>
      intro t
      obtain ⟨name, s, h1, h2, h3, h4, h5⟩ := hL e (by simp)
      have hsl : slashKey e.1 = 47 :: name := by rw [h1]; simp [slashKey]
      rw [List.flatMap_cons, hsl, h4, List.append_assoc, List.append_assoc,
        Forms.findAll_here (by simp) (reCustom_entry h2 h3 h5 _), findAll_custom_skip b!" " _ (by decide), ih (fun x hx => hL x (by simp [hx])),
        List.map_cons, h1, h4]
      simp
  have e1 : pre ++ (b!"<<" ++ (L.flatMap fun e => slashKey e.1 ++ b!" " ++ e.2 ++ b!" ") ++ b!">>") ++ post =
      (pre ++ b!"<<") ++ ((L.flatMap fun e => slashKey e.1 ++ b!" " ++ e.2 ++ b!" ") ++ (b!">>" ++ post ++ [])) := by simp
  rw [e1, findAll_custom_skip _ _ (by simp [hpre]), key L hL, findAll_custom_skip (b!">>" ++ post) [] (by simp [hpost])]
  have e2 : Forms.findAll reCustom 0 ([] : Bytes) = [] := rfl
  rw [e2, List.append_nil]
  have e3 : (d.map fun e => (e.1.drop 1, match e.2 with | .str s => s | _ => [])) =
      (d.map (fun e => (e.1, formatValue id e.2))).map fun e => (e.1.drop 1, (e.2.drop 1).dropLast) := by
    rw [List.map_map]
    apply List.map_congr_left
    intro e he
    obtain ⟨name, s, h⟩ := hd e he
    simp only [Function.comp_apply]
    rw [h.val, formatValue, h.raw]
    simp
  rw [e3]
  exact hperm.map _

/-- The map of the custom fields read from a list of matches with different names. -/
theorem readCustom_fold (f : Bytes → Bytes) (std : List Bytes) (L : List (Bytes × Bytes)) (hn : (L.map Prod.fst).Nodup) (m : Map Bytes Bytes) (k : Bytes) :
    Map.get (L.foldl (fun m e => if e.1 ∈ std then m else m.set e.1 (f e.2)) m) k =
      if k ∈ std then m.get k else (((Map.get L k).map f).or (m.get k)) := by
  induction L generalizing m with
  | nil => simp [Map.get]
  | cons e L ih =>
    obtain ⟨k', v⟩ := e
    obtain ⟨hn1, hn2⟩ := List.nodup_cons.1 hn
    rw [List.foldl_cons, ih hn2]
    by_cases hk : k = k'
    · subst hk
      by_cases hs : k ∈ std
      · rw [if_pos hs, if_pos hs, if_pos hs]
      · rw [if_neg hs, if_neg hs, if_neg hs]
        have h0 : Map.get L k = none := by
          rw [Map.get_none_iff]; exact hn1
        rw [h0, Map.get_set_eq]
        simp [Map.get]
    · have h1 : Map.get ((k', v) :: L) k = Map.get L k := by
        simp only [Map.get]
        rw [List.find?_cons_of_neg (by simpa using fun e => hk e.symm)]
      rw [h1]
      have h2 : Map.get (if k' ∈ std then m else m.set k' (f v)) k = Map.get m k := by
        split
        · rfl
        · exact Map.get_set_ne _ _ hk
      rw [h2]

/-! ### The dictionary as a list of pairs -/

/-- `SetMetadata`, one pair after the other. -/
def putPairs (ps : List (Bytes × Bytes)) (d : Dict) : Dict := ps.foldl (fun d e => putText e.1 e.2 d) d

theorem putPairs_nodup (ps : List (Bytes × Bytes)) (d : Dict) (h : d.keys.Nodup) : (putPairs ps d).keys.Nodup := by
  induction ps generalizing d with
  | nil => exact h
  | cons e ps ih =>
    refine ih _ ?_
    show (putText e.1 e.2 d).keys.Nodup
    unfold putText
    split
    · exact h
    · exact Map.nodup_set _ _ _ h

theorem putPairs_get (ps : List (Bytes × Bytes)) (hn : (ps.map Prod.fst).Nodup) (d : Dict) (k : Bytes) (hd : ∀ e ∈ ps, d.get e.1 = none) :
    (putPairs ps d).get k = ((Map.get ps k).bind fun v => if v = [] then none else some (.str (escapeMeta v))).or (d.get k) := by
  induction ps generalizing d with
  | nil => simp [putPairs, Map.get]
  | cons e ps ih =>
    obtain ⟨k', v⟩ := e
    obtain ⟨hn1, hn2⟩ := List.nodup_cons.1 hn
    have step : putPairs ((k', v) :: ps) d = putPairs ps (putText k' v d) := rfl
    rw [step, ih hn2]
    · by_cases hk : k = k'
      · subst hk
        have h0 : Map.get ps k = none := by rw [Map.get_none_iff]; exact hn1
        rw [h0]
        have h1 : Map.get ((k, v) :: ps) k = some v := by simp [Map.get]
        rw [h1]
        by_cases hv : v = []
        · subst hv
          simp [putText]
        · simp [putText, hv, Map.get_set_eq]
      · have h1 : Map.get ((k', v) :: ps) k = Map.get ps k := by
          simp only [Map.get]
          rw [List.find?_cons_of_neg (by simpa using fun e => hk e.symm)]
        rw [h1, get_putText_ne _ _ hk]
    · intro e he
      have : e.1 ≠ k' := fun h => hn1 (List.mem_map.2 ⟨e, he, h⟩)
      rw [get_putText_ne _ _ this]
      exact hd e (by simp [he])

theorem putPairs_mem {ps : List (Bytes × Bytes)} {e : Bytes × PVal} (h : e ∈ putPairs ps []) :
    ∃ v, (e.1, v) ∈ ps ∧ v ≠ [] ∧ e.2 = .str (escapeMeta v) := by
  have key : ∀ (ps : List (Bytes × Bytes)) (d : Dict), e ∈ putPairs ps d → e ∈ d ∨ ∃ v, (e.1, v) ∈ ps ∧ v ≠ [] ∧ e.2 = .str (escapeMeta v) := by
    intro ps
    induction ps with
    | nil => intro d h; exact Or.inl h
    | cons p ps ih =>
      intro d h
      rcases ih (putText p.1 p.2 d) h with h | ⟨v, h1, h2⟩
      · unfold putText at h
        by_cases hv : p.2 = []
        · rw [if_pos hv] at h; exact Or.inl h
        · rw [if_neg hv] at h
          simp only [Map.set, List.mem_cons] at h
          rcases h with rfl | h
          · exact Or.inr ⟨p.2, by simp, hv, rfl⟩
          · exact Or.inl (List.mem_filter.1 h).1
      · exact Or.inr ⟨v, by simp [h1], h2⟩
  rcases key ps [] h with h | h
  · cases h
  · exact h

/-! ### Dates -/

/-- The text stored for a date that is given. -/
def storedDate (now : DateTime) (d : Bytes) : Bytes := if (b!"D:").isPrefixOf d then d else normDate now d

/-- A character that needs no escape: ASCII, no white space, parenthesis or backslash. -/
def dateChar (c : UInt8) : Bool := decide (32 < c ∧ c < 127 ∧ c ≠ 40 ∧ c ≠ 41 ∧ c ≠ 92)

theorem runes_ascii (s : Bytes) (h : ∀ c ∈ s, c < 0x80) : runes s = s.map UInt8.toNat := by
  unfold runes
  induction s with
  | nil => rfl
  | cons c s ih =>
    have hc := h c (by simp)
    simp only [runesFrom, decodeRune, if_pos hc, List.map_cons]
    rw [ih (fun d hd => h d (by simp [hd]))]

theorem escape_dateChars (d : Bytes) (h : ∀ c ∈ d, dateChar c = true) : escapePDFString d = d ∧ escapeMeta d = d := by
  have h1 : ∀ c : UInt8, dateChar c = true → c < 0x80 ∧ escRune c.toNat = [c] ∧ escByte c = [c] := by
    apply forall_byte; decide +kernel
  have key : ∀ (f : UInt8 → Bytes) (l : Bytes), (∀ c ∈ l, f c = [c]) → l.flatMap f = l := by
    intro f l hl
    induction l with
    | nil => rfl
    | cons c l ih => rw [List.flatMap_cons, hl c (by simp), ih (fun x hx => hl x (by simp [hx]))]; rfl
  refine ⟨?_, ?_⟩
  · unfold escapePDFString
    rw [runes_ascii d (fun c hc => (h1 c (h c hc)).1), List.flatMap_map]
    exact key _ _ (fun c hc => (h1 c (h c hc)).2.1)
  · rw [escapeMeta_eq]
    exact key _ _ (fun c hc => (h1 c (h c hc)).2.2)

theorem dateText_plain (t : DateTime) : ∀ c ∈ dateText t, dateChar c = true := by
  have hd : ∀ c : UInt8, (isDigit c = true → dateChar c = true) := forall_byte (by decide +kernel)
  have pd : ∀ k n, ∀ c ∈ padDec k n, dateChar c = true := fun k n c hc => hd c (padDec_digits k n c hc)
  have p2 : ∀ n, ∀ c ∈ pad2 n, dateChar c = true := by
    intro n c hc
    unfold pad2 at hc
    split at hc
    · rcases List.mem_append.1 hc with h | h
      · simp at h; subst h; rfl
      · exact pd _ _ c h
    · exact pd _ _ c hc
  have hz : ∀ c ∈ zoneText t.offset, dateChar c = true := by
    intro c hc
    unfold zoneText at hc
    simp only at hc
    split at hc <;> simp only [List.mem_append, List.mem_cons, List.not_mem_nil, or_false] at hc <;>
      rcases hc with ((rfl | h) | rfl) | h <;> first | rfl | exact p2 _ c h
  intro c hc
  unfold dateText at hc
  simp only [List.mem_append] at hc
  rcases hc with ((((((h | h) | h) | h) | h) | h) | h) | h
  · simp at h; rcases h with rfl | rfl <;> rfl
  all_goals first | exact pd _ _ c h | exact hz c h

theorem dateText_head (t : DateTime) : ∃ r, dateText t = 68 :: r := ⟨_, by simp [dateText]; rfl⟩

/-- A date in PDF format has to be made of characters that need no escape. -/
def DateOk (d : Bytes) : Prop := (b!"D:").isPrefixOf d = true → ∀ c ∈ d, dateChar c = true

theorem storedDate_plain {now : DateTime} {d : Bytes} (h : DateOk d) :
    (∀ c ∈ storedDate now d, dateChar c = true) ∧ ∃ r, storedDate now d = 68 :: r := by
  unfold storedDate
  split
  · rename_i hp
    refine ⟨h hp, ?_⟩
    rw [List.isPrefixOf_iff_prefix] at hp
    obtain ⟨r, rfl⟩ := hp
    exact ⟨_, rfl⟩
  · exact ⟨dateText_plain _, dateText_head _⟩

theorem format_stored {now : DateTime} {d : Bytes} (h : DateOk d) (h0 : d ≠ []) :
    formatPDFDate (normDate now) d = escapeMeta (storedDate now d) := by
  unfold formatPDFDate storedDate
  rw [if_neg h0]
  split
  · rename_i hp
    rw [(escape_dateChars d (h hp)).1, (escape_dateChars d (h hp)).2]
  · rfl

/-- The pairs `SetMetadata` writes. -/
def stdPairs (now : DateTime) (nowText : Bytes) (m : Strings.Metadata) : List (Bytes × Bytes) :=
  [(b!"/Title", m.title), (b!"/Author", m.author), (b!"/Subject", m.subject), (b!"/Keywords", m.keywords), (b!"/Creator", m.creator),
   (b!"/Producer", m.producer), (b!"/CreationDate", if m.creationDate = [] then [] else storedDate now m.creationDate),
   (b!"/ModDate", storedDate now (if m.modDate = [] then nowText else m.modDate))]

def allPairs (now : DateTime) (nowText : Bytes) (m : Strings.Metadata) : List (Bytes × Bytes) :=
  stdPairs now nowText m ++ m.custom.map fun e => (slashKey e.1, e.2)

theorem putDate_pair {now : DateTime} {k d : Bytes} (h : DateOk d) (D : Dict) :
    putDate (normDate now) k d D = putText k (if d = [] then [] else storedDate now d) D := by
  unfold putDate putText
  by_cases h0 : d = []
  · simp [h0]
  · obtain ⟨r, hr⟩ := (storedDate_plain (now := now) h).2
    rw [if_neg h0, if_neg h0, if_neg (by rw [hr]; simp), format_stored h h0]

theorem infoDict_pairs (now : DateTime) (nowText : Bytes) (m : Strings.Metadata) (h1 : DateOk m.creationDate) (h2 : DateOk m.modDate)
    (h3 : DateOk nowText) (h4 : nowText ≠ []) (hc : ∀ e ∈ m.custom, e.1 ≠ []) :
    infoDict (normDate now) nowText m = putPairs (allPairs now nowText m) [] := by
  have key : ∀ (cs : List (Bytes × Bytes)) (d : Dict), (∀ e ∈ cs, e.1 ≠ []) →
      putCustom cs d = putPairs (cs.map fun e => (slashKey e.1, e.2)) d := by
    intro cs
    induction cs with
    | nil => intro d _; rfl
    | cons e cs ih =>
      intro d h
      have he := h e (by simp)
      have : putCustom (e :: cs) d = putCustom cs (putText (slashKey e.1) e.2 d) := by
        unfold putCustom putText
        rw [List.foldl_cons]
        by_cases hv : e.2 = []
        · simp [hv]
        · simp [hv, he]
      rw [this, ih _ (fun x hx => h x (by simp [hx]))]
      rfl
  have e1 : putPairs (allPairs now nowText m) [] = putPairs (m.custom.map fun e => (slashKey e.1, e.2)) (putPairs (stdPairs now nowText m) []) := by
    unfold putPairs allPairs
    rw [List.foldl_append]
  rw [e1, ← key _ _ hc]
  unfold infoDict
  simp only
  rw [putDate_pair h1, putDate_pair h2]
  congr 1
  have e2 : putPairs (stdPairs now nowText m) [] = putText b!"/ModDate" (storedDate now (if m.modDate = [] then nowText else m.modDate))
      (putText b!"/CreationDate" (if m.creationDate = [] then [] else storedDate now m.creationDate) (putText b!"/Producer" m.producer
        (putText b!"/Creator" m.creator (putText b!"/Keywords" m.keywords (putText b!"/Subject" m.subject (putText b!"/Author" m.author
          (putText b!"/Title" m.title []))))))) := rfl
  rw [e2]
  generalize putText b!"/CreationDate" _ _ = D
  by_cases h0 : m.modDate = []
  · obtain ⟨r, hr⟩ := (storedDate_plain (now := now) h3).2
    rw [if_pos h0, if_pos h0, if_pos h0, format_stored h3 h4]
    have e3 : putText b!"/ModDate" [] D = D := rfl
    rw [e3]
    unfold putText
    rw [if_neg (by rw [hr]; simp)]
  · rw [if_neg h0, if_neg h0, if_neg h0]

/-! ### Reading it all back -/

/-- Which strings survive being stored and read back. -/
theorem survives (s : Bytes) : unescapePDFString (escapeMeta s) = s ↔ ∀ u x v, s = u ++ 92 :: x :: v → x ≠ 110 ∧ x ≠ 114 ∧ x ≠ 116 := by
  rw [escapeMeta_eq, unescape_escape]; exact mangled_eq_iff s

/-- A value that comes back: no `)`, no backslash before n, r or t, not beginning with `/` and not ending in ` R`. -/
structure PlainText (v : Bytes) : Prop where
  close : (41 : UInt8) ∉ v
  esc : ∀ u x w, v = u ++ 92 :: x :: w → x ≠ 110 ∧ x ≠ 114 ∧ x ≠ 116
  slash : v.head? ≠ some 47
  ref : ¬ b!" R" <:+ v

/-- Metadata whose values come back. -/
structure PlainMeta (nowText : Bytes) (m : Strings.Metadata) : Prop where
  texts : ∀ v ∈ [m.title, m.author, m.subject, m.keywords, m.creator, m.producer], PlainText v
  dates : DateOk m.creationDate ∧ DateOk m.modDate
  now : DateOk nowText ∧ nowText ≠ []
  keys : ∀ e ∈ m.custom, e.1 ≠ [] ∧ (∀ c ∈ e.1, isWord c = true) ∧ e.1 ∉ standardNames
  once : m.custom.keys.Nodup
  values : ∀ e ∈ m.custom, PlainText e.2 ∧ e.2 ≠ []

theorem plain_nil : PlainText [] := ⟨by simp, by simp, by simp, by decide⟩

theorem plain_date {now : DateTime} {d : Bytes} (h : DateOk d) : PlainText (storedDate now d) := by
  obtain ⟨h1, r, h2⟩ := storedDate_plain (now := now) h
  refine ⟨fun hm => absurd (h1 _ hm) (by decide), ?_, by rw [h2]; simp, ?_⟩
  · intro u x w e
    exact absurd (h1 92 (by rw [e]; simp)) (by decide)
  · rintro ⟨u, hu⟩
    exact absurd (h1 32 (by rw [← hu]; simp)) (by decide)

theorem slashKey_word {k : Bytes} (h0 : k ≠ []) (h : ∀ c ∈ k, isWord c = true) : slashKey k = 47 :: k := by
  unfold slashKey
  cases k with
  | nil => exact absurd rfl h0
  | cons c k =>
    have := (word_not (h c (by simp))).1
    rw [if_neg (by simp; exact fun e => this e.symm)]

/-- What is known about every pair. -/
theorem pair_plain {now : DateTime} {nowText : Bytes} {m : Strings.Metadata} (h : PlainMeta nowText m) {k v : Bytes}
    (hkv : (k, v) ∈ allPairs now nowText m) :
    PlainText v ∧ ∃ name, k = 47 :: name ∧ name ≠ [] ∧ ∀ c ∈ name, isWord c = true := by
  have lit : ∀ name : Bytes, name ≠ [] → name.all isWord = true → ∃ n, 47 :: name = 47 :: n ∧ n ≠ [] ∧ ∀ c ∈ n, isWord c = true := by
    intro name h1 h2
    exact ⟨name, rfl, h1, by simpa using h2⟩
  have hs := h.texts
  simp only [List.mem_cons, List.not_mem_nil, or_false, forall_eq_or_imp, forall_eq] at hs
  obtain ⟨t1, t2, t3, t4, t5, t6⟩ := hs
  unfold allPairs at hkv
  rcases List.mem_append.1 hkv with hm | hm
  · simp only [stdPairs, List.mem_cons, Prod.mk.injEq, List.not_mem_nil, or_false] at hm
    rcases hm with ⟨rfl, rfl⟩ | ⟨rfl, rfl⟩ | ⟨rfl, rfl⟩ | ⟨rfl, rfl⟩ | ⟨rfl, rfl⟩ | ⟨rfl, rfl⟩ | ⟨rfl, rfl⟩ | ⟨rfl, rfl⟩
    · exact ⟨t1, lit _ (by decide) (by decide)⟩
    · exact ⟨t2, lit _ (by decide) (by decide)⟩
    · exact ⟨t3, lit _ (by decide) (by decide)⟩
    · exact ⟨t4, lit _ (by decide) (by decide)⟩
    · exact ⟨t5, lit _ (by decide) (by decide)⟩
    · exact ⟨t6, lit _ (by decide) (by decide)⟩
    · refine ⟨?_, lit _ (by decide) (by decide)⟩
      split
      · exact plain_nil
      · exact plain_date h.dates.1
    · refine ⟨?_, lit _ (by decide) (by decide)⟩
      apply plain_date
      split
      · exact h.now.1
      · exact h.dates.2
  · obtain ⟨e, he, heq⟩ := List.mem_map.1 hm
    simp only [Prod.mk.injEq] at heq
    obtain ⟨rfl, rfl⟩ := heq
    obtain ⟨k1, k2, _⟩ := h.keys e he
    exact ⟨(h.values e he).1, e.1, slashKey_word k1 k2, k1, k2⟩

theorem pairs_nodup {now : DateTime} {nowText : Bytes} {m : Strings.Metadata} (h : PlainMeta nowText m) :
    ((allPairs now nowText m).map Prod.fst).Nodup := by
  unfold allPairs
  rw [List.map_append, List.nodup_append]
  have e1 : (stdPairs now nowText m).map Prod.fst = standardNames.map (47 :: ·) := rfl
  have e2 : (m.custom.map fun e => (slashKey e.1, e.2)).map Prod.fst = m.custom.keys.map (47 :: ·) := by
    simp only [List.map_map, Map.keys]
    apply List.map_congr_left
    intro e he
    exact slashKey_word (h.keys e he).1 (h.keys e he).2.1
  rw [e1, e2]
  refine ⟨by decide, ?_, ?_⟩
  · exact List.Pairwise.map _ (fun a b hab hc => hab (by simpa using hc)) h.once
  · intro a ha b hb hab
    obtain ⟨x, hx, rfl⟩ := List.mem_map.1 ha
    obtain ⟨y, hy, rfl⟩ := List.mem_map.1 hb
    simp only [List.cons.injEq, true_and] at hab
    subst hab
    obtain ⟨e, he, rfl⟩ := List.mem_map.1 hy
    exact (h.keys e he).2.2 hx

theorem plain_entries {now : DateTime} {nowText : Bytes} {m : Strings.Metadata} (h : PlainMeta nowText m) :
    ∀ e ∈ putPairs (allPairs now nowText m) [], ∃ v, (e.1, v) ∈ allPairs now nowText m ∧ v ≠ [] ∧ e.2 = .str (escapeMeta v) ∧
      (GoodKey e.1 ∧ ∃ s, ParenEsc s ∧ e.2 = .str s) ∧ ∃ name, PlainEntry e.1 e.2 name (escapeMeta v) := by
  intro e he
  obtain ⟨v, h1, h2, h3⟩ := putPairs_mem he
  obtain ⟨hp, name, k1, k2, k3⟩ := pair_plain h h1
  refine ⟨v, h1, h2, h3, ⟨⟨name, k1, fun c hc => word_not (k3 c hc)⟩, _, parenEsc_escapeMeta v, h3⟩, name, k1, k2, k3, h3,
    escape_not_raw v hp.slash hp.ref, ?_⟩
  rw [escapeMeta_eq]
  intro hm
  obtain ⟨b, hb, hcb⟩ := List.mem_flatMap.1 hm
  have hb41 : b ≠ 41 := fun e => hp.close (e ▸ hb)
  have : ∀ b : UInt8, b ≠ 41 → (41 : UInt8) ∉ escByte b := by apply forall_byte; decide +kernel
  exact this b hb41 hcb

/-- A standard field read from the object. -/
theorem read_std {now : DateTime} {nowText : Bytes} {m : Strings.Metadata} (h : PlainMeta nowText m) (pre post : Bytes)
    (hpre : (47 : UInt8) ∉ pre) (hpost : (47 : UInt8) ∉ post) {k v : Bytes} (hkv : (k, v) ∈ stdPairs now nowText m) :
    (readInfo k (pre ++ infoText (normDate now) nowText m ++ post)).getD [] = v := by
  have hall : (k, v) ∈ allPairs now nowText m := List.mem_append_left _ hkv
  have hn := pairs_nodup (now := now) h
  have hsearch : SearchKey k := by
    have hk : k ∈ standardNames.map (47 :: ·) := List.mem_map_of_mem (f := Prod.fst) hkv
    have : ∀ k ∈ standardNames.map (47 :: ·), k.head? = some 47 ∧ (92 : UInt8) ∉ k ∧ (32 : UInt8) ∉ k ∧ (41 : UInt8) ∉ k := by decide
    obtain ⟨a, b, c, d⟩ := this k hk
    refine ⟨?_, b, c, d⟩
    cases k with
    | nil => simp at a
    | cons x k => simp at a; exact ⟨k, by rw [a]⟩
  have hget := putPairs_get _ hn [] k (fun _ _ => rfl)
  rw [(Map.get_eq_some_iff (allPairs now nowText m) hn k v).2 hall] at hget
  have hp := (pair_plain h hall).1
  unfold infoText
  rw [infoDict_pairs now nowText m h.dates.1 h.dates.2 h.now.1 h.now.2 (fun e he => (h.keys e he).1)]
  have hnd := putPairs_nodup (allPairs now nowText m) [] (by simp [Map.keys])
  by_cases hv : v = []
  · subst hv
    rw [readInfo_absent hsearch pre post hpre hpost _ (fun e he => by obtain ⟨_, _, _, _, hh, _⟩ := plain_entries h e he; exact hh)]
    · rfl
    · rw [← Map.get_none_iff, hget]
      simp [Map.get]
  · have hg : (putPairs (allPairs now nowText m) []).get k = some (.str (escapeMeta v)) := by
      rw [hget]; simp [hv]
    rw [readInfo_around hsearch pre post hpre _ hnd (fun e he => by obtain ⟨_, _, _, _, hh, _⟩ := plain_entries h e he; exact hh) v hg hp.close
      (escape_not_raw v hp.slash hp.ref)]
    have := (survives v).2 hp.esc
    rw [this]
    rfl

/-- The custom fields read from the object. -/
theorem read_custom {now : DateTime} {nowText : Bytes} {m : Strings.Metadata} (h : PlainMeta nowText m) (pre post : Bytes)
    (hpre : (47 : UInt8) ∉ pre) (hpost : (47 : UInt8) ∉ post) (k : Bytes) :
    (readCustom (pre ++ infoText (normDate now) nowText m ++ post)).get k = m.custom.get k := by
  have hn := pairs_nodup (now := now) h
  unfold infoText
  rw [infoDict_pairs now nowText m h.dates.1 h.dates.2 h.now.1 h.now.2 (fun e he => (h.keys e he).1)]
  have hnd := putPairs_nodup (allPairs now nowText m) [] (by simp [Map.keys])
  obtain ⟨L, hL, hf⟩ := findAll_dict pre post hpre hpost (putPairs (allPairs now nowText m) [])
    (fun e he => by obtain ⟨_, _, _, _, _, hh⟩ := plain_entries h e he; exact ⟨_, _, hh.choose_spec⟩)
  unfold readCustom
  rw [hf]
  have hkeys : ∀ e ∈ putPairs (allPairs now nowText m) [], e.1 = 47 :: e.1.drop 1 := by
    intro e he
    obtain ⟨_, _, _, _, _, name, hh⟩ := plain_entries h e he
    rw [hh.key]; rfl
  have hLn : (L.map Prod.fst).Nodup := by
    rw [(hL.map Prod.fst).nodup_iff, List.map_map]
    have : (fun e : Bytes × PVal => e.1.drop 1) = (Prod.fst ∘ fun e : Bytes × PVal => (e.1.drop 1, match e.2 with | .str s => s | _ => [])) := rfl
    rw [← this, show (fun e : Bytes × PVal => e.1.drop 1) = (fun k : Bytes => k.drop 1) ∘ Prod.fst from rfl, ← List.map_map]
    have hp : ((putPairs (allPairs now nowText m) []).map Prod.fst).Pairwise (fun a b => a.drop 1 ≠ b.drop 1) := by
      refine List.Pairwise.imp_of_mem ?_ hnd
      intro a b ha hb hab hc
      obtain ⟨x, hx, rfl⟩ := List.mem_map.1 ha
      obtain ⟨y, hy, rfl⟩ := List.mem_map.1 hb
      exact hab (by rw [hkeys x hx, hkeys y hy, hc])
    exact List.Pairwise.map _ (fun _ _ h => h) hp
  rw [readCustom_fold unescapePDFString standardNames L hLn [] k]
  have hL2 : ∀ s, Map.get L k = some s ↔ (putPairs (allPairs now nowText m) []).get (47 :: k) = some (.str s) := by
    intro s
    rw [Map.get_eq_some_iff L hLn, Map.get_eq_some_iff _ hnd, hL.mem_iff, List.mem_map]
    constructor
    · rintro ⟨e, he, heq⟩
      obtain ⟨v, _, _, h3, _, name, hh⟩ := plain_entries h e he
      simp only [Prod.mk.injEq] at heq
      rw [h3] at heq
      obtain ⟨rfl, h5⟩ := heq
      simp only at h5
      subst h5
      rw [← hkeys e he, ← h3]
      exact he
    · intro he
      exact ⟨_, he, rfl⟩
  by_cases hs : k ∈ standardNames
  · rw [if_pos hs]
    have : m.custom.get k = none := by
      rw [Map.get_none_iff]
      intro hk
      obtain ⟨e, he, rfl⟩ := List.mem_map.1 hk
      exact (h.keys e he).2.2 hs
    rw [this]
    rfl
  · rw [if_neg hs]
    have e0 : Map.get ([] : Map Bytes Bytes) k = none := rfl
    rw [e0, Option.or_none]
    have hget := putPairs_get _ hn [] (47 :: k) (fun _ _ => rfl)
    have e1 : Map.get ([] : Dict) (47 :: k) = none := rfl
    rw [e1, Option.or_none] at hget
    cases hc : m.custom.get k with
    | none =>
      have : Map.get (allPairs now nowText m) (47 :: k) = none := by
        rw [Map.get_none_iff]
        intro hm
        obtain ⟨e, he, heq⟩ := List.mem_map.1 hm
        rcases List.mem_append.1 he with he | he
        · have hk : e.1 ∈ standardNames.map (47 :: ·) := List.mem_map_of_mem (f := Prod.fst) he
          rw [heq] at hk
          simp only [List.mem_map, List.cons.injEq, true_and, exists_eq_right] at hk
          exact hs hk
        · obtain ⟨x, hx, rfl⟩ := List.mem_map.1 he
          simp only [slashKey_word (h.keys x hx).1 (h.keys x hx).2.1, List.cons.injEq, true_and] at heq
          rw [Map.get_none_iff] at hc
          exact hc (by rw [← heq]; exact List.mem_map_of_mem (f := Prod.fst) hx)
      rw [this] at hget
      cases hl : Map.get L k with
      | none => rfl
      | some s => rw [(hL2 s).1 hl] at hget; simp at hget
    | some v =>
      have hx := (Map.get_eq_some_iff m.custom h.once k v).1 hc
      have hv := h.values _ hx
      have : Map.get (allPairs now nowText m) (47 :: k) = some v := by
        rw [Map.get_eq_some_iff _ hn]
        refine List.mem_append_right _ (List.mem_map.2 ⟨(k, v), hx, ?_⟩)
        simp only [slashKey_word (h.keys _ hx).1 (h.keys _ hx).2.1]
      rw [this] at hget
      simp only [Option.bind_some, if_neg hv.2] at hget
      rw [(hL2 _).2 hget, Option.map_some, (survives v).2 hv.1.esc]

end Pdfer.Metadata
